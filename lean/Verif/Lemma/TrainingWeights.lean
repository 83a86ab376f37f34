import Verif.Spec.TrainingUpdate
import Verif.Lemma.NNState
import Mathlib.Tactic.Ring
import Mathlib.Tactic.Linarith

/-! Helper lemmas for the weight vector of the training. -/

namespace N2P2

open NetShape

namespace NeuralNetwork

theorem layers_ext {a b : ℕ → Layer} (h0 : a 0 = b 0) (hs : SameLayers b a)
    (hr : ∀ p, readL a p = readL b p)
    (hrest : ∀ i k, ((a i).neurons k).rest = ((b i).neurons k).rest) : a = b := by
  funext i
  cases i with
  | zero => exact h0
  | succ i =>
    obtain ⟨h1, h2, h3⟩ := hs (i + 1)
    have h4 : (a (i + 1)).neurons = (b (i + 1)).neurons := by
      funext k
      have hb := hr (.bias i k)
      have hw := funext fun j => hr (.weight i j k)
      have hr := hrest (i + 1) k
      simp only [readL] at hb hw
      generalize (a (i + 1)).neurons k = x at *
      generalize (b (i + 1)).neurons k = y at *
      cases x; cases y
      simp_all [Neuron.rest]
    generalize a (i + 1) = x at *
    generalize b (i + 1) = y at *
    cases x; cases y
    simp_all

theorem SameTop.layers {a b : NeuralNetwork} (h : SameTop a b) : SameLayers a.layers b.layers :=
  fun i => ⟨h.size i, h.prev i, h.act i⟩

theorem setConnections_layers (nn : NeuralNetwork) (c : Buf) :
    nn.setConnections c = { nn with layers := (nn.setConnections c).layers } := rfl

/-- Setting parameters twice: only the last ones count, and only the entries of existing
parameters. -/
theorem setConnections_setConnections {L : ℕ} {n : ℕ → ℕ} {af : ℕ → Activation}
    {nn : NeuralNetwork} (h : HasShape L n af nn) (c' : Buf) {c d : Buf}
    (hc : ∀ m < offset n (L - 1), c m = d m) :
    (nn.setConnections c').setConnections c = nn.setConnections d := by
  have h' := h.of_same (sameTop_setConnections h c')
  have hl : ((nn.setConnections c').setConnections c).layers = (nn.setConnections d).layers := by
    refine layers_ext ?_ ?_ ?_ ?_
    · rw [layer0_setConnections h', layer0_setConnections h, layer0_setConnections h]
    · intro i
      have a1 := (sameTop_setConnections h c').layers i
      have a2 := (sameTop_setConnections h' c).layers i
      have a3 := (sameTop_setConnections h d).layers i
      exact ⟨by rw [a2.1, a1.1, a3.1], by rw [a2.2.1, a1.2.1, a3.2.1],
        by rw [a2.2.2, a1.2.2, a3.2.2]⟩
    · intro p
      rw [readL_eq, readL_eq]
      by_cases hp : p.Valid L n
      · rw [read_setConnections h' _ hp, read_setConnections h _ hp, hc _ (Param.pos_lt_total hp)]
      · rw [read_setConnections_invalid h' _ hp, read_setConnections_invalid h _ hp,
          read_setConnections_invalid h _ hp]
    · intro i k
      rw [rest_setConnections h', rest_setConnections h, rest_setConnections h]
  rw [setConnections_layers, hl]
  rfl

theorem setConnections_congr {L : ℕ} {n : ℕ → ℕ} {af : ℕ → Activation}
    {nn : NeuralNetwork} (h : HasShape L n af nn) {c d : Buf}
    (hc : ∀ m < offset n (L - 1), c m = d m) : nn.setConnections c = nn.setConnections d := by
  have hl : (nn.setConnections c).layers = (nn.setConnections d).layers := by
    refine layers_ext ?_ ?_ ?_ ?_
    · rw [layer0_setConnections h, layer0_setConnections h]
    · intro i
      have a2 := (sameTop_setConnections h c).layers i
      have a3 := (sameTop_setConnections h d).layers i
      exact ⟨by rw [a2.1, a3.1], by rw [a2.2.1, a3.2.1], by rw [a2.2.2, a3.2.2]⟩
    · intro p
      rw [readL_eq, readL_eq]
      by_cases hp : p.Valid L n
      · rw [read_setConnections h _ hp, read_setConnections h _ hp, hc _ (Param.pos_lt_total hp)]
      · rw [read_setConnections_invalid h _ hp, read_setConnections_invalid h _ hp]
    · intro i k
      rw [rest_setConnections h, rest_setConnections h]
  rw [setConnections_layers, hl]
  rfl

/-- Setting the parameters the network already has changes nothing. -/
theorem setConnections_self {L : ℕ} {n : ℕ → ℕ} {af : ℕ → Activation}
    {nn : NeuralNetwork} (h : HasShape L n af nn) {c : Buf}
    (hc : ∀ p : Param, p.Valid L n → c (p.pos n) = p.read nn) : nn.setConnections c = nn := by
  have hl : (nn.setConnections c).layers = nn.layers := by
    refine layers_ext (layer0_setConnections h c) (sameTop_setConnections h c).layers ?_
      (rest_setConnections h c)
    intro p
    rw [readL_eq, readL_eq]
    by_cases hp : p.Valid L n
    · rw [read_setConnections h _ hp, hc p hp]
    · rw [read_setConnections_invalid h _ hp]
  rw [setConnections_layers, hl]

end NeuralNetwork

namespace Training

open NeuralNetwork

theorem base_zero (T : ℕ → NetShape) (hard : Bool) : base T hard 0 = 0 := rfl

theorem base_succ (T : ℕ → NetShape) (hard : Bool) (i : ℕ) :
    base T hard (i + 1) = base T hard i + ((T i).numParams + if hard then 1 else 0) := by
  rw [base, Finset.sum_range_succ, base]

theorem base_shift (T : ℕ → NetShape) (hard : Bool) (i : ℕ) :
    base T hard (i + 1)
      = (T 0).numParams + (if hard then 1 else 0) + base (fun j => T (j + 1)) hard i := by
  rw [base, Finset.sum_range_succ', base]; ring

theorem base_mono (T : ℕ → NetShape) (hard : Bool) {i j : ℕ} (h : i ≤ j) :
    base T hard i ≤ base T hard j := by
  induction j, h using Nat.le_induction with
  | base => exact le_rfl
  | succ j _ ih => rw [base_succ]; omega

theorem Nets.tail {T : ℕ → NetShape} {e : ElementNet} {es : List ElementNet}
    (h : Nets T (e :: es)) : Nets (fun j => T (j + 1)) es := fun i e' hi =>
  h (i + 1) e' (by simpa using hi)

theorem Nets.head {T : ℕ → NetShape} {e : ElementNet} {es : List ElementNet}
    (h : Nets T (e :: es)) :
    HasShape (T 0).numLayers (T 0).n (T 0).af e.nn ∧ e.nn.numConnections = (T 0).numParams ∧
      0 < (T 0).numParams := by
  obtain ⟨h1, h2⟩ := h 0 e (by simp)
  exact ⟨h1.hasShape, h1.hasShape.numConn, h2⟩

theorem foldl_offsets (T : ℕ → NetShape) (hard : Bool) (els : List ElementNet) (h : Nets T els)
    (acc : List ℕ) (s : ℕ) :
    els.foldl (fun (s : List ℕ × ℕ) e =>
        (s.1 ++ [s.2], s.2 + e.nn.numConnections + if hard then 1 else 0)) (acc, s)
      = (acc ++ (List.range els.length).map (fun i => s + base T hard i),
        s + base T hard els.length) := by
  induction els generalizing T acc s with
  | nil => simp [base]
  | cons e es ih =>
    rw [List.foldl_cons, ih _ h.tail, h.head.2.1]
    simp only [List.length_cons, base_shift, List.range_succ_eq_map, List.map_cons, List.map_map,
      base_zero, Nat.add_zero]
    refine Prod.ext ?_ ?_
    · simp only [List.append_assoc, List.singleton_append]
      congr 2
      refine List.map_congr_left fun i _ => ?_
      simp only [Function.comp]
      rw [base_shift]; ring
    · ring

theorem initializeWeightsMemory_eq {T : ℕ → NetShape} {hard : Bool} {els : List ElementNet}
    (h : Nets T els) : initializeWeightsMemory hard els
      = ((List.range els.length).map (base T hard), base T hard els.length) := by
  unfold initializeWeightsMemory
  rw [foldl_offsets T hard els h]
  simp

theorem getConnectionOffsets_eq {T : ℕ → NetShape} {els : List ElementNet}
    (h : Nets T els) :
    getConnectionOffsets els = (List.range els.length).map (base T false) := by
  have := foldl_offsets T false els h [] 0
  unfold getConnectionOffsets
  simp only [Bool.false_eq_true, if_false, Nat.add_zero, Nat.zero_add, List.nil_append] at this
  rw [this]

theorem getNumConnectionsPerElement_eq {T : ℕ → NetShape} {els : List ElementNet}
    (h : Nets T els) : getNumConnectionsPerElement els
      = (List.range els.length).map (fun i => (T i).numParams) := by
  unfold getNumConnectionsPerElement
  have : ∀ (els : List ElementNet) (T : ℕ → NetShape) (acc : List ℕ), Nets T els →
      els.foldl (fun npe e => npe ++ [e.nn.numConnections]) acc
        = acc ++ (List.range els.length).map (fun i => (T i).numParams) := by
    intro els
    induction els with
    | nil => intro T acc _; simp
    | cons e es ih =>
      intro T acc h
      rw [List.foldl_cons, ih _ _ h.tail, h.head.2.1]
      simp [List.range_succ_eq_map, Function.comp_def]
  simpa using this els T [] h

theorem getNumConnections_eq {T : ℕ → NetShape} {els : List ElementNet}
    (h : Nets T els) : getNumConnections els = base T false els.length := by
  unfold getNumConnections
  have : ∀ (els : List ElementNet) (T : ℕ → NetShape) (s : ℕ), Nets T els →
      els.foldl (fun n e => n + e.nn.numConnections) s = s + base T false els.length := by
    intro els
    induction els with
    | nil => intro T s _; simp [base]
    | cons e es ih =>
      intro T s h
      rw [List.foldl_cons, ih _ _ h.tail, h.head.2.1, List.length_cons, base_shift]
      simp; ring
  simpa using this els T 0 h

/-! ### Reading -/

theorem writeAt_lt (w : Buf) (pos : ℕ) (f : Buf → Buf) {m : ℕ} (h : m < pos) :
    w.writeAt pos f m = w m := by simp [Buf.writeAt, h]

theorem writeAt_add (w : Buf) (pos : ℕ) (f : Buf → Buf) (m : ℕ) :
    w.writeAt pos f (pos + m) = f (fun j => w (pos + j)) m := by simp [Buf.writeAt]

theorem getWeightsFrom_spec {hard : Bool} (size : ℕ) (els : List ElementNet) (T : ℕ → NetShape)
    (pos : ℕ) (w : Buf) (h : Nets T els) (hsize : pos + base T hard els.length ≤ size) :
    ∃ w', getWeightsFrom hard size els pos w = some w' ∧ (∀ m < pos, w' m = w m) ∧
      (∀ m ≥ pos + base T hard els.length, w' m = w m) ∧
      ∀ (i : ℕ) (e : ElementNet), els[i]? = some e →
        (∀ p : Param, p.Valid (T i).numLayers (T i).n →
          w' (pos + base T hard i + p.pos (T i).n) = p.read e.nn) ∧
        (hard = true → w' (pos + base T hard i + (T i).numParams) = Real.sqrt e.hardness) := by
  induction els generalizing T pos w with
  | nil => exact ⟨w, rfl, fun _ _ => rfl, fun _ _ => rfl, by simp⟩
  | cons e es ih =>
    obtain ⟨hs, hn, hpos⟩ := h.head
    rw [List.length_cons, base_shift] at hsize
    have hw1 : ∀ m < pos, w.writeAt pos e.nn.getConnections m = w m := fun m hm =>
      writeAt_lt _ _ _ hm
    have hw2 : ∀ m ≥ pos + (T 0).numParams, w.writeAt pos e.nn.getConnections m = w m := by
      intro m hm
      obtain ⟨k, rfl⟩ := Nat.exists_eq_add_of_le (show pos ≤ m by omega)
      rw [writeAt_add, getConnections_ge hs]
      have : offset (T 0).n ((T 0).numLayers - 1) = (T 0).numParams := rfl
      omega
    have hw3 : ∀ p : Param, p.Valid (T 0).numLayers (T 0).n →
        w.writeAt pos e.nn.getConnections (pos + p.pos (T 0).n) = p.read e.nn := by
      intro p hp
      rw [writeAt_add, getConnections_pos hs _ hp]
    have hlt : ∀ p : Param, p.Valid (T 0).numLayers (T 0).n → p.pos (T 0).n < (T 0).numParams :=
      fun p hp => Param.pos_lt_total hp
    rw [getWeightsFrom, if_neg (by omega), hn]
    cases hard with
    | false =>
      simp only [Bool.false_eq_true, if_false, Nat.add_zero] at hsize ⊢
      obtain ⟨w', e1, e2, e3, e4⟩ := ih _ (pos + (T 0).numParams)
        (w.writeAt pos e.nn.getConnections) h.tail (by omega)
      refine ⟨w', e1, fun m hm => by rw [e2 m (by omega), hw1 m hm], ?_, ?_⟩
      · intro m hm
        rw [List.length_cons, base_shift] at hm
        simp only [Bool.false_eq_true, if_false] at hm
        rw [e3 m (by omega), hw2 m (by omega)]
      · intro i e' hi
        refine ⟨?_, by simp⟩
        intro p hp
        cases i with
        | zero =>
          simp only [List.getElem?_cons_zero, Option.some.injEq] at hi
          subst hi
          rw [base_zero, Nat.add_zero, e2 _ (by have := hlt p hp; omega), hw3 p hp]
        | succ i =>
          rw [← (e4 i e' (by simpa using hi)).1 p hp, base_shift]
          simp [Nat.add_assoc]
    | true =>
      simp only [if_true] at hsize ⊢
      rw [if_neg (by omega)]
      obtain ⟨w', e1, e2, e3, e4⟩ := ih _ (pos + (T 0).numParams + 1)
        ((w.writeAt pos e.nn.getConnections).set (pos + (T 0).numParams) (Real.sqrt e.hardness))
        h.tail (by omega)
      refine ⟨w', e1, ?_, ?_, ?_⟩
      · intro m hm
        rw [e2 m (by omega), Buf.set_apply, if_neg (by omega), hw1 m hm]
      · intro m hm
        rw [List.length_cons, base_shift] at hm
        simp only [if_true] at hm
        rw [e3 m (by omega), Buf.set_apply, if_neg (by omega), hw2 m (by omega)]
      · intro i e' hi
        cases i with
        | zero =>
          simp only [List.getElem?_cons_zero, Option.some.injEq] at hi
          subst hi
          constructor
          · intro p hp
            have := hlt p hp
            rw [base_zero, Nat.add_zero, e2 _ (by omega), Buf.set_apply, if_neg (by omega),
              hw3 p hp]
          · intro _
            rw [base_zero, Nat.add_zero, e2 _ (by omega), Buf.set_apply, if_pos rfl]
        | succ i =>
          have := e4 i e' (by simpa using hi)
          rw [base_shift]
          simp only [if_true]
          constructor
          · intro p hp
            rw [← this.1 p hp]
            congr 1; ring
          · intro _
            rw [← this.2 rfl]
            congr 1; ring

theorem setWeightsFrom_spec {hard : Bool} (size : ℕ) (els : List ElementNet) (T : ℕ → NetShape)
    (pos : ℕ) (w : Buf) (h : Nets T els) (hsize : pos + base T hard els.length ≤ size) :
    ∃ els', setWeightsFrom hard size els pos w = some els' ∧ els'.length = els.length ∧
      ∀ (i : ℕ) (e : ElementNet), els[i]? = some e →
        els'[i]? = some ⟨e.nn.setConnections (w.from (pos + base T hard i)),
          if hard then w (pos + base T hard i + (T i).numParams) ^ 2 else e.hardness⟩ := by
  induction els generalizing T pos with
  | nil => exact ⟨[], rfl, rfl, by simp⟩
  | cons e es ih =>
    obtain ⟨hs, hn, hpos⟩ := h.head
    rw [List.length_cons, base_shift] at hsize
    rw [setWeightsFrom, if_neg (by omega), hn]
    cases hard with
    | false =>
      simp only [Bool.false_eq_true, if_false, Nat.add_zero] at hsize ⊢
      obtain ⟨els', e1, e2, e3⟩ := ih _ (pos + (T 0).numParams) h.tail (by omega)
      refine ⟨_, by rw [e1]; rfl, by simp [e2], ?_⟩
      intro i e' hi
      cases i with
      | zero =>
        simp only [List.getElem?_cons_zero, Option.some.injEq] at hi ⊢
        subst hi
        rw [base_zero, Nat.add_zero]
      | succ i =>
        have := e3 i e' (by simpa using hi)
        rw [List.getElem?_cons_succ, this, base_shift]
        simp [Nat.add_assoc]
    | true =>
      simp only [if_true] at hsize ⊢
      rw [if_neg (by omega)]
      obtain ⟨els', e1, e2, e3⟩ := ih _ (pos + (T 0).numParams + 1) h.tail (by omega)
      refine ⟨_, by rw [e1]; rfl, by simp [e2], ?_⟩
      intro i e' hi
      cases i with
      | zero =>
        simp only [List.getElem?_cons_zero, Option.some.injEq] at hi ⊢
        subst hi
        rw [base_zero, Nat.add_zero]
      | succ i =>
        have := e3 i e' (by simpa using hi)
        have hb : pos + (T 0).numParams + 1 + base (fun j => T (j + 1)) true i
          = pos + base T true (i + 1) := by rw [base_shift]; simp; ring
        rw [List.getElem?_cons_succ, this, hb]
        simp

theorem getWeights_spec {T : ℕ → NetShape} {hard : Bool} {els : List ElementNet} (h : Nets T els)
    (w : Buf) :
    ∃ w', getWeights hard els w = some w' ∧ (∀ m ≥ base T hard els.length, w' m = w m) ∧
      ∀ (i : ℕ) (e : ElementNet), els[i]? = some e →
        (∀ p : Param, p.Valid (T i).numLayers (T i).n →
          w' (base T hard i + p.pos (T i).n) = p.read e.nn) ∧
        (hard = true → w' (base T hard i + (T i).numParams) = Real.sqrt e.hardness) := by
  have := getWeightsFrom_spec (hard := hard) (initializeWeightsMemory hard els).2 els T 0 w h
    (by rw [initializeWeightsMemory_eq h]; simp)
  simpa [getWeights] using this

theorem setWeights_spec {T : ℕ → NetShape} {hard : Bool} {els : List ElementNet} (h : Nets T els)
    (w : Buf) :
    ∃ els', setWeights hard els w = some els' ∧ els'.length = els.length ∧
      ∀ (i : ℕ) (e : ElementNet), els[i]? = some e →
        els'[i]? = some ⟨e.nn.setConnections (w.from (base T hard i)),
          if hard then w (base T hard i + (T i).numParams) ^ 2 else e.hardness⟩ := by
  have := setWeightsFrom_spec (hard := hard) (initializeWeightsMemory hard els).2 els T 0 w h
    (by rw [initializeWeightsMemory_eq h]; simp)
  simpa [setWeights] using this

theorem Nets.setWeights {T : ℕ → NetShape} {hard : Bool} {els els' : List ElementNet}
    (h : Nets T els) {w : Buf} (he : setWeights hard els w = some els') : Nets T els' := by
  obtain ⟨els2, e1, e2, e3⟩ := setWeights_spec (hard := hard) h w
  rw [he] at e1
  cases Option.some.inj e1
  intro i e' hi
  have hlt : i < els.length := by
    rw [← e2]; exact (List.getElem?_eq_some_iff.mp hi).1
  have := e3 i els[i] (List.getElem?_eq_getElem hlt)
  rw [hi] at this
  cases Option.some.inj this
  obtain ⟨a, b⟩ := h i els[i] (List.getElem?_eq_getElem hlt)
  exact ⟨.setConnections _ a, b⟩

/-! ### Layout -/

theorem base_lt {T : ℕ → NetShape} {hard : Bool} {N : ℕ} {m : ℕ} (h : m < base T hard N) :
    ∃ i < N, base T hard i ≤ m ∧ m < base T hard (i + 1) := by
  induction N with
  | zero => simp [base] at h
  | succ N ih =>
    by_cases hm : m < base T hard N
    · obtain ⟨i, hi, h1, h2⟩ := ih hm
      exact ⟨i, by omega, h1, h2⟩
    · exact ⟨N, by omega, by omega, h⟩

/-- Element of a slot. -/
def Slot.element : Slot → ℕ
  | .param i _ => i
  | .hardness i => i

theorem Slot.pos_range {T : ℕ → NetShape} {hard : Bool} {N : ℕ} {s : Slot}
    (h : s.Valid T hard N) : s.element < N ∧ base T hard s.element ≤ s.pos T hard ∧
      s.pos T hard < base T hard (s.element + 1) := by
  cases s with
  | param i p =>
    obtain ⟨h1, h2⟩ := h
    have : p.pos (T i).n < (T i).numParams := Param.pos_lt_total h2
    refine ⟨h1, by simp [Slot.pos, Slot.element], ?_⟩
    simp only [Slot.pos, Slot.element, base_succ]
    omega
  | hardness i =>
    obtain ⟨h1, h2⟩ := h
    refine ⟨h1, by simp [Slot.pos, Slot.element], ?_⟩
    simp only [Slot.pos, Slot.element, base_succ, h2, if_true]
    omega

theorem Slot.pos_lt {T : ℕ → NetShape} {hard : Bool} {N : ℕ} {s : Slot}
    (h : s.Valid T hard N) : s.pos T hard < base T hard N := by
  obtain ⟨h1, _, h3⟩ := Slot.pos_range h
  exact lt_of_lt_of_le h3 (base_mono T hard h1)

theorem Slot.exists_pos {T : ℕ → NetShape} {hard : Bool} {N : ℕ} {m : ℕ}
    (h : m < base T hard N) : ∃ s : Slot, s.Valid T hard N ∧ s.pos T hard = m := by
  obtain ⟨i, hi, h1, h2⟩ := base_lt h
  rw [base_succ] at h2
  obtain ⟨k, rfl⟩ := Nat.exists_eq_add_of_le h1
  by_cases hk : k < (T i).numParams
  · obtain ⟨p, hp, rfl⟩ := Param.exists_pos hk
    exact ⟨.param i p, ⟨hi, hp⟩, rfl⟩
  · cases hard with
    | false => simp at h2; omega
    | true =>
      simp only [if_true] at h2
      refine ⟨.hardness i, ⟨hi, rfl⟩, ?_⟩
      simp only [Slot.pos]; omega

theorem Slot.pos_inj {T : ℕ → NetShape} {hard : Bool} {N : ℕ} {s t : Slot}
    (hs : s.Valid T hard N) (ht : t.Valid T hard N) (e : s.pos T hard = t.pos T hard) : s = t := by
  obtain ⟨_, a2, a3⟩ := Slot.pos_range hs
  obtain ⟨_, b2, b3⟩ := Slot.pos_range ht
  have hel : s.element = t.element := by
    rcases lt_trichotomy s.element t.element with h | h | h
    · have := base_mono T hard (show s.element + 1 ≤ t.element from h); omega
    · exact h
    · have := base_mono T hard (show t.element + 1 ≤ s.element from h); omega
  cases s with
  | param i p =>
    have hp : p.pos (T i).n < (T i).numParams := Param.pos_lt_total hs.2
    cases t with
    | param j q =>
      simp only [Slot.element] at hel; subst hel
      simp only [Slot.pos, Nat.add_left_cancel_iff] at e
      rw [Param.pos_inj hs.2 ht.2 e]
    | hardness j =>
      simp only [Slot.element] at hel; subst hel
      simp only [Slot.pos, Nat.add_left_cancel_iff] at e
      omega
  | hardness i =>
    cases t with
    | param j q =>
      have hq : q.pos (T j).n < (T j).numParams := Param.pos_lt_total ht.2
      simp only [Slot.element] at hel; subst hel
      simp only [Slot.pos, Nat.add_left_cancel_iff] at e
      omega
    | hardness j => simp only [Slot.element] at hel; rw [hel]

end Training

end N2P2
