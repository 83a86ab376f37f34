import Verif.Lemma.TrainingWeights
import Verif.Props.NeuralNetwork

/-! Helper lemmas for numeric derivatives, the Jacobian of one energy or force and its assembly. -/

namespace N2P2

namespace Training

open NetShape NeuralNetwork

/-! ### dPdcN -/

theorem setWeights_setWeights {T : ℕ → NetShape} {hard : Bool} {els els1 : List ElementNet}
    (h : Nets T els) {w1 : Buf} (h1 : setWeights hard els w1 = some els1) (w2 : Buf) :
    setWeights hard els1 w2 = setWeights hard els w2 := by
  have hn1 := h.setWeights h1
  obtain ⟨a, a1, a2, a3⟩ := setWeights_spec (hard := hard) h w1
  rw [h1] at a1; cases Option.some.inj a1
  obtain ⟨b, b1, b2, b3⟩ := setWeights_spec (hard := hard) hn1 w2
  obtain ⟨c, c1, c2, c3⟩ := setWeights_spec (hard := hard) h w2
  rw [b1, c1]
  congr 1
  refine List.ext_getElem? fun i => ?_
  by_cases hi : i < els.length
  · have e := List.getElem?_eq_getElem hi
    have a3 := a3 i _ e
    rw [b3 i _ a3, c3 i _ e]
    have hs := (h i _ e).1.hasShape
    rw [setConnections_setConnections hs _ (fun m _ => rfl)]
    cases hard <;> simp
  · rw [List.getElem?_eq_none (by omega), List.getElem?_eq_none (by omega)]

theorem range_base (T : ℕ → NetShape) (N : ℕ) :
    (List.range N).flatMap (fun i => (List.range (T i).numParams).map (base T false i + ·))
      = List.range (base T false N) := by
  induction N with
  | zero => simp [base]
  | succ N ih =>
    rw [List.range_succ, List.flatMap_append, ih, base_succ]
    simp [List.range_add]

theorem dPdcNSlots_eq {T : ℕ → NetShape} {els : List ElementNet} (h : Nets T els) :
    dPdcNSlots els = List.range (base T false els.length) := by
  unfold dPdcNSlots
  rw [getConnectionOffsets_eq h, getNumConnectionsPerElement_eq h, List.zip_map', List.flatMap_map,
    ← range_base]

/-- Invariant of the loop over parameters. -/
theorem dPdcN_loop {T : ℕ → NetShape} {els : List ElementNet} (h : Nets T els)
    (energy : List ElementNet → ℝ) (delta : ℝ) (w : Buf) (n : ℕ) :
    ∃ s, (List.range n).foldlM (dPdcNStep energy delta) ⟨w, els, []⟩ = some s ∧ s.w = w ∧
      Nets T s.els ∧ (∀ w2, setWeights false s.els w2 = setWeights false els w2) ∧
      s.out.length = n ∧
      (∀ m < n, ∃ hi lo, setWeights false els (w.set m (w m + delta)) = some hi ∧
        setWeights false els (w.set m (w m - delta)) = some lo ∧
        s.out[m]? = some ((energy hi - energy lo) / (2 * delta))) ∧
      (n = 0 → s.els = els) ∧
      ∀ k, n = k + 1 → setWeights false els (w.set k (w k - delta)) = some s.els := by
  induction n with
  | zero => exact ⟨_, rfl, rfl, h, fun _ => rfl, rfl, by simp, fun _ => rfl, by simp⟩
  | succ n ih =>
    obtain ⟨s, e1, e2, e3, e4, e5, e6, -, -⟩ := ih
    obtain ⟨hi, hhi, -⟩ := setWeights_spec (hard := false) h (w.set n (w n + delta))
    obtain ⟨lo, hlo, -⟩ := setWeights_spec (hard := false) h (w.set n (w n - delta))
    have hw2 : ((w.set n (w n + delta)).set n ((w.set n (w n + delta)) n - 2 * delta))
        = w.set n (w n - delta) := by
      funext m
      simp only [Buf.set_apply, if_true]
      split_ifs <;> ring
    have hw3 : (w.set n (w n - delta)).set n (w n) = w := by
      funext m
      simp only [Buf.set_apply]
      split_ifs with hm
      · rw [hm]
      · rfl
    have hstep : dPdcNStep energy delta s n
        = some ⟨w, lo, s.out ++ [(energy hi - energy lo) / (2 * delta)]⟩ := by
      simp only [dPdcNStep, e2]
      rw [e4, hhi]
      simp only [Option.bind_eq_bind, Option.bind_some]
      rw [hw2, setWeights_setWeights h hhi, hlo]
      simp only [Option.bind_some]
      rw [hw3]
    refine ⟨⟨w, lo, s.out ++ [(energy hi - energy lo) / (2 * delta)]⟩, ?_, rfl, h.setWeights hlo,
      setWeights_setWeights h hlo, by simp [e5], ?_, by simp, ?_⟩
    · rw [List.range_succ, List.foldlM_append, e1]
      simp [hstep]
    · intro m hm
      by_cases hmn : m < n
      · obtain ⟨a, b, x, y, z⟩ := e6 m hmn
        refine ⟨a, b, x, y, ?_⟩
        rw [List.getElem?_append_left (by omega), z]
      · have : m = n := by omega
        subst this
        refine ⟨hi, lo, hhi, hlo, ?_⟩
        rw [List.getElem?_append_right (by omega), e5]
        simp
    · intro k hk
      have : k = n := by omega
      subst this
      exact hlo

/-! ### Jacobian of one energy or force -/

theorem addJacobian_apply (o n : ℕ) (d jac : Buf) (m : ℕ) :
    addJacobian o n d jac m = if o ≤ m ∧ m < o + n then jac m + d (m - o) else jac m := by
  induction n generalizing m with
  | zero => simp [addJacobian]
  | succ n ih =>
    have : addJacobian o (n + 1) d jac
        = (addJacobian o n d jac).set (o + n) (addJacobian o n d jac (o + n) + d n) := rfl
    rw [this, Buf.set_apply]
    by_cases hm : m = o + n
    · subst hm
      rw [if_pos rfl, ih, if_neg (by omega), if_pos (by omega), Nat.add_sub_cancel_left]
    · rw [if_neg hm, ih]
      by_cases hc : o ≤ m ∧ m < o + n
      · rw [if_pos hc, if_pos (by omega)]
      · rw [if_neg hc, if_neg (by omega)]

theorem from_update_in (w : Buf) (b k : ℕ) (x : ℝ) :
    Buf.from (Function.update w (b + k) x) b = Function.update (w.from b) k x := by
  funext j
  simp only [Buf.from, Function.update_apply]
  by_cases h : j = k
  · simp [h]
  · simp [h]

theorem InSync.shape {T : ℕ → NetShape} {w : Buf} {els : List ElementNet} (h : InSync T w els)
    {i : ℕ} {e : ElementNet} (hi : els[i]? = some e) :
    HasShape (T i).numLayers (T i).n (T i).af e.nn := by
  obtain ⟨_, nn0, hr, he⟩ := h i e hi
  exact (Reachable.evaluates (.setConnections _ hr) he).hasShape

theorem evaluates_inputs {a b : NeuralNetwork} (h : Evaluates a b) (G : Buf) (m : ℕ) :
    Evaluates a (loop m (fun j nn => nn.setInputAt j (G j)) b) :=
  loop_induction (fun _ t => Evaluates a t) h fun _ _ _ ht => .setInputAt _ _ ht

theorem InSync.set {T : ℕ → NetShape} {w : Buf} {els : List ElementNet} (h : InSync T w els)
    {i : ℕ} {e : ElementNet} (hi : els[i]? = some e) {nn : NeuralNetwork} (he : Evaluates e.nn nn)
    (hn : nn.normalizeNeurons = e.nn.normalizeNeurons) :
    InSync T w (els.set i { e with nn := nn }) := by
  intro j e' hj
  by_cases hij : i = j
  · subst hij
    rw [List.getElem?_set_self (List.getElem?_eq_some_iff.mp hi).1] at hj
    cases Option.some.inj hj
    obtain ⟨a, nn0, b, c⟩ := h i e hi
    refine ⟨hn.trans a, nn0, b, ?_⟩
    have trans : ∀ {a b c : NeuralNetwork}, Evaluates b c → Evaluates a b → Evaluates a c := by
      intro a b c hbc hab
      induction hbc with
      | refl => exact hab
      | setNormalizeNeurons f _ ih => exact .setNormalizeNeurons f ih
      | setInput G _ ih => exact .setInput G ih
      | setInputAt i v _ ih => exact .setInputAt i v ih
      | propagate _ ih => exact .propagate ih
      | calculateDFdc d g _ ih => exact .calculateDFdc d g ih
      | resetNeuronStatistics _ ih => exact .resetNeuronStatistics ih
    exact trans he c
  · rw [List.getElem?_set_ne hij] at hj
    exact h j e' hj

theorem forward_congr {T : NetShape} {c d : Buf} (h : ∀ m < T.numParams, c m = d m) (G : Buf) :
    ∀ l < T.numLayers, ∀ k < T.n l, T.forward c G l k = T.forward d G l k := by
  intro l
  induction l with
  | zero => intro _ k _; rfl
  | succ l ih =>
    intro hl k hk
    simp only [forward]
    have e1 : ∀ p : Param, p.Valid T.numLayers T.n → c (p.pos T.n) = d (p.pos T.n) := fun p hp =>
      h _ (Param.pos_lt_total hp)
    rw [e1 (.bias l k) ⟨hl, hk⟩]
    congr 3
    refine Finset.sum_congr rfl fun j hj => ?_
    rw [e1 (.weight l j k) ⟨hl, Finset.mem_range.mp hj, hk⟩,
      ih (by omega) j (Finset.mem_range.mp hj)]

theorem energy_congr {T : NetShape} (hT : T.Sensible) {c d : Buf}
    (h : ∀ m < T.numParams, c m = d m) (G : Buf) : T.energy c G = T.energy d G := by
  have := hT.1
  refine Finset.sum_congr rfl fun k hk => ?_
  exact forward_congr h G _ (by unfold out; omega) k (Finset.mem_range.mp hk)

/-- What one atom contributes, given the derivative of its quantity `f` with respect to the
parameters of its own network. -/
theorem hasDerivAt_atom {T : ℕ → NetShape} {w : Buf} {i : ℕ} {g : Buf → ℝ} {d : Buf}
    (hg : ∀ c d : Buf, (∀ m < (T i).numParams, c m = d m) → g c = g d)
    (hd : ∀ k < (T i).numParams, HasDerivAt (fun x => g (Function.update (w.from (base T false i)) k x))
      (d k) (w (base T false i + k))) (m : ℕ) :
    HasDerivAt (fun x => g (Buf.from (Function.update w m x) (base T false i)))
      (if base T false i ≤ m ∧ m < base T false i + (T i).numParams then d (m - base T false i)
        else 0) (w m) := by
  by_cases hm : base T false i ≤ m
  · obtain ⟨k, rfl⟩ := Nat.exists_eq_add_of_le hm
    simp only [from_update_in, Nat.add_sub_cancel_left]
    by_cases hk : k < (T i).numParams
    · rw [if_pos ⟨by omega, by omega⟩]
      exact hd k hk
    · rw [if_neg (by omega)]
      have : ∀ x, g (Function.update (w.from (base T false i)) k x) = g (w.from (base T false i)) :=
        fun x => hg _ _ fun m hm => by rw [Function.update_of_ne (by omega)]
      simp only [this]
      exact hasDerivAt_const _ _
  · rw [if_neg (by omega)]
    have : ∀ x, Buf.from (Function.update w m x) (base T false i) = w.from (base T false i) := by
      intro x
      funext j
      simp only [Buf.from, Function.update_apply]
      rw [if_neg (by omega)]
    simp only [this]
    exact hasDerivAt_const _ _

/-- The networks stay in sync and the Jacobian row sums up the contributions, for any quantity `q`
whose derivative is what the network call leaves in the scratch array. -/
theorem jacobian_foldlM {T : ℕ → NetShape} {w : Buf} {N : ℕ}
    (q : Buf → AtomIn → ℝ) (step : JState → AtomIn → Option JState)
    (hstep : ∀ (s : JState) (a : AtomIn), InSync T w s.els → s.els.length = N → a.Fits T N w →
      ∃ s', step s a = some s' ∧ InSync T w s'.els ∧ s'.els.length = N ∧
        s'.energies = s.energies ++ [(T a.element).forward (w.from (base T false a.element)) a.G
          (T a.element).out 0] ∧
        ∃ d : Buf, (∀ m, s'.jac m = s.jac m + d m) ∧ (∀ m ≥ base T false N, d m = 0) ∧
          ∀ m, HasDerivAt (fun x => q (Function.update w m x) a) (d m) (w m))
    (atoms : List AtomIn) (hA : ∀ a ∈ atoms, a.Fits T N w) (s : JState) (hs : InSync T w s.els)
    (hN : s.els.length = N) :
    ∃ s', atoms.foldlM step s = some s' ∧ InSync T w s'.els ∧ s'.els.length = N ∧
      s'.energies = s.energies ++ atoms.map (fun a =>
        (T a.element).forward (w.from (base T false a.element)) a.G (T a.element).out 0) ∧
      ∃ d : Buf, (∀ m, s'.jac m = s.jac m + d m) ∧ (∀ m ≥ base T false N, d m = 0) ∧
        ∀ m, HasDerivAt (fun x => (atoms.map (q (Function.update w m x))).sum) (d m) (w m) := by
  induction atoms generalizing s with
  | nil =>
    refine ⟨s, rfl, hs, hN, by simp, fun _ => 0, by simp, by simp, fun m => ?_⟩
    simpa using hasDerivAt_const (w m) (0 : ℝ)
  | cons a as ih =>
    obtain ⟨s1, e1, e2, e3, e4, d, e5, e6, e7⟩ := hstep s a hs hN (hA a (by simp))
    obtain ⟨s2, f1, f2, f3, f4, d2, f5, f6, f7⟩ := ih (fun b hb => hA b (by simp [hb])) s1 e2 e3
    refine ⟨s2, by rw [List.foldlM_cons, e1]; exact f1, f2, f3, by rw [f4, e4]; simp,
      fun m => d m + d2 m, fun m => by rw [f5, e5]; ring,
      fun m hm => by simp only [e6 m hm, f6 m hm, add_zero], fun m => ?_⟩
    simp only [List.map_cons, List.sum_cons]
    exact (e7 m).add (f7 m)

theorem contribution_zero {T : ℕ → NetShape} {N i : ℕ} (hi : i < N) (d : Buf) (m : ℕ)
    (hm : base T false N ≤ m) :
    (if base T false i ≤ m ∧ m < base T false i + (T i).numParams then d (m - base T false i)
      else 0) = 0 := by
  rw [if_neg]
  have := base_mono T false (show i + 1 ≤ N from hi)
  rw [base_succ] at this
  simp only [Bool.false_eq_true, if_false] at this
  omega

theorem energyJacobianAtom_spec {T : ℕ → NetShape} {w : Buf} {N : ℕ}
    (hT : ∀ i < N, (T i).Sensible) (hout : ∀ i < N, (T i).n (T i).out = 1) (offset : ℕ → ℕ)
    (ho : ∀ i < N, offset i = base T false i) (s : JState) (a : AtomIn) (hs : InSync T w s.els)
    (hN : s.els.length = N) (ha : a.Fits T N w) :
    ∃ s', energyJacobianAtom offset s a = some s' ∧ InSync T w s'.els ∧ s'.els.length = N ∧
      s'.energies = s.energies ++ [(T a.element).forward (w.from (base T false a.element)) a.G
        (T a.element).out 0] ∧
      ∃ d : Buf, (∀ m, s'.jac m = s.jac m + d m) ∧ (∀ m ≥ base T false N, d m = 0) ∧
        ∀ m, HasDerivAt (fun x => atomEnergy T (Function.update w m x) a) (d m) (w m) := by
  obtain ⟨h1, h2, h3⟩ := ha
  have hget : s.els[a.element]? = some s.els[a.element] :=
    List.getElem?_eq_getElem (by omega)
  set e := s.els[a.element] with he
  obtain ⟨hn, nn0, hr, hev⟩ := hs _ _ hget
  have hnorm := (inputs_oneByOne e.nn a.G a.numG).2.1
  have hprep : Prepared (T a.element) (w.from (base T false a.element)) a.G
      (loop a.numG (fun j nn => nn.setInputAt j (a.G j)) e.nn).propagate := by
    refine ⟨nn0, e.nn, true, hr, hev, hn, ?_⟩
    rw [h2]
    exact .refl _
  have hev' : Evaluates e.nn (loop a.numG (fun j nn => nn.setInputAt j (a.G j)) e.nn).propagate :=
    .propagate (evaluates_inputs (.refl _) _ _)
  have hsT := hT _ h1
  have hcomp := hprep.computed hsT
  have hconn := hcomp.shape.numConn
  have hg := (C20_parameter_gradient (T a.element) hsT _ a.G _ hprep h3 (s.dXdc a.element)).1
  have houtv := C18_output (T a.element) hsT _ a.G _ hprep (fun _ => 0) 0
  generalize hnn : (loop a.numG (fun j nn => nn.setInputAt j (a.G j)) e.nn).propagate = nn at *
  refine ⟨_, by simp only [energyJacobianAtom, hget, Option.bind_eq_bind, Option.bind_some, hnn]; rfl,
    hs.set hget hev' ?_, by simpa using hN, ?_, ?w, fun m => ?_, fun m hm => ?_, fun m => ?_⟩
  · rw [← hnn]; exact hnorm
  · rw [houtv]; simp [hout _ h1]
  case w => exact fun m => if base T false a.element ≤ m ∧ m < base T false a.element
        + (T a.element).numParams then nn.calculateDEdc (s.dXdc a.element) (m - base T false a.element)
      else 0
  · simp only [addJacobian_apply, ho _ h1, hconn]
    have : NetShape.offset (T a.element).n ((T a.element).numLayers - 1)
      = (T a.element).numParams := rfl
    rw [this]
    split_ifs <;> simp
  · exact contribution_zero h1 _ m hm
  · refine hasDerivAt_atom (fun c d h => energy_congr hsT h a.G) (fun k hk => ?_) m
    exact hg k (by rw [hconn]; exact hk)

theorem forceJacobianAtom_spec {T : ℕ → NetShape} {w : Buf} {N : ℕ}
    (hT : ∀ i < N, (T i).Sensible) (hout : ∀ i < N, (T i).n (T i).out = 1) (offset : ℕ → ℕ)
    (ho : ∀ i < N, offset i = base T false i) (s : JState) (a : AtomIn) (hs : InSync T w s.els)
    (hN : s.els.length = N) (ha : a.Fits T N w) :
    ∃ s', forceJacobianAtom offset s a = some s' ∧ InSync T w s'.els ∧ s'.els.length = N ∧
      s'.energies = s.energies ++ [(T a.element).forward (w.from (base T false a.element)) a.G
        (T a.element).out 0] ∧
      ∃ d : Buf, (∀ m, s'.jac m = s.jac m + d m) ∧ (∀ m ≥ base T false N, d m = 0) ∧
        ∀ m, HasDerivAt (fun x => atomForce T (Function.update w m x) a) (d m) (w m) := by
  obtain ⟨h1, h2, h3⟩ := ha
  have hget : s.els[a.element]? = some s.els[a.element] :=
    List.getElem?_eq_getElem (by omega)
  set e := s.els[a.element] with he
  obtain ⟨hn, nn0, hr, hev⟩ := hs _ _ hget
  have hnorm := (inputs_oneByOne e.nn a.G a.numG).2.1
  have hprep : Prepared (T a.element) (w.from (base T false a.element)) a.G
      (loop a.numG (fun j nn => nn.setInputAt j (a.G j)) e.nn).propagate := by
    refine ⟨nn0, e.nn, true, hr, hev, hn, ?_⟩
    rw [h2]
    exact .refl _
  have hev' : Evaluates e.nn (loop a.numG (fun j nn => nn.setInputAt j (a.G j)) e.nn).propagate :=
    .propagate (evaluates_inputs (.refl _) _ _)
  have hsT := hT _ h1
  have hcomp := hprep.computed hsT
  have hconn := hcomp.shape.numConn
  have hg := (C21_force_gradient (T a.element) hsT _ a.G _ hprep h3 a.dGdx (s.dXdc a.element)).1
  have houtv := C18_output (T a.element) hsT _ a.G _ hprep (fun _ => 0) 0
  generalize hnn : (loop a.numG (fun j nn => nn.setInputAt j (a.G j)) e.nn).propagate = nn at *
  refine ⟨_, by simp only [forceJacobianAtom, hget, Option.bind_eq_bind, Option.bind_some, hnn]; rfl,
    hs.set hget (.calculateDFdc _ _ hev') ?_, by simpa using hN, ?_, ?w, fun m => ?_, fun m hm => ?_,
    fun m => ?_⟩
  · have : (nn.calculateDFdc (s.dXdc a.element) a.dGdx).1.normalizeNeurons = nn.normalizeNeurons := by
      have hd : DFCalls nn (nn.calculateDFdc (s.dXdc a.element) a.dGdx).1 := .call _ _ (.refl _)
      rw [hd.same.eq]
    rw [this, ← hnn]; exact hnorm
  · rw [houtv]; simp [hout _ h1]
  case w => exact fun m => if base T false a.element ≤ m ∧ m < base T false a.element
        + (T a.element).numParams then
        (nn.calculateDFdc (s.dXdc a.element) a.dGdx).2 (m - base T false a.element)
      else 0
  · simp only [addJacobian_apply, ho _ h1, hconn]
    have : NetShape.offset (T a.element).n ((T a.element).numLayers - 1)
      = (T a.element).numParams := rfl
    rw [this]
    split_ifs <;> simp
  · exact contribution_zero h1 _ m hm
  · refine hasDerivAt_atom (g := fun c => -∑ k ∈ Finset.range ((T a.element).n 0),
      deriv (fun y => (T a.element).energy c (Function.update a.G k y)) (a.G k) * a.dGdx k)
      (fun c d h => ?_) (fun k hk => ?_) m
    · simp only [fun y => energy_congr hsT h y]
    · exact hg k (by rw [hconn]; exact hk)

end Training

end N2P2
