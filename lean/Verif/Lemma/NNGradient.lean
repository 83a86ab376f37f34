import Verif.Lemma.NNBackward
import Verif.Lemma.NNTangent

/-! The derivative routines compute the tangents and adjoints. -/

namespace N2P2

open NetShape

namespace NeuralNetwork

theorem divisor_eq {T : NetShape} (v : ℝ) (l : ℕ) :
    (if T.norm then v / (T.n l : ℝ) else v) = v / T.divisor l := by
  unfold divisor
  cases T.norm <;> simp

theorem nrm_eq (T : NetShape) (l : ℕ) : nrm T.norm (T.n l) = T.divisor l := rfl

/-! ### calculateDEdG -/

theorem calculateDEdG_eq {T : NetShape} {c G : Buf} {nn : NeuralNetwork} (hT : T.Sensible)
    (h : Computed T c G nn) (b : Buf) (m : ℕ) :
    nn.calculateDEdG b m = if m < T.n 0 then T.tangent c G 0 (unit m) T.out 0 else b m := by
  have hL := hT.1
  have hs := h.shape
  have hout : T.out = T.numLayers - 1 := rfl
  have hw : ∀ i j k, i + 1 < T.numLayers → j < T.n i → k < T.n (i + 1) →
      ((nn.layers (i + 1)).neurons k).weights j = c (Param.pos T.n (.weight i j k)) :=
    fun i j k h1 h2 h3 => h.param (.weight i j k) ⟨h1, h2, h3⟩
  -- the inner loop
  have inner : ∀ k < T.n 0, ∀ M, M + 2 ≤ T.numLayers → ∀ i2 < T.n (M + 1),
      loop M (fun l' inner =>
        fun i2 =>
          if T.norm then
            loop (T.n (l' + 1)) (fun i1 d =>
              d + ((nn.layers (l' + 1 + 1)).neurons i2).weights i1 * inner i1) 0
              * ((nn.layers (l' + 1 + 1)).neurons i2).dfdx / (T.n (l' + 1) : ℝ)
          else
            loop (T.n (l' + 1)) (fun i1 d =>
              d + ((nn.layers (l' + 1 + 1)).neurons i2).weights i1 * inner i1) 0
              * ((nn.layers (l' + 1 + 1)).neurons i2).dfdx)
        (fun i =>
          if T.norm then ((nn.layers 1).neurons i).weights k * ((nn.layers 1).neurons i).dfdx
            / (T.n 0 : ℝ)
          else ((nn.layers 1).neurons i).weights k * ((nn.layers 1).neurons i).dfdx) i2
        = T.tangent c G 0 (unit k) (M + 1) i2 := by
    intro k hk M
    induction M with
    | zero =>
      intro hM i2 hi2
      simp only [loop_zero, divisor_eq]
      rw [tangent_succ, dpre_zero, Finset.sum_eq_single k]
      · rw [hw 0 k i2 (by omega) hk hi2, h.dfdx 0 (by omega) i2 hi2]
        simp only [tangent, unit, if_true]
        ring
      · intro j _ hne; simp [tangent, unit, hne]
      · intro hn; exact absurd (Finset.mem_range.mpr hk) hn
    | succ M ih =>
      intro hM i2 hi2
      rw [loop_succ]
      simp only [loop_add, zero_add, divisor_eq]
      simp only [divisor_eq, loop_add, zero_add] at ih
      rw [tangent_succ, dpre_zero, h.dfdx (M + 1) (by omega) i2 hi2]
      rw [Finset.sum_congr rfl fun j hj => by
        rw [hw (M + 1) j i2 (by omega) (Finset.mem_range.mp hj) hi2,
          ih (by omega) j (Finset.mem_range.mp hj)]]
      ring
  unfold calculateDEdG
  simp only [hs.size, h.norm, hs.numHidden]
  refine loop_induction (fun i (d : Buf) => d m = if m < i then
    T.tangent c G 0 (unit m) T.out 0 else b m) (by simp) ?_
  intro k hk t ht
  rw [Buf.set_apply]
  by_cases e : m = k
  · subst e
    rw [if_pos rfl, if_pos (by omega)]
    have := inner m hk (T.numLayers - 2) (by omega) 0 (hT.2.1 _ (by omega))
    rw [this, show T.numLayers - 2 + 1 = T.out by omega]
  · rw [if_neg e, ht]
    by_cases h' : m < k
    · rw [if_pos h', if_pos (by omega)]
    · rw [if_neg h', if_neg (by omega)]

/-! ### calculateDEdc and calculateDEdb -/

theorem adjoint_sweep {T : NetShape} {c G : Buf} {nn : NeuralNetwork} (hT : T.Sensible)
    (h : Computed T c G nn) (d : Buf)
    (hd : ∀ p : Param, p.Valid T.numLayers T.n → d (p.pos T.n) = 0) :
    let r := sweep T.numLayers T.n nn.normalizeNeurons
      (fun k => ((nn.layers (T.numLayers - 1)).neurons k).dfdx) nn.dedcW nn.dedcB d
    T.Adjoint c G (fun l k => r (Param.pos T.n (.bias l k))) ∧
    (∀ l j k, (Param.weight l j k).Valid T.numLayers T.n → r (Param.pos T.n (.weight l j k))
      = r (Param.pos T.n (.bias l k)) * T.forward c G l j) ∧
    (∀ m, offset T.n (T.numLayers - 1) ≤ m → r m = d m) := by
  have hL := hT.1
  have hout : T.out = T.numLayers - 1 := rfl
  obtain ⟨h1, h2, h3, h4⟩ := sweep_spec (norm := nn.normalizeNeurons)
    (top := fun k => ((nn.layers (T.numLayers - 1)).neurons k).dfdx) (fw := nn.dedcW)
    (fb := nn.dedcB) hL d hd
  refine ⟨⟨?_, ?_⟩, ?_, h4⟩
  · intro k hk
    have := h1 k hk
    rw [h.norm, nrm_eq] at this
    rw [show T.out - 1 = T.numLayers - 2 by omega, h.norm]
    have hx := h.dfdx (T.numLayers - 2) (by omega) k
      (by rw [show T.numLayers - 2 + 1 = T.out by omega]; exact hk)
    rw [show T.numLayers - 2 + 1 = T.numLayers - 1 by omega] at hx
    rw [hx] at this
    exact this
  · intro l hl j hj
    have := h2 l (by omega) j hj
    rw [h.norm, nrm_eq] at this
    rw [h.norm, this]
    congr 1
    refine Finset.sum_congr rfl fun k hk => ?_
    unfold dedcB
    rw [h.dfdx l (by omega) j hj]
    have := h.param (.weight (l + 1) j k) ⟨by omega, hj, Finset.mem_range.mp hk⟩
    rw [Param.read] at this
    rw [this]
  · intro l j k hv
    rw [h3 l hv.1 j hv.2.1 k hv.2.2]
    unfold dedcW
    rw [h.value l (by have := hv.1; omega) j hv.2.1]

theorem calculateDEdc_spec {T : NetShape} {c G : Buf} {nn : NeuralNetwork} (hT : T.Sensible)
    (h : Computed T c G nn) (b : Buf) :
    T.Adjoint c G (fun l k => nn.calculateDEdc b (Param.pos T.n (.bias l k))) ∧
    (∀ l j k, (Param.weight l j k).Valid T.numLayers T.n →
      nn.calculateDEdc b (Param.pos T.n (.weight l j k))
      = nn.calculateDEdc b (Param.pos T.n (.bias l k)) * T.forward c G l j) ∧
    (∀ m, offset T.n (T.numLayers - 1) ≤ m → nn.calculateDEdc b m = b m) := by
  rw [calculateDEdc_eq h.shape]
  obtain ⟨h1, h2, h3⟩ := adjoint_sweep hT h
    (loop (offset T.n (T.numLayers - 1)) (fun i d => Buf.set d i 0) b) (by
      intro p hp
      rw [loop_set_zero, if_pos (Param.pos_lt_total hp)])
  refine ⟨h1, h2, fun m hm => ?_⟩
  rw [h3 m hm, loop_set_zero, if_neg (by omega)]

theorem calculateDEdb_spec {T : NetShape} {c G : Buf} {nn : NeuralNetwork} (hT : T.Sensible)
    (h : Computed T c G nn) :
    T.Adjoint c G (fun l k => nn.calculateDEdb (fun _ => 0) (nn.biasOnlyOffset l + k)) := by
  have hL := hT.1
  have hout : T.out = T.numLayers - 1 := rfl
  obtain ⟨h1, _, _⟩ := adjoint_sweep hT h (fun _ => 0) (fun _ _ => rfl)
  have ha := calculateDEdb_agree h.shape (a := fun _ => 0) (b := fun _ => 0) (fun _ _ _ _ => rfl)
  have e : ∀ l k, l + 1 < T.numLayers → k < T.n (l + 1) →
      nn.calculateDEdb (fun _ => 0) (nn.biasOnlyOffset l + k)
        = sweep T.numLayers T.n nn.normalizeNeurons
          (fun k => ((nn.layers (T.numLayers - 1)).neurons k).dfdx) nn.dedcW nn.dedcB
          (fun _ => 0) (Param.pos T.n (.bias l k)) := by
    intro l k hl hk
    rw [ha l k hl hk, h.shape.boOff]; rfl
  refine ⟨fun k hk => ?_, fun l hl j hj => ?_⟩
  · rw [e _ _ (by omega) (by rw [show T.out - 1 + 1 = T.out by omega]; exact hk)]
    exact h1.top k hk
  · rw [e _ _ (by omega) hj, h1.step l hl j hj]
    congr 1
    refine Finset.sum_congr rfl fun k hk => ?_
    rw [e _ _ (by omega) (Finset.mem_range.mp hk)]

/-! ### calculateDxdG -/

theorem calculateDxdG_spec {T : NetShape} {c G : Buf} {nn : NeuralNetwork} (hT : T.Sensible)
    (h : Computed T c G nn) {i : ℕ} (hi : i < T.n 0) :
    ∀ l, l + 1 < T.numLayers → ∀ k < T.n (l + 1),
      (((nn.calculateDxdG i).layers (l + 1)).neurons k).dxdG = T.dpre c G 0 (unit i) l k := by
  have hL := hT.1
  have hs := h.shape
  unfold calculateDxdG
  simp only [hs.numLayers, h.norm]
  have base : SameButDxdG nn.layers (Function.update nn.layers 1
      { nn.layers 1 with
        neurons := fun k =>
          if k < (nn.layers 1).numNeurons then
            { (nn.layers 1).neurons k with
              dxdG := if T.norm then ((nn.layers 1).neurons k).weights i
                / ((nn.layers 1).numNeuronsPrevLayer : ℝ) else ((nn.layers 1).neurons k).weights i }
          else (nn.layers 1).neurons k }) := by
    refine (SameButDxdG.refl nn.layers).update 1 _ fun k => ?_
    by_cases h : k < (nn.layers 1).numNeurons
    · simp only [h, if_true]; exact ⟨_, rfl⟩
    · simp only [h, if_false]; exact ⟨_, rfl⟩
  have key := loop_induction (n := T.numLayers - 2)
    (s := Function.update nn.layers 1
      { nn.layers 1 with
        neurons := fun k =>
          if k < (nn.layers 1).numNeurons then
            { (nn.layers 1).neurons k with
              dxdG := if T.norm then ((nn.layers 1).neurons k).weights i
                / ((nn.layers 1).numNeuronsPrevLayer : ℝ) else ((nn.layers 1).neurons k).weights i }
          else (nn.layers 1).neurons k })
    (b := fun i' (layers : ℕ → Layer) =>
      Function.update layers (i' + 2)
        { layers (i' + 2) with
          neurons := fun j =>
            if j < (layers (i' + 2)).numNeurons then
              { (layers (i' + 2)).neurons j with
                dxdG := if T.norm then (loop (layers (i' + 2 - 1)).numNeurons (fun k d =>
                    d + ((layers (i' + 2)).neurons j).weights k
                      * ((layers (i' + 2 - 1)).neurons k).dfdx
                      * ((layers (i' + 2 - 1)).neurons k).dxdG) 0)
                    / ((layers (i' + 2)).numNeuronsPrevLayer : ℝ)
                  else loop (layers (i' + 2 - 1)).numNeurons (fun k d =>
                    d + ((layers (i' + 2)).neurons j).weights k
                      * ((layers (i' + 2 - 1)).neurons k).dfdx
                      * ((layers (i' + 2 - 1)).neurons k).dxdG) 0 }
            else (layers (i' + 2)).neurons j })
    (fun m t => SameButDxdG nn.layers t ∧ ∀ l, l ≤ m → l + 1 < T.numLayers → ∀ k < T.n (l + 1),
      ((t (l + 1)).neurons k).dxdG = T.dpre c G 0 (unit i) l k) ⟨base, ?_⟩ ?_
  · intro l hl k hk
    exact key.2 l (by omega) hl k hk
  · intro l hl hl' k hk
    have hl0 : l = 0 := by omega
    subst hl0
    simp only [zero_add, Function.update_self, hs.size, hk, if_true]
    have hp := hs.prev 0
    rw [zero_add] at hp
    rw [hp, divisor_eq, dpre_zero, Finset.sum_eq_single i]
    · have := h.param (.weight 0 i k) ⟨by omega, hi, hk⟩
      rw [Param.read] at this
      rw [zero_add] at this
      rw [this]; simp [tangent, unit]
    · intro j _ hne; simp [tangent, unit, hne]
    · intro hn; exact absurd (Finset.mem_range.mpr hi) hn
  · intro m hm t ht
    obtain ⟨h1, h2⟩ := ht
    refine ⟨?_, ?_⟩
    · refine h1.update (m + 2) _ fun k => ?_
      by_cases h : k < (t (m + 2)).numNeurons
      · simp only [h, if_true]; exact ⟨_, rfl⟩
      · simp only [h, if_false]; exact ⟨_, rfl⟩
    · intro l hl hl' k hk
      by_cases e : l = m + 1
      · subst e
        have hk' : k < (t (m + 2)).numNeurons := by rw [(h1.1 _).1, hs.size]; exact hk
        rw [show m + 1 + 1 = m + 2 from rfl, Function.update_self]
        simp only [hk', if_true]
        rw [show m + 2 - 1 = m + 1 from rfl]
        rw [(h1.1 (m + 2)).2.1, (h1.1 (m + 1)).1, hs.size, hs.prev (m + 1), divisor_eq, dpre_zero]
        congr 1
        rw [loop_add, zero_add]
        refine Finset.sum_congr rfl fun j hj => ?_
        have hj := Finset.mem_range.mp hj
        rw [h2 m (by omega) (by omega) j hj, tangent_succ]
        obtain ⟨d, hd⟩ := h1.2 (m + 1) j
        obtain ⟨d', hd'⟩ := h1.2 (m + 2) k
        rw [hd, hd']
        simp only
        rw [h.dfdx m (by omega) j hj]
        have := h.param (.weight (m + 1) j k) ⟨by omega, hj, hk⟩
        rw [Param.read] at this
        rw [this]; ring
      · rw [Function.update_of_ne (by omega)]
        exact h2 l (by omega) hl' k hk

/-! ### calculateD2EdGdc and calculateDFdc -/

theorem calculateD2EdGdc_spec {T : NetShape} {c G : Buf} {nn : NeuralNetwork} (hT : T.Sensible)
    (h : Computed T c G nn) {i : ℕ} (hi : i < T.n 0) {dEdb : Buf}
    (hB : T.Adjoint c G (fun l k => dEdb (nn.biasOnlyOffset l + k))) {p : Param}
    (hp : p.Valid T.numLayers T.n) :
    (nn.calculateDxdG i).calculateD2EdGdc i dEdb (fun _ => 0) (p.pos T.n)
      = ∑ k ∈ Finset.range (T.n T.out), T.tangent2 c G (unitAt (p.pos T.n)) i T.out k := by
  have hL := hT.1
  have hout : T.out = T.numLayers - 1 := rfl
  have hx := calculateDxdG_spec hT h hi
  have hsame := sameNet_calculateDxdG nn i
  have h' := h.of_same hsame
  have hbo : (nn.calculateDxdG i).biasOnlyOffset = nn.biasOnlyOffset := rfl
  rw [calculateD2EdGdc_eq h'.shape]
  generalize hnn : nn.calculateDxdG i = m at *
  obtain ⟨h1, h2, h3, _⟩ := sweep_spec (norm := m.normalizeNeurons)
    (top := fun k => ((m.layers (T.numLayers - 1)).neurons k).d2fdx2
      * ((m.layers (T.numLayers - 1)).neurons k).dxdG) (fw := m.d2W i dEdb)
    (fb := m.d2B dEdb) hL (fun _ => 0) (n := T.n) (fun _ _ => rfl)
  generalize sweep T.numLayers T.n m.normalizeNeurons
    (fun k => ((m.layers (T.numLayers - 1)).neurons k).d2fdx2
      * ((m.layers (T.numLayers - 1)).neurons k).dxdG) (m.d2W i dEdb) (m.d2B dEdb)
    (fun _ => 0) = r at *
  have hQ : T.Adjoint2 c G i (fun l k => dEdb (nn.biasOnlyOffset l + k))
      (fun l k => r (Param.pos T.n (.bias l k))) := by
    refine ⟨fun k hk => ?_, fun l hl j hj => ?_⟩
    · have := h1 k hk
      rw [h'.norm, nrm_eq] at this
      rw [show T.out - 1 = T.numLayers - 2 by omega]
      have hk' : k < T.n (T.numLayers - 2 + 1) := by
        rw [show T.numLayers - 2 + 1 = T.out by omega]; exact hk
      have e1 := h'.d2fdx2 (T.numLayers - 2) (by omega) k hk'
      have e2 := hx (T.numLayers - 2) (by omega) k hk'
      rw [show T.numLayers - 2 + 1 = T.numLayers - 1 by omega] at e1 e2
      rw [e1, e2] at this
      exact this
    · have := h2 l (by omega) j hj
      rw [h'.norm, nrm_eq] at this
      rw [this]
      congr 1
      refine Finset.sum_congr rfl fun k hk => ?_
      unfold d2B
      have e3 := h'.param (.weight (l + 1) j k) ⟨by omega, hj, Finset.mem_range.mp hk⟩
      rw [Param.read] at e3
      rw [e3, h'.dfdx l (by omega) j hj, h'.d2fdx2 l (by omega) j hj, hx l (by omega) j hj, hbo]
  rw [tangent2_param hT hB hQ hp]
  cases p with
  | bias l k => rfl
  | weight l j k =>
    obtain ⟨hl, hj, hk⟩ := hp
    rw [h3 l hl j hj k hk]
    simp only [d2W]
    rw [h'.value l (by omega) j hj, hbo]
    cases l with
    | zero =>
      simp only [if_true, tangent, unit]
      by_cases e : j = i
      · simp [e]
      · simp [e]
    | succ l =>
      rw [if_neg (by omega), tangent_succ, h'.dfdx l (by omega) j hj, hx l (by omega) j hj]
      ring

theorem calculateDxdG_congr {a b : NeuralNetwork} (h : SameNet a b) (i : ℕ) :
    SameNet a (b.calculateDxdG i) := h.trans (sameNet_calculateDxdG b i)

theorem calculateDFdc_spec {T : NetShape} {c G : Buf} {nn : NeuralNetwork} (hT : T.Sensible)
    (h : Computed T c G nn) (d g : Buf) :
    (∀ p : Param, p.Valid T.numLayers T.n → (nn.calculateDFdc d g).2 (p.pos T.n)
      = -∑ i ∈ Finset.range (T.n 0), (∑ k ∈ Finset.range (T.n T.out),
          T.tangent2 c G (unitAt (p.pos T.n)) i T.out k) * g i) ∧
    (∀ m, offset T.n (T.numLayers - 1) ≤ m → (nn.calculateDFdc d g).2 m = d m) := by
  have hB := calculateDEdb_spec hT h
  unfold calculateDFdc
  simp only [h.shape.size, h.shape.numConn]
  have hsub : ∀ (t u : Buf) (x : ℝ) (m : ℕ),
      loop (offset T.n (T.numLayers - 1)) (fun j d => Buf.set d j (d j - u j * x)) t m
        = if m < offset T.n (T.numLayers - 1) then t m - u m * x else t m := by
    intro t u x m
    refine loop_induction (fun i (b : Buf) => b m = if m < i then t m - u m * x else t m)
      (by simp) ?_
    intro i hi b hb
    rw [Buf.set_apply]
    by_cases e : m = i
    · subst e
      rw [if_pos rfl, if_pos (by omega), hb, if_neg (by omega)]
    · rw [if_neg e, hb]
      by_cases h : m < i
      · rw [if_pos h, if_pos (by omega)]
      · rw [if_neg h, if_neg (by omega)]
  have key := loop_induction (n := T.n 0)
    (s := (nn, loop (offset T.n (T.numLayers - 1)) (fun i d => Buf.set d i 0) d))
    (b := fun i (s : NeuralNetwork × Buf) =>
      (s.1.calculateDxdG i, loop (offset T.n (T.numLayers - 1)) (fun j d =>
        Buf.set d j (d j - (s.1.calculateDxdG i).calculateD2EdGdc i
          (nn.calculateDEdb fun _ => 0) (fun _ => 0) j * g i)) s.2))
    (fun I s => SameNet nn s.1 ∧
      (∀ p : Param, p.Valid T.numLayers T.n → s.2 (p.pos T.n)
        = -∑ i ∈ Finset.range I, (∑ k ∈ Finset.range (T.n T.out),
          T.tangent2 c G (unitAt (p.pos T.n)) i T.out k) * g i) ∧
      (∀ m, offset T.n (T.numLayers - 1) ≤ m → s.2 m = d m)) ⟨SameNet.refl _, ?_, ?_⟩ ?_
  · exact key.2
  · intro p hp
    simp only
    rw [loop_set_zero, if_pos (Param.pos_lt_total hp)]; simp
  · intro m hm
    simp only
    rw [loop_set_zero, if_neg (by omega)]
  · intro i hi s hs
    obtain ⟨h1, h2, h3⟩ := hs
    have hc := h.of_same h1
    have hbo : s.1.biasOnlyOffset = nn.biasOnlyOffset := by rw [h1.eq]
    refine ⟨calculateDxdG_congr h1 i, ?_, ?_⟩
    · intro p hp
      simp only
      rw [hsub, if_pos (Param.pos_lt_total hp), h2 p hp,
        calculateD2EdGdc_spec hT hc hi (by rw [hbo]; exact hB) hp, Finset.sum_range_succ]
      ring
    · intro m hm
      simp only
      rw [hsub, if_neg (by omega), h3 m hm]

end NeuralNetwork

end N2P2
