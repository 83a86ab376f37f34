import Verif.Lemma.NNSweep

/-! The derivative routines as backward loops. -/

namespace N2P2

open NetShape

theorem loop_rel {S T : Type*} {n : ℕ} {b : ℕ → S → S} {b' : ℕ → T → T} {s : S} {t : T}
    (R : ℕ → S → T → Prop) (h0 : R 0 s t)
    (hs : ∀ i < n, ∀ s t, R i s t → R (i + 1) (b i s) (b' i t)) :
    R n (loop n b s) (loop n b' t) := by
  induction n with
  | zero => exact h0
  | succ n ih =>
    rw [loop_succ, loop_succ]
    exact hs n (by omega) _ _ (ih fun i hi => hs i (by omega))

theorem loopDown_rel {S T : Type*} {n : ℕ} {b : ℕ → S → S} {b' : ℕ → T → T} {s : S} {t : T}
    (R : S → T → Prop) (h0 : R s t) (hs : ∀ i < n, ∀ s t, R s t → R (b i s) (b' i t)) :
    R (loopDown n b s) (loopDown n b' t) := by
  induction n generalizing s t with
  | zero => exact h0
  | succ n ih =>
    rw [loopDown_succ, loopDown_succ]
    exact ih (hs n (by omega) _ _ h0) fun i hi => hs i (by omega)

theorem loop_set_zero (N : ℕ) (d : Buf) (m : ℕ) :
    loop N (fun i d => Buf.set d i 0) d m = if m < N then 0 else d m := by
  refine loop_induction (fun i (b : Buf) => b m = if m < i then 0 else d m) (by simp) ?_
  intro i hi t ht
  rw [Buf.set_apply]
  by_cases e : m = i
  · subst e; simp
  · rw [if_neg e, ht]
    by_cases h : m < i
    · rw [if_pos h, if_pos (by omega)]
    · rw [if_neg h, if_neg (by omega)]

namespace NeuralNetwork

/-- Weight entry of calculateDEdc. -/
noncomputable def dedcW (nn : NeuralNetwork) (i j _k : ℕ) (v : ℝ) : ℝ :=
  v * ((nn.layers i).neurons j).value

/-- Contribution to a bias entry of calculateDEdc. -/
noncomputable def dedcB (nn : NeuralNetwork) (i j k : ℕ) (v : ℝ) : ℝ :=
  v * ((nn.layers (i + 1)).neurons k).weights j * ((nn.layers i).neurons j).dfdx

theorem calculateDEdc_eq {L : ℕ} {n : ℕ → ℕ} {af : ℕ → Activation} {nn : NeuralNetwork}
    (h : HasShape L n af nn) (b : Buf) :
    nn.calculateDEdc b = sweep L n nn.normalizeNeurons
      (fun k => ((nn.layers (L - 1)).neurons k).dfdx) nn.dedcW nn.dedcB
      (loop (offset n (L - 1)) (fun i d => Buf.set d i 0) b) := by
  have hL := h.three
  have hprev : (nn.layers (L - 1)).numNeuronsPrevLayer = n (L - 2) := by
    have := h.prev (L - 2)
    rwa [show L - 2 + 1 = L - 1 by omega] at this
  have hb : ∀ i k, nn.biasOffset i + k = Param.pos n (.bias i k) := by
    intro i k; rw [h.bOff, Param.pos]
  have hp : ∀ i, 1 ≤ i → (nn.layers i).numNeuronsPrevLayer = n (i - 1) := by
    intro i hi
    have := h.prev (i - 1)
    rwa [show i - 1 + 1 = i by omega] at this
  unfold calculateDEdc sweep
  simp only [h.numLayers, h.numConn, h.size, hprev, hb, h.wOff]
  congr 1
  funext i d
  unfold sweepLayer sweepRow
  congr 2
  funext j s
  by_cases hi : 1 ≤ i
  · rw [hp i hi]
    simp only [dedcW, dedcB]
  · simp only [hi, and_false, if_false, dedcW]

/-- Weight entry of calculateD2EdGdc. -/
noncomputable def d2W (nn : NeuralNetwork) (index : ℕ) (dEdb : Buf) (i j k : ℕ) (v : ℝ) : ℝ :=
  if i = 0 then
    if j = index then v * ((nn.layers i).neurons j).value + dEdb (nn.biasOnlyOffset i + k)
    else v * ((nn.layers i).neurons j).value
  else v * ((nn.layers i).neurons j).value
    + dEdb (nn.biasOnlyOffset i + k) * ((nn.layers i).neurons j).dfdx
      * ((nn.layers i).neurons j).dxdG

/-- Contribution to a bias entry of calculateD2EdGdc. -/
noncomputable def d2B (nn : NeuralNetwork) (dEdb : Buf) (i j k : ℕ) (v : ℝ) : ℝ :=
  ((nn.layers (i + 1)).neurons k).weights j * (v * ((nn.layers i).neurons j).dfdx
    + dEdb (nn.biasOnlyOffset i + k) * ((nn.layers i).neurons j).d2fdx2
      * ((nn.layers i).neurons j).dxdG)

theorem Buf.set_set (a : Buf) (i : ℕ) (v w : ℝ) : Buf.set (Buf.set a i v) i w = Buf.set a i w := by
  unfold Buf.set; simp

theorem Buf.set_self (a : Buf) (i : ℕ) (v : ℝ) : Buf.set a i v i = v := by
  unfold Buf.set; simp

theorem calculateD2EdGdc_eq {L : ℕ} {n : ℕ → ℕ} {af : ℕ → Activation} {nn : NeuralNetwork}
    (h : HasShape L n af nn) (index : ℕ) (dEdb b : Buf) :
    nn.calculateD2EdGdc index dEdb b = sweep L n nn.normalizeNeurons
      (fun k => ((nn.layers (L - 1)).neurons k).d2fdx2 * ((nn.layers (L - 1)).neurons k).dxdG)
      (nn.d2W index dEdb) (nn.d2B dEdb) b := by
  have hL := h.three
  have hprev : (nn.layers (L - 1)).numNeuronsPrevLayer = n (L - 2) := by
    have := h.prev (L - 2)
    rwa [show L - 2 + 1 = L - 1 by omega] at this
  have hb : ∀ i k, nn.biasOffset i + k = Param.pos n (.bias i k) := by
    intro i k; rw [h.bOff, Param.pos]
  have hp : ∀ i, 1 ≤ i → (nn.layers i).numNeuronsPrevLayer = n (i - 1) := by
    intro i hi
    have := h.prev (i - 1)
    rwa [show i - 1 + 1 = i by omega] at this
  unfold calculateD2EdGdc sweep
  simp only [h.numLayers, h.size, hprev, hb, h.wOff]
  congr 1
  funext i d
  unfold sweepLayer sweepRow
  congr 2
  funext j s
  by_cases hi : 1 ≤ i
  · have hi0 : i ≠ 0 := by omega
    rw [hp i hi]
    simp only [d2W, d2B, hi0, if_false]
  · have hi0 : i = 0 := by omega
    subst hi0
    simp only [hi, and_false, if_false, d2W, if_true]
    congr 1
    funext k s
    by_cases e : j = index
    · simp only [e, if_true, Buf.set_set, Buf.set_self]
    · simp only [e, if_false]

/-- Position in the array of calculateDEdb. -/
def bpos (n : ℕ → ℕ) (l k : ℕ) : ℕ := (∑ m ∈ Finset.range l, n (m + 1)) + k

theorem bpos_block_lt {n : ℕ → ℕ} {l l' k k' : ℕ} (hk : k < n (l + 1)) (h : l < l') :
    bpos n l k < bpos n l' k' := by
  unfold bpos
  have h1 : (∑ m ∈ Finset.range (l + 1), n (m + 1)) ≤ ∑ m ∈ Finset.range l', n (m + 1) :=
    Finset.sum_le_sum_of_subset (Finset.range_mono h)
  rw [Finset.sum_range_succ] at h1
  omega

theorem bpos_inj {n : ℕ → ℕ} {l l' k k' : ℕ} (hk : k < n (l + 1)) (hk' : k' < n (l' + 1))
    (h : bpos n l k = bpos n l' k') : l = l' ∧ k = k' := by
  rcases lt_trichotomy l l' with e | e | e
  · exact absurd h (bpos_block_lt hk e).ne
  · subst e; unfold bpos at h; exact ⟨rfl, by omega⟩
  · exact absurd h (bpos_block_lt hk' e).ne'

/-- The two arrays agree on the biases. -/
def BiasAgree (L : ℕ) (n : ℕ → ℕ) (a b : Buf) : Prop :=
  ∀ l k, l + 1 < L → k < n (l + 1) → a (Param.pos n (.bias l k)) = b (bpos n l k)

theorem BiasAgree.set {L : ℕ} {n : ℕ → ℕ} {a b : Buf} (h : BiasAgree L n a b) {l k : ℕ}
    (hl : l + 1 < L) (hk : k < n (l + 1)) {v w : ℝ} (hv : v = w) :
    BiasAgree L n (a.set (Param.pos n (.bias l k)) v) (b.set (bpos n l k) w) := by
  intro l' k' hl' hk'
  have h1 : (Param.bias l k).Valid L n := ⟨hl, hk⟩
  have h2 : (Param.bias l' k').Valid L n := ⟨hl', hk'⟩
  rw [Param.set_pos h1 h2, Buf.set_apply]
  by_cases e : bpos n l' k' = bpos n l k
  · obtain ⟨e1, e2⟩ := bpos_inj hk' hk e
    subst e1 e2
    simp [hv]
  · rw [if_neg e, if_neg]
    · exact h l' k' hl' hk'
    · intro e'
      simp only [Param.bias.injEq] at e'
      obtain ⟨rfl, rfl⟩ := e'
      exact e rfl

theorem BiasAgree.setW {L : ℕ} {n : ℕ → ℕ} {a b : Buf} (h : BiasAgree L n a b) {i j k : ℕ}
    (hi : i + 1 < L) (hj : j < n i) (hk : k < n (i + 1)) (v : ℝ) :
    BiasAgree L n (a.set (Param.pos n (.weight i j k)) v) b := by
  intro l' k' hl' hk'
  have h1 : (Param.weight i j k).Valid L n := ⟨hi, hj, hk⟩
  have h2 : (Param.bias l' k').Valid L n := ⟨hl', hk'⟩
  rw [Param.set_ne h1 h2 (by simp)]
  exact h l' k' hl' hk'

theorem calculateDEdb_agree {L : ℕ} {n : ℕ → ℕ} {af : ℕ → Activation} {nn : NeuralNetwork}
    (h : HasShape L n af nn) {a b : Buf} (hab : BiasAgree L n a b) :
    BiasAgree L n (sweep L n nn.normalizeNeurons
      (fun k => ((nn.layers (L - 1)).neurons k).dfdx) nn.dedcW nn.dedcB a)
      (nn.calculateDEdb b) := by
  have hL := h.three
  have hprev : (nn.layers (L - 1)).numNeuronsPrevLayer = n (L - 2) := by
    have := h.prev (L - 2)
    rwa [show L - 2 + 1 = L - 1 by omega] at this
  have hb : ∀ i k, nn.biasOnlyOffset i + k = bpos n i k := by
    intro i k; rw [h.boOff, bpos]
  have hp : ∀ i, 1 ≤ i → (nn.layers i).numNeuronsPrevLayer = n (i - 1) := by
    intro i hi
    have := h.prev (i - 1)
    rwa [show i - 1 + 1 = i by omega] at this
  unfold calculateDEdb sweep
  simp only [h.numLayers, h.size, hprev, hb]
  refine loopDown_rel (BiasAgree L n) ?_ ?_
  · refine loop_rel (fun _ => BiasAgree L n) hab ?_
    intro k hk s t hst
    have hk' : k < n (L - 2 + 1) := by rw [show L - 2 + 1 = L - 1 by omega]; exact hk
    have h1 := hst.set (l := L - 2) (by omega) hk' (v := ((nn.layers (L - 1)).neurons k).dfdx) rfl
    cases nn.normalizeNeurons with
    | true =>
      simp only [if_true]
      refine h1.set (by omega) hk' ?_
      rw [h1 _ _ (by omega) hk']
    | false => simpa using h1
  · intro i hi s t hst
    unfold sweepLayer
    refine (loop_rel (fun j (x : Buf × ℕ) (y : Buf) => x.2 = j * n (i + 1) ∧ BiasAgree L n x.1 y)
      (n := n i) ⟨by simp, hst⟩ ?_).2
    intro j hj x y hxy
    have hrow := loop_rel (n := n (i + 1)) (s := x) (t := y)
      (b := fun k (s : Buf × ℕ) =>
        let d := Buf.set s.1 (offset n i + s.2) (nn.dedcW i j k (s.1 (Param.pos n (.bias i k))))
        let d := if 1 ≤ i then
            Buf.set d (Param.pos n (.bias (i - 1) j)) (d (Param.pos n (.bias (i - 1) j))
              + nn.dedcB i j k (d (Param.pos n (.bias i k))))
          else d
        (d, s.2 + 1))
      (b' := fun k (d : Buf) =>
        if 1 ≤ i then
          Buf.set d (bpos n (i - 1) j) (d (bpos n (i - 1) j)
            + d (bpos n i k) * ((nn.layers (i + 1)).neurons k).weights j
              * ((nn.layers i).neurons j).dfdx)
        else d)
      (fun k (x : Buf × ℕ) (y : Buf) => x.2 = j * n (i + 1) + k ∧ BiasAgree L n x.1 y)
      ⟨by simpa using hxy.1, hxy.2⟩ (by
        intro k hk x y hxy
        obtain ⟨hc, ha⟩ := hxy
        have hpos : offset n i + x.2 = Param.pos n (.weight i j k) := by
          simp only [Param.pos, hc]; omega
        simp only [hpos]
        refine ⟨by omega, ?_⟩
        have h1 := ha.setW (show i + 1 < L by omega) hj hk
          (nn.dedcW i j k (x.1 (Param.pos n (.bias i k))))
        by_cases hi1 : 1 ≤ i
        · simp only [hi1, if_true]
          have hj' : j < n (i - 1 + 1) := by rw [show i - 1 + 1 = i by omega]; exact hj
          refine h1.set (by omega) hj' ?_
          rw [h1 _ _ (by omega) hj', h1 _ _ (by omega) hk]
          rfl
        · simp only [hi1, if_false]
          exact h1)
    have hrow2 : (sweepRow n nn.dedcW nn.dedcB i j x).2 = (j + 1) * n (i + 1) := by
      rw [show (j + 1) * n (i + 1) = j * n (i + 1) + n (i + 1) by ring]; exact hrow.1
    have hrow1 : BiasAgree L n (sweepRow n nn.dedcW nn.dedcB i j x).1 _ := hrow.2
    by_cases hc : nn.normalizeNeurons = true ∧ 1 ≤ i
    · simp only [hc, and_self, if_true]
      refine ⟨hrow2, ?_⟩
      have hj' : j < n (i - 1 + 1) := by rw [show i - 1 + 1 = i by omega]; exact hj
      rw [hp i hc.2]
      have := hrow1.set (l := i - 1) (k := j) (by omega) hj'
        (v := (sweepRow n nn.dedcW nn.dedcB i j x).1 (Param.pos n (.bias (i - 1) j))
          / (n (i - 1) : ℝ))
        (congrArg (· / (n (i - 1) : ℝ)) (hrow1 (i - 1) j (by omega) hj'))
      simp only [hc.2, if_true] at this
      exact this
    · simp only [hc, if_false]
      exact ⟨hrow2, hrow1⟩

end NeuralNetwork

end N2P2
