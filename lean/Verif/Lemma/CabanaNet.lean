import Verif.Spec.Cabana
import Verif.Lemma.NNActivation

/-! Lemmas on the neural networks of the CabanaMD interface. -/

namespace N2P2

/-- The sizes and activation functions are those of the setup. -/
structure CabanaNet.Sized (N : CabanaNet) (hidden nums : List ℕ) : Prop where
  numLayers : N.numLayers = (cabanaNet hidden nums).numLayers
  neurons : N.neurons = (cabanaNet hidden nums).neurons
  AF : N.AF = (cabanaNet hidden nums).AF
  maxNeurons : N.maxNeurons = (cabanaNet hidden nums).maxNeurons

variable {N : CabanaNet} {hidden nums : List ℕ} {T : NetShape} {c : Buf} {e n0 : ℕ}

theorem CabanaNet.Sized.size (h : N.Sized hidden nums) (hT : T.Plain hidden) {l : ℕ}
    (h0 : 0 < l) (hl : l < T.numLayers) : N.neurons l = T.n l := by
  rw [hT.layers] at hl
  rw [h.neurons]
  show cabanaNeurons hidden nums l = T.n l
  unfold cabanaNeurons
  rw [if_neg (by omega)]
  by_cases h1 : l = hidden.length + 1
  · rw [if_pos h1, h1, hT.output.1]
  · rw [if_neg h1]
    have h2 : l - 1 < hidden.length := by omega
    have := (hT.inside (l - 1) _ (List.getElem?_eq_getElem h2)).1
    rw [show l - 1 + 1 = l by omega] at this
    rw [List.getElem?_eq_getElem h2, this]
    rfl

theorem CabanaNet.Sized.act (h : N.Sized hidden nums) (hT : T.Plain hidden) {l : ℕ}
    (h0 : 0 < l) (hl : l < T.numLayers) (x : ℝ) :
    (cabanaActivation (N.AF l) x).1 = (T.af l).fn x := by
  rw [hT.layers] at hl
  rw [h.AF]
  show (cabanaActivation (cabanaAF (2 + hidden.length) l) x).1 = _
  unfold cabanaAF
  rw [if_neg (by omega)]
  by_cases h1 : l = hidden.length + 1
  · rw [if_pos (by omega), h1, hT.output.2]
    rfl
  · rw [if_neg (by omega)]
    have h2 : l - 1 < hidden.length := by omega
    have := (hT.inside (l - 1) _ (List.getElem?_eq_getElem h2)).2
    rw [show l - 1 + 1 = l by omega] at this
    rw [this]
    simp [cabanaActivation, Activation.fn, Activation.ideal]

/-- The values of the neurons. -/
theorem cabana_forward (h : N.Sized hidden nums) (hT : T.Plain hidden) (hr : N.Reads e T c)
    (h0 : T.n 0 = n0) (G : Buf) : ∀ l i, l < T.numLayers → i < T.n l →
      (N.layer e n0 G l i).1 = T.forward c G l i
  | 0, i, _, _ => rfl
  | l + 1, i, hl, hi => by
    have hprev : (if l + 1 = 1 then n0 else N.neurons l) = T.n l := by
      by_cases h1 : l = 0
      · subst h1; simp [h0]
      · rw [if_neg (by omega), h.size hT (by omega) (by omega)]
    unfold CabanaNet.layer NetShape.forward
    dsimp only
    rw [hprev, h.act hT (by omega) hl]
    unfold NetShape.divisor
    rw [hT.norm]
    simp only [Bool.false_eq_true, if_false, div_one]
    congr 2
    · refine Finset.sum_congr rfl fun j hj => ?_
      have hj := Finset.mem_range.1 hj
      rw [cabana_forward h hT hr h0 G l j (by omega) hj, hr.weight l j i ⟨hl, hj, hi⟩]
    · exact hr.bias l i ⟨hl, hi⟩

theorem cabanaActivation_deriv (AF : ℕ) (x : ℝ) (hAF : AF = 0 ∨ AF = 1) :
    HasDerivAt (fun x => (cabanaActivation AF x).1) (cabanaActivation AF x).2 x := by
  rcases hAF with rfl | rfl
  · exact hasDerivAt_id x
  · have h : HasDerivAt Real.tanh (1 - Real.tanh x * Real.tanh x) x := 
      Activation.hasDerivAt_tanh x
    simpa [cabanaActivation] using h

theorem cabanaAF_le (n l : ℕ) : cabanaAF n l = 0 ∨ cabanaAF n l = 1 := by
  unfold cabanaAF
  split_ifs <;> simp

/-- The derivatives along a path of the inputs. -/
theorem cabana_layer_deriv (hAF : ∀ l, N.AF l = 0 ∨ N.AF l = 1) {G : ℝ → Buf} {G' : Buf} {s : ℝ}
    (hG : ∀ k < n0, HasDerivAt (fun s => G s k) (G' k) s) : ∀ l i,
    HasDerivAt (fun s => (N.layer e n0 (G s) (l + 1) i).1)
      (∑ k ∈ Finset.range n0, N.inner e n0 (G s) k l i * G' k) s
  | 0, i => by
    have h1 : HasDerivAt (fun s => ∑ j ∈ Finset.range n0, N.weights e 0 i j * G s j + N.bias e 0 i)
        (∑ j ∈ Finset.range n0, N.weights e 0 i j * G' j) s :=
      (HasDerivAt.fun_sum fun j hj => (hG j (Finset.mem_range.1 hj)).const_mul _).add_const _
    have h2 := (cabanaActivation_deriv (N.AF 1) _ (hAF 1)).comp s h1
    have he : (∑ k ∈ Finset.range n0, N.inner e n0 (G s) k 0 i * G' k) =
        (cabanaActivation (N.AF 1)
          (∑ j ∈ Finset.range n0, N.weights e 0 i j * G s j + N.bias e 0 i)).2 *
        ∑ j ∈ Finset.range n0, N.weights e 0 i j * G' j := by
      rw [Finset.mul_sum]
      refine Finset.sum_congr rfl fun k _ => ?_
      unfold CabanaNet.inner
      have : (N.layer e n0 (G s) 1 i).2 = (cabanaActivation (N.AF 1)
          (∑ j ∈ Finset.range n0, N.weights e 0 i j * G s j + N.bias e 0 i)).2 := rfl
      rw [this]
      ring
    rw [he]
    exact h2
  | l + 1, i => by
    have ih := cabana_layer_deriv hAF hG l
    have h1 : HasDerivAt (fun s => ∑ j ∈ Finset.range (N.neurons (l + 1)),
        N.weights e (l + 1) i j * (N.layer e n0 (G s) (l + 1) j).1 + N.bias e (l + 1) i)
        (∑ j ∈ Finset.range (N.neurons (l + 1)), N.weights e (l + 1) i j *
          ∑ k ∈ Finset.range n0, N.inner e n0 (G s) k l j * G' k) s :=
      (HasDerivAt.fun_sum fun j _ => (ih j).const_mul _).add_const _
    have h2 := (cabanaActivation_deriv (N.AF (l + 2)) _ (hAF (l + 2))).comp s h1
    have hl : ∀ s, N.layer e n0 (G s) (l + 2) i = cabanaActivation (N.AF (l + 2))
        (∑ j ∈ Finset.range (N.neurons (l + 1)),
          N.weights e (l + 1) i j * (N.layer e n0 (G s) (l + 1) j).1 + N.bias e (l + 1) i) := by
      intro s
      rw [CabanaNet.layer]
      simp
    have he : (∑ k ∈ Finset.range n0, N.inner e n0 (G s) k (l + 1) i * G' k) =
        (N.layer e n0 (G s) (l + 2) i).2 * ∑ j ∈ Finset.range (N.neurons (l + 1)),
          N.weights e (l + 1) i j * ∑ k ∈ Finset.range n0, N.inner e n0 (G s) k l j * G' k := by
      simp only [Finset.mul_sum]
      rw [Finset.sum_comm]
      refine Finset.sum_congr rfl fun k _ => ?_
      rw [CabanaNet.inner, Finset.sum_mul, Finset.sum_mul]
      refine Finset.sum_congr rfl fun j _ => ?_
      ring
    rw [he, hl]
    simp only [hl]
    exact h2

theorem foldl_max_le {α : Type} (f : α → ℕ) (l : List α) : ∀ m, m ≤ l.foldl (fun m a => max m (f a)) m
    ∧ ∀ a ∈ l, f a ≤ l.foldl (fun m a => max m (f a)) m := by
  induction l with
  | nil => intro m; simp
  | cons b l ih =>
    intro m
    rw [List.foldl_cons]
    obtain ⟨h1, h2⟩ := ih (max m (f b))
    refine ⟨le_trans (le_max_left _ _) h1, fun a ha => ?_⟩
    rcases List.mem_cons.1 ha with rfl | ha
    · exact le_trans (le_max_right _ _) h1
    · exact h2 a ha

theorem CabanaNet.Sized.room (h : N.Sized hidden nums) {l : ℕ} (hl : l < 2 + hidden.length) :
    N.neurons l ≤ N.maxNeurons := by
  rw [h.maxNeurons, h.neurons]
  exact (foldl_max_le _ _ 0).2 l (List.mem_range.2 hl)

theorem CabanaNet.Sized.kinds (h : N.Sized hidden nums) (l : ℕ) : N.AF l = 0 ∨ N.AF l = 1 := by
  rw [h.AF]
  exact cabanaAF_le _ l

theorem foldl_last (l : List ℕ) : l.foldl (fun _ m => m) 0 = l.getLast?.getD 0 := by
  rcases List.eq_nil_or_concat l with rfl | ⟨l, a, rfl⟩
  · rfl
  · simp

/-- Evaluation of a plain network with enough inputs. -/
theorem cabana_evaluate (h : N.Sized hidden nums) (hT : T.Plain hidden) (hh : hidden ≠ [])
    (hr : N.Reads e T c) (hin : T.n 0 ≤ N.neurons 0) (G old : Buf) :
    ∃ d, N.evaluate e (T.n 0) G old = some (T.forward c G T.out 0, d) ∧
      (∀ k < T.n 0, d k = N.inner e (T.n 0) G k (N.numLayers - 2) 0) ∧
      ∀ k, d k = if k < N.neurons 0 then N.inner e (T.n 0) G k (N.numLayers - 2) 0 else old k := by
  have hL : 0 < hidden.length := List.length_pos_iff.2 hh
  have hN : N.numLayers = 2 + hidden.length := h.numLayers
  have hroom := h.room (l := 0) (by omega)
  refine ⟨_, ?_, fun k hk => if_pos (lt_of_lt_of_le hk hin), fun _ => rfl⟩
  unfold CabanaNet.evaluate
  rw [if_neg (by omega), if_neg (by omega), hN]
  rw [cabana_forward h hT hr rfl G _ 0 (by rw [hT.layers]; omega)
    (by rw [show 2 + hidden.length - 1 = hidden.length + 1 by omega, hT.output.1]; omega)]
  rw [NetShape.out, hT.layers]

/-- The derivative of the output along a path of the inputs. -/
theorem cabana_output_deriv (h : N.Sized hidden nums) (hT : T.Plain hidden)
    (hr : N.Reads e T c) {G : ℝ → Buf} {G' : Buf} {s : ℝ}
    (hG : ∀ k < T.n 0, HasDerivAt (fun s => G s k) (G' k) s) :
    HasDerivAt (fun s => T.forward c (G s) T.out 0)
      (∑ k ∈ Finset.range (T.n 0), N.inner e (T.n 0) (G s) k (N.numLayers - 2) 0 * G' k) s := by
  have hN : N.numLayers = 2 + hidden.length := h.numLayers
  have h1 := cabana_layer_deriv (N := N) (e := e) h.kinds hG hidden.length 0
  rw [hN, Nat.add_sub_cancel_left]
  convert h1 using 2 with s
  rw [cabana_forward h hT hr rfl (G s) _ 0 (by rw [hT.layers]; omega)
    (by rw [hT.output.1]; omega), NetShape.out, hT.layers,
    show 2 + hidden.length - 1 = hidden.length + 1 by omega]

/-- The derivative of the output with respect to one input. -/
theorem cabana_input_deriv (h : N.Sized hidden nums) (hT : T.Plain hidden)
    (hr : N.Reads e T c) (G : Buf) {k : ℕ} (hk : k < T.n 0) :
    HasDerivAt (fun x => T.forward c (Function.update G k x) T.out 0)
      (N.inner e (T.n 0) G k (N.numLayers - 2) 0) (G k) := by
  have h1 := cabana_output_deriv h hT hr (G := fun x => Function.update G k x)
    (G' := fun m => if m = k then 1 else 0) (s := G k) fun m _ => by
      by_cases hm : m = k
      · subst hm
        simpa using hasDerivAt_id' (G m)
      · simpa [Function.update_of_ne hm, hm] using hasDerivAt_const (G k) (G m)
  simpa [Function.update_eq_self, Finset.sum_ite_eq', hk] using h1

end N2P2
