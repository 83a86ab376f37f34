import Verif.Lemma.NNStatistics
import Verif.Props.NeuralNetwork

/-! Properties C70 (neuron statistics) and C71 (initial weights). -/

namespace N2P2

open NetShape NeuralNetwork

/-! ### C70 -/

/-- C70: after a reset and any number of evaluations, `getNeuronStatistics` reports for each neuron
(layer by layer) the number, sum, sum of squares and extreme values of what it has seen, and writes
nothing else. -/
theorem C70_statistics (T : NetShape) (hT : T.Sensible) (c : Buf) (nn0 nn1 : NeuralNetwork)
    (hr : Reachable T.numLayers T.n T.af nn0) (he : Evaluates (nn0.setConnections c) nn1)
    (hn : nn1.normalizeNeurons = T.norm) (Gs : List Buf) (target : ℕ → NeuronStat) :
    let nn := Gs.foldl (fun nn G => (nn.setInput G).propagate) nn1.resetNeuronStatistics
    (∀ l < T.numLayers, ∀ k < T.n l,
      let s := nn.getNeuronStatistics target (∑ m ∈ Finset.range l, T.n m + k)
      let vs := Gs.map (T.seen c l k)
      s.count = Gs.length ∧ s.sum = vs.sum ∧ s.sum2 = (vs.map fun v => v ^ 2).sum ∧
      (Gs ≠ [] → (∀ v ∈ vs, |v| ≤ DBL_MAX) →
        IsLeast {v | v ∈ vs} s.min ∧ IsGreatest {v | v ∈ vs} s.max)) ∧
    ∀ i, ∑ m ∈ Finset.range T.numLayers, T.n m ≤ i → nn.getNeuronStatistics target i = target i := by
  have hs0 := hr.hasShape
  have hs1 := hs0.of_same (sameTop_setConnections hs0 c)
  have hs2 := hs1.of_same he.keeps.top
  have hk := keeps_resetNeuronStatistics nn1
  have hs3 := hs2.of_same hk.top
  obtain ⟨h1, h2⟩ := stat_all (c := c) hT Gs _ hs3 hn fun p hp => by
    rw [hk.read, he.keeps.read, read_setConnections hs0 c hp]
  obtain ⟨g1, g2⟩ := getNeuronStatistics_eq h1 target
  refine ⟨fun l hl k hk => ?_, g2⟩
  intro s vs
  have hsv : s = vs.foldl NeuronStat.add .zero := by
    change NeuralNetwork.getNeuronStatistics _ _ _ = _
    rw [g1 l hl k hk, h2 l hl k hk, stat_reset (by rw [hs2.numLayers]; exact hl)
      (by rw [hs2.size]; exact hk)]
  obtain ⟨f1, f2, f3, -, -, f6, f7, f8⟩ := NeuronStat.foldl_add vs .zero
  rw [← hsv] at f1 f2 f3 f6 f7 f8
  have hlen : vs.length = Gs.length := List.length_map _
  refine ⟨?_, ?_, ?_, fun hne hb => ?_⟩
  · rw [f1, hlen]; exact Nat.zero_add _
  · rw [f2]; exact zero_add _
  · rw [f3]; exact zero_add _
  · have hne' : vs ≠ [] := fun h => hne (List.map_eq_nil_iff.1 h)
    obtain ⟨v, hv⟩ := List.exists_mem_of_ne_nil vs hne'
    refine ⟨⟨?_, fun w hw => (f6 w hw).1⟩, ⟨?_, fun w hw => (f6 w hw).2⟩⟩
    · rcases f7 with e | e
      · have h1 : v ≤ DBL_MAX := (le_abs_self v).trans (hb v hv)
        have h2 : s.min ≤ v := (f6 v hv).1
        have h3 : s.min = DBL_MAX := e
        have : s.min = v := le_antisymm h2 (h3 ▸ h1)
        rw [Set.mem_ofPred_eq, this]; exact hv
      · exact e
    · rcases f8 with e | e
      · have h1 : -DBL_MAX ≤ v := (neg_le_neg (hb v hv)).trans (neg_abs_le v)
        have h2 : v ≤ s.max := (f6 v hv).2
        have h3 : s.max = -DBL_MAX := e
        have : s.max = v := le_antisymm (h3 ▸ h1) h2
        rw [Set.mem_ofPred_eq, this]; exact hv
      · exact e

theorem one_le_DBL_MAX : (1 : ℝ) ≤ DBL_MAX := by
  unfold DBL_MAX
  have h : (1 : ℝ) ≤ 2 ^ 1023 := one_le_pow₀ (by norm_num)
  exact one_le_mul_of_one_le_of_one_le (by norm_num) h

/-- Two evaluations of the network of C18: the statistics of the second input neuron. -/
example : ∃ nn0 : NeuralNetwork, Reachable exampleShape.numLayers exampleShape.n exampleShape.af nn0 ∧
    ((([fun _ => 1, fun _ => -1] : List Buf).foldl (fun nn G => (nn.setInput G).propagate)
      ((nn0.setConnections fun _ => 2).setNormalizeNeurons true).resetNeuronStatistics
      ).getNeuronStatistics (fun _ => .zero) 1).min = -1 := by
  have h : ∃ nn0, create exampleShape.numLayers exampleShape.n exampleShape.af = some nn0 :=
    ⟨_, rfl⟩
  obtain ⟨nn0, h0⟩ := h
  refine ⟨nn0, .create h0, ?_⟩
  obtain ⟨h1, -⟩ := C70_statistics exampleShape exampleShape_sensible (fun _ => 2) nn0 _ (.create h0)
    (.setNormalizeNeurons true (.refl _)) rfl [fun _ => 1, fun _ => -1] (fun _ => .zero)
  obtain ⟨-, -, -, h2⟩ := h1 0 (by norm_num [exampleShape]) 1 (by norm_num [exampleShape])
  obtain ⟨⟨h3, h4⟩, -⟩ := h2 (by simp) (by
    have := one_le_DBL_MAX
    simpa [seen] using this)
  simp only [seen, List.map_cons, List.map_nil, List.mem_cons, List.not_mem_nil, or_false,
    Set.mem_ofPred_eq] at h3 h4
  have h5 := h4 (Or.inr rfl)
  simp only [Finset.range_zero, Finset.sum_empty, Nat.zero_add] at h3 h5
  rcases h3 with h3 | h3
  · rw [h3] at h5; norm_num at h5
  · exact h3

/-! ### C71 -/

/-- C71: `MS_ZEROBIAS` sets all biases to zero and keeps the weights; `MS_ZEROOUTPUTWEIGHTS` sets
exactly the weights of the output layer to zero. -/
theorem C71_zero (T : NetShape) (nn a b : NeuralNetwork)
    (hr : Reachable T.numLayers T.n T.af nn) (ha : nn.modifyConnections .ZEROBIAS = some a)
    (hb : nn.modifyConnections .ZEROOUTPUTWEIGHTS = some b) :
    (∀ i j k, (Param.weight i j k).Valid T.numLayers T.n →
      (Param.weight i j k).read a = (Param.weight i j k).read nn ∧
      (Param.weight i j k).read b =
        if i + 1 = T.out then 0 else (Param.weight i j k).read nn) ∧
    ∀ i k, (Param.bias i k).Valid T.numLayers T.n →
      (Param.bias i k).read a = 0 ∧ (Param.bias i k).read b = (Param.bias i k).read nn := by
  have hs := hr.hasShape
  simp only [modifyConnections, Option.some.injEq] at ha hb
  subst ha hb
  constructor
  · rintro i j k ⟨h1, h2, h3⟩
    simp only [Param.read, neuron_mapNeurons hs _ _ _ h3, hs.numLayers]
    refine ⟨by split_ifs <;> rfl, ?_⟩
    by_cases e : i + 1 = T.out
    · rw [if_pos ⟨e.ge, h1⟩, if_pos e]
      simp only [mapWeights, hs.prev, h2, if_true]
    · have e' : ¬ (T.numLayers - 1 ≤ i + 1 ∧ i + 1 < T.numLayers) := by unfold out at e; omega
      rw [if_neg e', if_neg e]
  · rintro i k ⟨h1, h3⟩
    simp only [Param.read, neuron_mapNeurons hs _ _ _ h3, hs.numLayers]
    refine ⟨by rw [if_pos ⟨Nat.zero_le _, h1⟩], ?_⟩
    split_ifs <;> rfl

/-- C71: the fan-in and the Glorot-Bengio scheme multiply the weights between layers of `n` and `m`
neurons by 1/√n and √(6/(n+m)) if the receiving layer has hyperbolic tangent neurons; nothing else
changes. -/
theorem C71_scaling (T : NetShape) (nn a b : NeuralNetwork)
    (hr : Reachable T.numLayers T.n T.af nn) (ha : nn.modifyConnections .FANIN = some a)
    (hb : nn.modifyConnections .GLOROTBENGIO = some b) :
    (∀ i j k, (Param.weight i j k).Valid T.numLayers T.n →
      (Param.weight i j k).read a = (Param.weight i j k).read nn *
        (if T.af (i + 1) = .TANH then 1 / √(T.n i) else 1) ∧
      (Param.weight i j k).read b = (Param.weight i j k).read nn *
        (if T.af (i + 1) = .TANH then √(6 / ((T.n i : ℝ) + T.n (i + 1))) else 1)) ∧
    ∀ i k, (Param.bias i k).Valid T.numLayers T.n →
      (Param.bias i k).read a = (Param.bias i k).read nn ∧
      (Param.bias i k).read b = (Param.bias i k).read nn := by
  have hs := hr.hasShape
  simp only [modifyConnections, Option.some.injEq] at ha hb
  subst ha hb
  constructor
  · rintro i j k ⟨h1, h2, h3⟩
    have h4 : 1 ≤ i + 1 ∧ i + 1 < T.numLayers := ⟨by omega, h1⟩
    simp only [Param.read, neuron_mapNeurons hs _ _ _ h3, hs.numLayers, h4, and_self, if_true,
      hs.act]
    by_cases e : T.af (i + 1) = .TANH
    · simp only [e, if_true, mapWeights, hs.prev, hs.size, h2, and_true]
      exact div_eq_mul_one_div _ _
    · simp only [e, if_false, mul_one, and_self]
  · rintro i k ⟨h1, h3⟩
    simp only [Param.read, neuron_mapNeurons hs _ _ _ h3, hs.numLayers]
    constructor <;> split_ifs <;> rfl

/-- C71: after the fan-in scheme, weights drawn from [-1, 1] lie in [-1/√n, 1/√n]. -/
theorem C71_fan_in_range (T : NetShape) (nn a : NeuralNetwork)
    (hr : Reachable T.numLayers T.n T.af nn) (ha : nn.modifyConnections .FANIN = some a)
    (i j k : ℕ) (hv : (Param.weight i j k).Valid T.numLayers T.n) (ht : T.af (i + 1) = .TANH)
    (h1 : |(Param.weight i j k).read nn| ≤ 1) :
    |(Param.weight i j k).read a| ≤ 1 / √(T.n i) := by
  have h := ((C71_scaling T nn a _ hr ha rfl).1 i j k hv).1
  rw [h, if_pos ht, abs_mul, abs_of_nonneg (by positivity : (0 : ℝ) ≤ 1 / √(T.n i))]
  exact mul_le_of_le_one_left (by positivity) h1

/-- C71: after the Nguyen-Widrow scheme the weights entering a hidden neuron have the Euclidean norm
0.7 m^(1/n), twice that for hyperbolic tangent neurons, keep their direction, and the bias is
multiplied by the same number. -/
theorem C71_nguyen_widrow (T : NetShape) (nn a : NeuralNetwork)
    (hr : Reachable T.numLayers T.n T.af nn) (ha : nn.modifyConnections .NGUYENWIDROW = some a)
    (i k : ℕ) (hi : i + 1 < T.out) (hk : k < T.n (i + 1))
    (hw : ∃ j < T.n i, (Param.weight i j k).read nn ≠ 0) :
    ∑ j ∈ Finset.range (T.n i), (Param.weight i j k).read a ^ 2 = nguyenWidrowLength T i ^ 2 ∧
    (∃ r > 0, ∀ j < T.n i, (Param.weight i j k).read a = r * (Param.weight i j k).read nn) ∧
    (Param.bias i k).read a = nguyenWidrowLength T i * (Param.bias i k).read nn := by
  have hs := hr.hasShape
  have ha := Option.some.inj ha
  subst ha
  obtain ⟨j0, hj0, hne⟩ := hw
  have h4 : 1 ≤ i + 1 ∧ i + 1 < T.numLayers - 1 := ⟨by omega, hi⟩
  have hnot : ¬ (i + 1 = T.numLayers - 1 ∧ k = 0) := by unfold out at hi; omega
  have htop : ∀ m, (nn.mapNeurons 1 m nguyenWidrowNeuron).numLayers = T.numLayers :=
    fun _ => hs.numLayers
  simp only [Param.read, htop, neuron_halve, hnot, if_false, neuron_mapNeurons hs _ _ _ hk,
    hs.numLayers, h4, and_self, if_true] at hne ⊢
  simp only [nguyenWidrowNeuron, mapWeights, hs.prev, hs.size, hs.act, loop_add, zero_add]
  set w : ℕ → ℝ := ((nn.layers (i + 1)).neurons k).weights with hwdef
  set S : ℝ := ∑ j ∈ Finset.range (T.n i), w j * w j with hS
  have hSpos : 0 < S := by
    refine Finset.sum_pos' (fun j _ => mul_self_nonneg _) ⟨j0, Finset.mem_range.2 hj0, ?_⟩
    exact mul_self_pos.2 hne
  have hm : (0 : ℝ) < T.n (i + 1) := by exact_mod_cast (Nat.zero_le k).trans_lt hk
  set B : ℝ := 0.7 * (T.n (i + 1) : ℝ) ^ (1 / (T.n i : ℝ)) with hB
  have hBpos : 0 < B := mul_pos (by norm_num) (Real.rpow_pos_of_pos hm _)
  set t : ℝ := if T.af (i + 1) = .TANH then 2 else 1 with ht
  have htpos : 0 < t := by rw [ht]; split_ifs <;> norm_num
  have hl : nguyenWidrowLength T i = t * B := rfl
  have hval : ∀ j < T.n i, (if j < T.n i then
      (if T.af (i + 1) = .TANH then w j * (B / √S) * 2 else w j * (B / √S)) else w j) =
      t * B / √S * w j := by
    intro j hj
    rw [if_pos hj, ht]
    by_cases e : T.af (i + 1) = .TANH
    · simp only [e, if_true]; ring
    · simp only [e, if_false]; ring
  refine ⟨?_, ⟨t * B / √S, by positivity, hval⟩, ?_⟩
  · rw [Finset.sum_congr rfl fun j hj => by rw [hval j (Finset.mem_range.1 hj)]]
    simp only [mul_pow, ← Finset.mul_sum, hl, div_pow, Real.sq_sqrt hSpos.le]
    have : ∑ j ∈ Finset.range (T.n i), w j ^ 2 = S := by
      rw [hS]; exact Finset.sum_congr rfl fun j _ => pow_two _
    rw [this]
    field_simp
  · rw [hl, ht]
    by_cases e : T.af (i + 1) = .TANH
    · simp only [e, if_true]; ring
    · simp only [e, if_false]; ring

/-- C71: what the Nguyen-Widrow scheme does to the output layer: only weights entering the first
output neuron change, and of these only as many as there are output neurons; they are halved. -/
theorem C71_nguyen_widrow_output (T : NetShape) (nn a : NeuralNetwork)
    (hr : Reachable T.numLayers T.n T.af nn) (ha : nn.modifyConnections .NGUYENWIDROW = some a)
    (i : ℕ) (hi : i + 1 = T.out) :
    (∀ j k, (Param.weight i j k).Valid T.numLayers T.n →
      (Param.weight i j k).read a = (Param.weight i j k).read nn *
        (if k = 0 ∧ j < T.n T.out then 1 / 2 else 1)) ∧
    ∀ k, (Param.bias i k).Valid T.numLayers T.n →
      (Param.bias i k).read a = (Param.bias i k).read nn := by
  have hs := hr.hasShape
  have ha := Option.some.inj ha
  subst ha
  unfold out at *
  have h4 : ¬ (1 ≤ i + 1 ∧ i + 1 < T.numLayers - 1) := by omega
  have htop : ∀ m, (nn.mapNeurons 1 m nguyenWidrowNeuron).numLayers = T.numLayers :=
    fun _ => hs.numLayers
  have hsize := (hs.of_same (sameTop_mapNeurons nn 1 (nn.numLayers - 1) nguyenWidrowNeuron)).size
  have hn : ∀ k < T.n (i + 1), ((nn.mapNeurons 1 (nn.numLayers - 1) nguyenWidrowNeuron).layers
      (i + 1)).neurons k = (nn.layers (i + 1)).neurons k := by
    intro k hk
    rw [neuron_mapNeurons hs _ _ _ hk, hs.numLayers, if_neg h4]
  constructor
  · rintro j k ⟨h1, h2, h3⟩
    have h0 := hn 0 (by omega)
    simp only [Param.read, htop, neuron_halve, ← hi, true_and, hsize, h0]
    by_cases e : k = 0
    · subst e
      simp only [if_true, true_and]
      split_ifs
      · norm_num
      · simp
    · simp only [e, if_false, false_and, hn k h3, mul_one]
  · rintro k ⟨h1, h3⟩
    have h0 := hn 0 (by omega)
    simp only [Param.read, htop, neuron_halve, ← hi, true_and, hsize, h0]
    by_cases e : k = 0
    · subst e; simp
    · simp only [e, if_false, hn k h3]

/-- C71: preconditioning multiplies the deviation of a linear output from its bias by `sigma` and
adds `mean` to it. -/
theorem C71_precondition (T : NetShape) (hT : T.Sensible) (c : Buf) (nn0 nn1 nn2 : NeuralNetwork)
    (mean sigma : ℝ) (hr : Reachable T.numLayers T.n T.af nn0)
    (he : Evaluates (nn0.setConnections c) nn1) (hn : nn1.normalizeNeurons = T.norm)
    (hm : nn1.modifyConnections2 .PRECONDITIONOUTPUT mean sigma = some nn2)
    (hl : T.af T.out = .IDENTITY) (hnorm : T.norm = false) (G target : Buf) (k : ℕ)
    (hk : k < T.n T.out) :
    ((nn2.setInput G).propagate).getOutput target k =
      sigma * (T.forward c G T.out k - c (Param.pos T.n (.bias (T.out - 1) k))) +
      c (Param.pos T.n (.bias (T.out - 1) k)) + mean := by
  have hs0 := hr.hasShape
  have hs1 := hs0.of_same (sameTop_setConnections hs0 c)
  have hs2 := hs1.of_same he.keeps.top
  have hs3 := hs2.of_same (sameTop_modifyConnections2 hm)
  have hrd : ∀ p : Param, p.Valid T.numLayers T.n → p.read nn1 = c (p.pos T.n) := fun p hp => by
    rw [he.keeps.read, read_setConnections hs0 c hp]
  have h2 : nn2.normalizeNeurons = T.norm := by
    simp only [modifyConnections2, Option.some.injEq] at hm
    rw [← hm]; exact hn
  -- the network behaves as one whose parameter array was modified
  let c' : Buf := nn2.getConnections (fun _ => 0)
  have hc' : ∀ p : Param, p.Valid T.numLayers T.n → p.read nn2 = c' (p.pos T.n) := fun p hp =>
    (getConnections_pos hs3 _ hp).symm
  have hkp := keeps_setInput nn2 G
  have hC : Computed T c' G (nn2.setInput G).propagate := by
    refine computed_propagate hT (hs3.of_same hkp.top) h2 (fun p hp => ?_) ?_
    · rw [hkp.read]; exact hc' p hp
    · exact (inputAll_spec hs3 G false).2.2
  have h3 : 3 ≤ T.numLayers := hT.1
  obtain ⟨l, hl1⟩ : ∃ l, T.out = l + 1 := ⟨T.numLayers - 2, by unfold out; omega⟩
  have hlt : l + 1 < T.numLayers := by unfold out at hl1; omega
  have hneu : ∀ i k, k < T.n (i + 1) → (nn2.layers (i + 1)).neurons k =
      if i = l then
        { (mapWeights (nn1.layers (i + 1)) (fun w => w * sigma) ((nn1.layers (i + 1)).neurons k)) with
          bias := ((nn1.layers (i + 1)).neurons k).bias + mean }
      else if i + 1 < T.numLayers then (nn1.layers (i + 1)).neurons k
      else (nn2.layers (i + 1)).neurons k := by
    intro i k hk
    simp only [modifyConnections2, Option.some.injEq] at hm
    subst hm
    unfold out at hl1
    simp only [neuron_mapNeurons hs2 _ _ _ hk, hs2.numLayers]
    by_cases e : i = l
    · subst e
      rw [if_pos ⟨hl1.le, hlt⟩, if_pos rfl]
      rfl
    · rw [if_neg e]
      by_cases g : i + 1 < T.numLayers
      · rw [if_pos g, if_neg (by omega)]
      · rw [if_neg g]
  have hlow : ∀ i ≤ l, ∀ k < T.n i, T.forward c' G i k = T.forward c G i k := by
    intro i
    induction i with
    | zero => intro _ k _; rfl
    | succ i ih =>
      intro hi k hk
      have e1 : ∀ j < T.n i, c' (Param.pos T.n (.weight i j k)) = c (Param.pos T.n (.weight i j k)) := by
        intro j hj
        have hv : (Param.weight i j k).Valid T.numLayers T.n := ⟨by omega, hj, hk⟩
        rw [← hc' _ hv, ← hrd _ hv, Param.read, Param.read, hneu i k hk, if_neg (by omega),
          if_pos (by omega)]
      have e2 : c' (Param.pos T.n (.bias i k)) = c (Param.pos T.n (.bias i k)) := by
        have hv : (Param.bias i k).Valid T.numLayers T.n := ⟨by omega, hk⟩
        rw [← hc' _ hv, ← hrd _ hv, Param.read, Param.read, hneu i k hk, if_neg (by omega),
          if_pos (by omega)]
      rw [forward, forward, e2, Finset.sum_congr rfl fun j hj => by
        rw [e1 j (Finset.mem_range.1 hj), ih (by omega) j (Finset.mem_range.1 hj)]]
  rw [hl1] at hk hl ⊢
  have hout : ((nn2.setInput G).propagate).getOutput target k = T.forward c' G (l + 1) k := by
    rw [getOutput_eq, hC.shape.numLayers, hC.shape.size]
    have : T.numLayers - 1 = l + 1 := hl1
    rw [this, if_pos hk, hC.value _ hlt _ hk]
  have hid : ∀ x, (T.af (l + 1)).fn x = x := fun x => by rw [hl]; rfl
  have hdiv : T.divisor l = 1 := by unfold divisor; rw [hnorm]; rfl
  have e1 : ∀ j < T.n l, c' (Param.pos T.n (.weight l j k)) =
      c (Param.pos T.n (.weight l j k)) * sigma := by
    intro j hj
    have hv : (Param.weight l j k).Valid T.numLayers T.n := ⟨hlt, hj, hk⟩
    rw [← hc' _ hv, ← hrd _ hv, Param.read, Param.read, hneu l k hk, if_pos rfl]
    simp only [mapWeights, hs2.prev, hj, if_true]
  have e2 : c' (Param.pos T.n (.bias l k)) = c (Param.pos T.n (.bias l k)) + mean := by
    have hv : (Param.bias l k).Valid T.numLayers T.n := ⟨hlt, hk⟩
    rw [← hc' _ hv, ← hrd _ hv, Param.read, Param.read, hneu l k hk, if_pos rfl]
  rw [hout, forward, forward, hid, hid, hdiv, e2, Nat.add_sub_cancel, Finset.sum_congr rfl fun j hj => by
    rw [e1 j (Finset.mem_range.1 hj), hlow l le_rfl j (Finset.mem_range.1 hj)]]
  rw [add_div, add_div, div_one, div_one, div_one, div_one, add_sub_cancel_right, Finset.mul_sum, ← add_assoc]
  congr 2
  exact Finset.sum_congr rfl fun j _ => by ring

/-- The network of C18 with all parameters 1: what the schemes make of it. -/
example : ∃ nn fan nw zero : NeuralNetwork,
    Reachable exampleShape.numLayers exampleShape.n exampleShape.af nn ∧
    nn.modifyConnections .FANIN = some fan ∧ (Param.weight 0 1 2).read fan = 1 / √2 ∧
    nn.modifyConnections .NGUYENWIDROW = some nw ∧
    (Param.weight 1 0 0).read nw = 1 / 2 ∧ (Param.weight 1 1 0).read nw = 1 ∧
    (Param.bias 0 2).read nw = 2 * (0.7 * (3 : ℝ) ^ (1 / 2 : ℝ)) ∧
    nn.modifyConnections .ZEROBIAS = some zero ∧ (Param.bias 0 2).read zero = 0 := by
  have h : ∃ nn0, create exampleShape.numLayers exampleShape.n exampleShape.af = some nn0 :=
    ⟨_, rfl⟩
  obtain ⟨nn0, h0⟩ := h
  have hr : Reachable exampleShape.numLayers exampleShape.n exampleShape.af nn0 := .create h0
  have hr' := hr.setConnections (fun _ => 1)
  have h1 : ∀ p : Param, p.Valid exampleShape.numLayers exampleShape.n →
      p.read (nn0.setConnections fun _ => 1) = 1 := fun p hp => read_setConnections hr.hasShape _ hp
  have v1 : (Param.weight 0 1 2).Valid exampleShape.numLayers exampleShape.n := by
    simp [Param.Valid, exampleShape]
  have v2 : (Param.weight 1 0 0).Valid exampleShape.numLayers exampleShape.n := by
    simp [Param.Valid, exampleShape]
  have v3 : (Param.weight 1 1 0).Valid exampleShape.numLayers exampleShape.n := by
    simp [Param.Valid, exampleShape]
  have v4 : (Param.bias 0 2).Valid exampleShape.numLayers exampleShape.n := by
    simp [Param.Valid, exampleShape]
  refine ⟨_, _, _, _, hr', rfl, ?_, rfl, ?_, ?_, ?_, rfl, ?_⟩
  · rw [((C71_scaling _ _ _ _ hr' rfl rfl).1 0 1 2 v1).1, h1 _ v1]
    simp [exampleShape]
  · rw [(C71_nguyen_widrow_output _ _ _ hr' rfl 1 rfl).1 0 0 v2, h1 _ v2]
    simp [exampleShape, out]
  · rw [(C71_nguyen_widrow_output _ _ _ hr' rfl 1 rfl).1 1 0 v3, h1 _ v3]
    simp [exampleShape, out]
  · rw [(C71_nguyen_widrow _ _ _ hr' rfl 0 2 (by simp [exampleShape, out])
      (by simp [exampleShape]) ⟨1, by simp [exampleShape], by rw [h1 _ v1]; norm_num⟩).2.2, h1 _ v4]
    simp [nguyenWidrowLength, exampleShape]
  · exact ((C71_zero _ _ _ _ hr' rfl rfl).2 0 2 v4).1

/-- Preconditioning the network of C18 without normalisation. -/
example : ∃ nn0 nn2 : NeuralNetwork,
    ((nn0.setConnections fun _ => 1).setNormalizeNeurons false).modifyConnections2
      .PRECONDITIONOUTPUT 5 3 = some nn2 ∧ ∀ G : Buf,
    ((nn2.setInput G).propagate).getOutput (fun _ => 0) 0 =
      3 * (({ exampleShape with norm := false } : NetShape).forward (fun _ => 1) G 2 0 - 1) + 1 + 5 := by
  have h : ∃ nn0, create exampleShape.numLayers exampleShape.n exampleShape.af = some nn0 :=
    ⟨_, rfl⟩
  obtain ⟨nn0, h0⟩ := h
  refine ⟨nn0, _, rfl, fun G => ?_⟩
  exact C71_precondition { exampleShape with norm := false } exampleShape_sensible (fun _ => 1) nn0 _ _
    5 3 (.create h0) (.setNormalizeNeurons false (.refl _)) rfl rfl rfl rfl G (fun _ => 0) 0
    (by simp [exampleShape, out])

end N2P2
