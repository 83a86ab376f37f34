import Verif.Lemma.NNForward
import Mathlib.Order.Bounds.Basic

/-! Statistics kept by the neurons. -/

namespace N2P2

open NetShape

/-- The statistics of a neuron. -/
def Neuron.stat (n : Neuron) : NeuronStat := ⟨n.count, n.min, n.max, n.sum, n.sum2⟩

/-- One more value. -/
noncomputable def NeuronStat.add (s : NeuronStat) (v : ℝ) : NeuronStat :=
  ⟨s.count + 1, Min.min v s.min, Max.max v s.max, s.sum + v, s.sum2 + v * v⟩

/-- No value yet. -/
noncomputable def NeuronStat.zero : NeuronStat := ⟨0, DBL_MAX, -DBL_MAX, 0, 0⟩

theorem NeuronStat.foldl_add (vs : List ℝ) : ∀ s : NeuronStat,
    (vs.foldl NeuronStat.add s).count = s.count + vs.length ∧
    (vs.foldl NeuronStat.add s).sum = s.sum + vs.sum ∧
    (vs.foldl NeuronStat.add s).sum2 = s.sum2 + (vs.map fun v => v ^ 2).sum ∧
    (vs.foldl NeuronStat.add s).min ≤ s.min ∧ s.max ≤ (vs.foldl NeuronStat.add s).max ∧
    (∀ v ∈ vs, (vs.foldl NeuronStat.add s).min ≤ v ∧ v ≤ (vs.foldl NeuronStat.add s).max) ∧
    ((vs.foldl NeuronStat.add s).min = s.min ∨ (vs.foldl NeuronStat.add s).min ∈ vs) ∧
    ((vs.foldl NeuronStat.add s).max = s.max ∨ (vs.foldl NeuronStat.add s).max ∈ vs) := by
  induction vs with
  | nil => intro s; simp
  | cons v vs ih =>
    intro s
    obtain ⟨h1, h2, h3, h4, h5, h6, h7, h8⟩ := ih (s.add v)
    rw [List.foldl_cons]
    refine ⟨?_, ?_, ?_, ?_, ?_, ?_, ?_, ?_⟩
    · rw [h1, List.length_cons]; simp only [add]; omega
    · rw [h2, List.sum_cons]; simp only [add]; ring
    · rw [h3, List.map_cons, List.sum_cons]; simp only [add]; ring
    · exact h4.trans (min_le_right _ _)
    · exact (le_max_right _ _).trans h5
    · intro w hw
      rcases List.mem_cons.1 hw with rfl | hw
      · exact ⟨h4.trans (min_le_left _ _), (le_max_left _ _).trans h5⟩
      · exact h6 w hw
    · rcases h7 with h7 | h7
      · rw [h7]
        rcases min_choice v s.min with e | e
        · exact Or.inr (by simp only [add, e, List.mem_cons, true_or])
        · exact Or.inl (by simp only [add, e])
      · exact Or.inr (List.mem_cons_of_mem _ h7)
    · rcases h8 with h8 | h8
      · rw [h8]
        rcases max_choice v s.max with e | e
        · exact Or.inr (by simp only [add, e, List.mem_cons, true_or])
        · exact Or.inl (by simp only [add, e])
      · exact Or.inr (List.mem_cons_of_mem _ h8)

namespace NeuralNetwork

theorem stat_storeNeuron (n : Neuron) (a : Activation) (x : ℝ) :
    (storeNeuron n a x).stat = n.stat.add x ∧ (storeNeuron n a x).x = x := by
  unfold storeNeuron
  cases a.eval x <;> exact ⟨rfl, rfl⟩

theorem stat_propagate {L : ℕ} {n : ℕ → ℕ} {af : ℕ → Activation} {nn : NeuralNetwork}
    (hs : HasShape L n af nn) :
    (∀ k, ((nn.propagate.layers 0).neurons k) = (nn.layers 0).neurons k) ∧
    ∀ l < L - 1, ∀ k < n (l + 1), ((nn.propagate.layers (l + 1)).neurons k).stat =
      (((nn.layers (l + 1)).neurons k).stat).add ((nn.propagate.layers (l + 1)).neurons k).x := by
  unfold propagate
  simp only [hs.numLayers]
  have := loop_induction (n := L - 1) (s := nn.layers)
    (b := fun i' layers => Function.update layers (i' + 1)
      (propagateLayer nn.normalizeNeurons (layers (i' + 1)) (layers (i' + 1 - 1))))
    (fun m t => SameLayers nn.layers t ∧ t 0 = nn.layers 0 ∧
      (∀ l, m ≤ l → t (l + 1) = nn.layers (l + 1)) ∧
      ∀ l < m, ∀ k < n (l + 1), ((t (l + 1)).neurons k).stat =
        (((nn.layers (l + 1)).neurons k).stat).add ((t (l + 1)).neurons k).x)
    ⟨SameLayers.refl _, rfl, fun _ _ => rfl, fun l hl => by omega⟩ (by
      intro m hm t ht
      obtain ⟨h1, h2, h3, h4⟩ := ht
      refine ⟨h1.update _ _, ?_, ?_, ?_⟩
      · rw [Function.update_of_ne (by omega)]; exact h2
      · intro l hl
        rw [Function.update_of_ne (by omega)]
        exact h3 l (by omega)
      · intro l hl k hk
        by_cases e : l = m
        · subst e
          rw [Function.update_self]
          unfold propagateLayer
          have hlt : k < (t (l + 1)).numNeurons := by rw [(h1 _).1, hs.size]; exact hk
          simp only [hlt, if_true]
          rw [(stat_storeNeuron _ _ _).1, (stat_storeNeuron _ _ _).2, h3 l le_rfl]
        · rw [Function.update_of_ne (by omega)]
          exact h4 l (by omega) k hk)
  obtain ⟨-, h2, -, h4⟩ := this
  exact ⟨fun k => by rw [h2], h4⟩

theorem stat_setInput (nn : NeuralNetwork) (G : Buf) :
    (∀ k < (nn.layers 0).numNeurons, (((nn.setInput G).layers 0).neurons k).stat =
      (((nn.layers 0).neurons k).stat).add (G k)) ∧
    ∀ l, (nn.setInput G).layers (l + 1) = nn.layers (l + 1) := by
  constructor
  · intro k hk
    simp only [setInput, Function.update_self, hk, if_true]
    rfl
  · intro l
    simp [setInput]

theorem stat_reset {nn : NeuralNetwork} {l k : ℕ} (hl : l < nn.numLayers)
    (hk : k < (nn.layers l).numNeurons) :
    ((nn.resetNeuronStatistics.layers l).neurons k).stat = .zero := by
  simp [resetNeuronStatistics, hl, hk, Neuron.stat, NeuronStat.zero]

theorem stat_evaluate {T : NetShape} {c G : Buf} {nn : NeuralNetwork} (hT : T.Sensible)
    (hs : HasShape T.numLayers T.n T.af nn) (hn : nn.normalizeNeurons = T.norm)
    (hp : ∀ p : Param, p.Valid T.numLayers T.n → p.read nn = c (p.pos T.n)) :
    HasShape T.numLayers T.n T.af (nn.setInput G).propagate ∧
    (nn.setInput G).propagate.normalizeNeurons = T.norm ∧
    (∀ p : Param, p.Valid T.numLayers T.n → p.read (nn.setInput G).propagate = c (p.pos T.n)) ∧
    ∀ l < T.numLayers, ∀ k < T.n l, (((nn.setInput G).propagate.layers l).neurons k).stat =
      (((nn.layers l).neurons k).stat).add (T.seen c l k G) := by
  have hk := keeps_setInput nn G
  have hs' := hs.of_same hk.top
  have hG : ∀ k < T.n 0, (((nn.setInput G).layers 0).neurons k).value = G k := by
    intro k hk
    have : k < (nn.layers 0).numNeurons := by rw [hs.size]; exact hk
    simp [setInput, this]
  have hc := computed_propagate hT hs' hn (fun p h => (hk.read p).trans (hp p h)) hG
  obtain ⟨s1, s2⟩ := stat_setInput nn G
  obtain ⟨p1, p2⟩ := stat_propagate hs'
  refine ⟨hc.shape, hc.norm, hc.param, ?_⟩
  intro l hl k hk
  cases l with
  | zero => rw [p1, s1 k (by rw [hs.size]; exact hk)]; rfl
  | succ l =>
    rw [p2 l (by omega) k hk, hc.x l hl k hk, s2]
    rfl

theorem stat_all {T : NetShape} {c : Buf} (hT : T.Sensible) (Gs : List Buf) :
    ∀ nn : NeuralNetwork, HasShape T.numLayers T.n T.af nn → nn.normalizeNeurons = T.norm →
    (∀ p : Param, p.Valid T.numLayers T.n → p.read nn = c (p.pos T.n)) →
    HasShape T.numLayers T.n T.af (Gs.foldl (fun nn G => (nn.setInput G).propagate) nn) ∧
    ∀ l < T.numLayers, ∀ k < T.n l,
      (((Gs.foldl (fun nn G => (nn.setInput G).propagate) nn).layers l).neurons k).stat =
      (Gs.map (T.seen c l k)).foldl NeuronStat.add ((nn.layers l).neurons k).stat := by
  induction Gs with
  | nil => intro nn hs _ _; exact ⟨hs, fun _ _ _ _ => rfl⟩
  | cons G Gs ih =>
    intro nn hs hn hp
    obtain ⟨h1, h2, h3, h4⟩ := stat_evaluate (G := G) hT hs hn hp
    obtain ⟨i1, i2⟩ := ih _ h1 h2 h3
    refine ⟨i1, fun l hl k hk => ?_⟩
    rw [List.foldl_cons, i2 l hl k hk, h4 l hl k hk, List.map_cons, List.foldl_cons]

/-- Where `getNeuronStatistics` puts the statistics. -/
theorem getNeuronStatistics_eq {L : ℕ} {n : ℕ → ℕ} {af : ℕ → Activation} {nn : NeuralNetwork}
    (hs : HasShape L n af nn) (target : ℕ → NeuronStat) :
    (∀ l < L, ∀ k < n l, nn.getNeuronStatistics target (∑ m ∈ Finset.range l, n m + k) =
      ((nn.layers l).neurons k).stat) ∧
    ∀ i, ∑ m ∈ Finset.range L, n m ≤ i → nn.getNeuronStatistics target i = target i := by
  unfold getNeuronStatistics
  rw [hs.numLayers]
  have key := loop_induction (n := L) (s := (target, 0))
    (b := fun i s => loop (nn.layers i).numNeurons (fun j s =>
      (Function.update s.1 s.2 ((nn.layers i).neurons j).stat, s.2 + 1)) s)
    (fun m (s : (ℕ → NeuronStat) × ℕ) => s.2 = ∑ i ∈ Finset.range m, n i ∧
      (∀ l < m, ∀ k < n l, s.1 (∑ i ∈ Finset.range l, n i + k) = ((nn.layers l).neurons k).stat) ∧
      ∀ i, s.2 ≤ i → s.1 i = target i)
    ⟨rfl, fun l hl => by omega, fun _ _ => rfl⟩ (by
      rintro m hm s ⟨h1, h2, h3⟩
      have inner := loop_induction (n := (nn.layers m).numNeurons) (s := s)
        (b := fun j s => (Function.update s.1 s.2 ((nn.layers m).neurons j).stat, s.2 + 1))
        (fun j (t : (ℕ → NeuronStat) × ℕ) => t.2 = s.2 + j ∧ (∀ i < s.2, t.1 i = s.1 i) ∧
          (∀ k < j, t.1 (s.2 + k) = ((nn.layers m).neurons k).stat) ∧
          ∀ i, t.2 ≤ i → t.1 i = target i)
        ⟨rfl, fun _ _ => rfl, fun k hk => by omega, h3⟩ (by
          rintro j hj t ⟨a1, a2, a3, a4⟩
          refine ⟨by dsimp only; omega, ?_, ?_, ?_⟩
          · intro i hi
            dsimp only
            rw [Function.update_of_ne (by omega)]
            exact a2 i hi
          · intro k hk
            dsimp only
            by_cases e : k = j
            · subst e; rw [← a1, Function.update_self]
            · rw [Function.update_of_ne (by omega)]
              exact a3 k (by omega)
          · intro i hi
            dsimp only at hi ⊢
            rw [Function.update_of_ne (by omega)]
            exact a4 i (by omega))
      obtain ⟨a1, a2, a3, a4⟩ := inner
      rw [hs.size] at a1 a2 a3 a4 ⊢
      refine ⟨by rw [a1, h1, Finset.sum_range_succ], ?_, a4⟩
      intro l hl k hk
      by_cases e : l = m
      · subst e; rw [← h1]; exact a3 k hk
      · have : ∑ i ∈ Finset.range l, n i + k < s.2 := by
          rw [h1]
          have h5 : ∑ i ∈ Finset.range (l + 1), n i ≤ ∑ i ∈ Finset.range m, n i :=
            Finset.sum_le_sum_of_subset (Finset.range_mono (by omega))
          rw [Finset.sum_range_succ] at h5
          omega
        rw [a2 _ this]
        exact h2 l (by omega) k hk)
  obtain ⟨k1, k2, k3⟩ := key
  refine ⟨k2, fun i hi => k3 i ?_⟩
  rw [k1]; exact hi

theorem neuron_mapNeurons {L : ℕ} {n : ℕ → ℕ} {af : ℕ → Activation} {nn : NeuralNetwork}
    (hs : HasShape L n af nn) (lo hi : ℕ) (f : Layer → Neuron → Neuron) {i k : ℕ} (hk : k < n i) :
    ((nn.mapNeurons lo hi f).layers i).neurons k =
      if lo ≤ i ∧ i < hi then f (nn.layers i) ((nn.layers i).neurons k)
      else (nn.layers i).neurons k := by
  unfold mapNeurons
  by_cases h : lo ≤ i ∧ i < hi
  · simp [h, hs.size, hk]
  · simp [h]

theorem neuron_halve (layers : ℕ → Layer) (out m i k : ℕ) :
    ((loop m (fun i layers =>
        setWeight layers out 0 i (((layers out).neurons 0).weights i * 0.5)) layers) i).neurons k =
      if i = out ∧ k = 0 then
        { (layers out).neurons 0 with weights := fun j =>
            if j < m then ((layers out).neurons 0).weights j * 0.5
            else ((layers out).neurons 0).weights j }
      else (layers i).neurons k := by
  refine loop_induction (fun m (t : ℕ → Layer) => ∀ i k, (t i).neurons k =
    if i = out ∧ k = 0 then
        { (layers out).neurons 0 with weights := fun j =>
            if j < m then ((layers out).neurons 0).weights j * 0.5
            else ((layers out).neurons 0).weights j }
      else (layers i).neurons k) ?_ ?_ i k
  · intro i k
    by_cases h : i = out ∧ k = 0
    · simp [h]
    · simp [h]
  · intro m' _ t ht i k
    unfold setWeight modifyNeuron
    by_cases h1 : i = out
    · subst h1
      by_cases h2 : k = 0
      · subst h2
        simp only [Function.update_self, ht, true_and, if_true]
        congr 1
        funext j
        by_cases e : j = m'
        · subst e; simp
        · rw [Function.update_of_ne e]
          have : j < m' + 1 ↔ j < m' := by omega
          simp only [this]
      · simp only [Function.update_self, Function.update_of_ne h2, h2, and_false, if_false, ht]
    · simp only [Function.update_of_ne h1, h1, false_and, if_false, ht]

end NeuralNetwork

end N2P2
