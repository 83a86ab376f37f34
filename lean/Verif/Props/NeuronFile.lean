import Verif.Lemma.NeuronFile
import Verif.Props.NetworkSetup
import Verif.Props.Sensitivity

/-! Property C110: neuron statistics written during training. -/

namespace N2P2

open NetShape NeuralNetwork
open Training (NNPType)

theorem writeNeuron_ok {F : FloatText} (hF : F.Data) {id : Str} (hid : '\n' ∉ id) {els : List TrainedNetwork} {epoch : ℕ}
    {before : ℕ → List (NeuralNetwork × List Buf)} (h : NeuronEpoch els epoch before) (file : Str) :
    ∃ text, (∀ fs, writeNeuronStatistics F id file els.length
        (fun i => (before i).map fun q => epochEvaluations epoch q.1 q.2) fs = some (fs.write file text)) ∧
      fileTable text = els.zipIdx.flatMap fun p => p.1.words F ((before p.2).map Prod.snd) (p.2 + 1) := by
  obtain ⟨hd, e1, hc⟩ := neuronHeader_ok hid
  obtain ⟨hs, e2, hb⟩ := header_bodies hc
  have h1 : ∀ p ∈ els.zipIdx, ∃ ls, neuronLines F p.2 ((before p.2).map fun q => epochEvaluations epoch q.1 q.2) =
      some ls ∧ Rows ls.flatten (p.1.words F ((before p.2).map Prod.snd) (p.2 + 1)) := by
    rintro ⟨e, i⟩ hp
    have hi := List.mem_zipIdx_iff_getElem?.1 hp
    obtain ⟨g1, g2, g3, g4, g5⟩ := h.network i e hi
    have hlt : i < els.length := (List.getElem?_eq_some_iff.1 hi).1
    have := h.elements
    exact neuronLines_rows hF (h.sensible e (List.mem_of_getElem? hi)) g1 g2 (by omega) g3 g4 g5
  choose! L hL1 hL2 using h1
  have hrange : List.range els.length = els.zipIdx.map Prod.snd := by
    rw [List.zipIdx_map_snd, List.range_eq_range']
  refine ⟨hd.flatten ++ (els.zipIdx.map L).flatten.flatten, fun fs => ?_, ?_⟩
  · unfold writeNeuronStatistics
    rw [e1, hrange, List.mapM_map]
    simp only [Option.bind_eq_bind, Option.bind_some]
    rw [show List.mapM ((fun i => neuronLines F i ((before i).map fun q => epochEvaluations epoch q.1 q.2)) ∘ Prod.snd)
      els.zipIdx = some (els.zipIdx.map L) from mapM_pure_some (g := L) _ fun p hp => hL1 p hp]
    rfl
  · refine Tabled.table ⟨hs, _, by rw [e2], hb, ?_⟩
    rw [show (els.zipIdx.map L).flatten.flatten = (els.zipIdx.map fun p => (L p).flatten).flatten by
      rw [List.flatten_flatten, List.map_map]; rfl]
    exact rows_of_texts fun p hp => hL2 p hp

/-- C110: in the epochs chosen with the settings, and only then, a file is written. It has one line for each neuron of each
element with the number of evaluations on all processes in this epoch, and with minimum, maximum, mean and standard
deviation of what the neuron has seen. -/
theorem C110_table {F : FloatText} (hF : F.Data) (every always : ℕ) (type : NNPType) (stage : ℕ) {id : Str} (hid : '\n' ∉ id)
    {els : List TrainedNetwork} {epoch : ℕ} {before : ℕ → List (NeuralNetwork × List Buf)}
    (h : NeuronEpoch els epoch before) (fs : Files) :
    (every = 0 ∨ ¬ every ∣ epoch ∧ always < epoch →
      writeNeuronStatisticsEpoch F every always type stage id epoch els.length
        (fun i => (before i).map fun q => epochEvaluations epoch q.1 q.2) fs = some fs) ∧
    (every ≠ 0 → every ∣ epoch ∨ epoch ≤ always → ∃ fs' text,
      writeNeuronStatisticsEpoch F every always type stage id epoch els.length
        (fun i => (before i).map fun q => epochEvaluations epoch q.1 q.2) fs = some fs' ∧
      fs' (neuronFileName type stage id epoch) = some text ∧
      fileTable text = (els.zipIdx.flatMap fun p => p.1.words F ((before p.2).map Prod.snd) (p.2 + 1)) ∧
      ∀ x, x ≠ neuronFileName type stage id epoch → fs' x = fs x) := by
  refine ⟨fun h1 => ?_, fun h0 h1 => ?_⟩
  · refine if_neg ?_
    rintro ⟨h2, h3⟩
    rcases h1 with h1 | ⟨h1, h4⟩
    · omega
    · rcases h3 with h3 | h3
      · exact h1 (Nat.dvd_of_mod_eq_zero h3)
      · omega
  · obtain ⟨text, e, ht⟩ := writeNeuron_ok hF hid h (neuronFileName type stage id epoch)
    refine ⟨fs.write (neuronFileName type stage id epoch) text, text, ?_, Function.update_self _ _ _, ht,
      fun x hx => Function.update_of_ne hx _ _⟩
    · unfold writeNeuronStatisticsEpoch
      rw [if_pos ⟨Nat.pos_of_ne_zero h0, h1.imp Nat.mod_eq_zero_of_dvd fun h => h⟩]
      exact e fs

/-- C110: for new networks nothing has been collected. -/
theorem C110_created {e : TrainedNetwork} {nn : NeuralNetwork}
    (h : create e.T.numLayers e.T.n e.T.af = some nn) : e.Unused (nn.setConnections e.c) := by
  have h0 : ∀ l k, ((nn.layers l).neurons k).stat = .zero := by
    unfold create at h
    split_ifs at h
    cases h
    exact fun _ _ => rfl
  intro l _ k _
  have := setConnections_stat nn e.c l k
  rw [h0] at this
  unfold Neuron.stat NeuronStat.zero at this
  simp only [NeuronStat.mk.injEq] at this
  exact this

/-- C110: the statistics are not reset before the first evaluation. If the networks were used before (for `q.2.1`, as
`dataSetNormalization` does), the file of epoch 0 counts these values as well. -/
theorem C110_first_epoch {F : FloatText} (hF : F.Data) {id : Str} (hid : '\n' ∉ id) {e : TrainedNetwork}
    {procs : List (NeuralNetwork × List Buf × List Buf)}
    (h : NeuronEpoch [e] 0 fun _ => procs.map fun q => (q.1, q.2.1 ++ q.2.2)) (file : Str) (fs : Files) :
    ∃ fs' text, writeNeuronStatistics F id file 1 (fun _ => procs.map fun q =>
        epochEvaluations 0 (epochEvaluations 0 q.1 q.2.1) q.2.2) fs = some fs' ∧
      fs' file = some text ∧ fileTable text ≠ [] ∧
      ∀ row ∈ fileTable text, row[2]? =
        some (natText ((procs.flatMap fun q => q.2.1).length + (procs.flatMap fun q => q.2.2).length)) := by
  obtain ⟨text, h1, h2⟩ := writeNeuron_ok hF hid h file
  refine ⟨fs.write file text, text, ?_, Function.update_self _ _ _, ?_, ?_⟩
  · rw [← h1 fs]
    simp only [epochEvaluations, if_true, List.map_map, Function.comp_def, List.foldl_append, List.length_singleton]
  · obtain ⟨s1, s2, -⟩ := h.sensible e (by simp)
    rw [h2]
    intro h0
    have h3 : e.words F ((procs.map fun q => (q.1, q.2.1 ++ q.2.2)).map Prod.snd) 1 = [] := by simpa using h0
    unfold TrainedNetwork.words at h3
    rw [List.flatMap_eq_nil_iff] at h3
    have h4 := h3 0 (List.mem_range.2 (by omega))
    rw [List.map_eq_nil_iff, List.range_eq_nil] at h4
    have := s2 0 (by omega)
    omega
  · intro row hrow
    rw [h2] at hrow
    have h3 : row ∈ e.words F ((procs.map fun q => (q.1, q.2.1 ++ q.2.2)).map Prod.snd) 1 := by simpa using hrow
    unfold TrainedNetwork.words at h3
    obtain ⟨l, -, h3⟩ := List.mem_flatMap.1 h3
    obtain ⟨k, -, rfl⟩ := List.mem_map.1 h3
    show some (natText _) = _
    congr 2
    unfold TrainedNetwork.values
    rw [List.length_map]
    have key : ∀ ps : List (NeuralNetwork × List Buf × List Buf),
        ((ps.map fun q => (q.1, q.2.1 ++ q.2.2)).map Prod.snd).flatten.length =
          (ps.flatMap fun q => q.2.1).length + (ps.flatMap fun q => q.2.2).length := by
      intro ps
      induction ps with
      | nil => rfl
      | cons q l ih =>
        rw [List.map_cons, List.map_cons, List.flatten_cons, List.length_append, ih, List.flatMap_cons,
          List.flatMap_cons, List.length_append, List.length_append, List.length_append]
        omega
    exact key procs

/-- The network of C18 with parameters 0, so that all values are bounded. -/
private theorem exTrained_values (l k : ℕ) (G : Buf) (h : ∀ k, |G k| ≤ 1) :
    |exampleShape.seen (fun _ => 0) l k G| ≤ DBL_MAX := by
  cases l with
  | zero => exact (h k).trans one_le_DBL_MAX
  | succ l =>
    have : exampleShape.seen (fun _ => 0) (l + 1) k G = 0 := by
      simp [NetShape.seen, NetShape.preact]
    rw [this, abs_zero]
    exact zero_le_one.trans one_le_DBL_MAX

private theorem exTrained : ∃ nn, (⟨exampleShape, fun _ => 0⟩ : TrainedNetwork).On nn ∧
    (⟨exampleShape, fun _ => 0⟩ : TrainedNetwork).Unused nn := by
  obtain ⟨nn0, h0⟩ : ∃ nn0, create exampleShape.numLayers exampleShape.n exampleShape.af = some nn0 := ⟨_, rfl⟩
  refine ⟨(nn0.setConnections fun _ => 0).setNormalizeNeurons true,
    ⟨⟨nn0, .create h0, .setNormalizeNeurons true (.refl _)⟩, rfl⟩, ?_⟩
  exact C110_created (e := ⟨exampleShape, fun _ => 0⟩) h0

/-- One element, two processes with two atoms and one atom. -/
example (fs : Files) : ∃ nn fs' text, writeNeuronStatisticsEpoch exFloat 5 0 .HDNNP_2G 1 "short".toList 10 1
      (fun _ => [epochEvaluations 10 nn [fun _ => 1, fun _ => -1], epochEvaluations 10 nn [fun _ => 1]]) fs = some fs' ∧
    fs' "neuron-stats.short.000010.out".toList = some text ∧ (fileTable text).length = 6 ∧
    (fileTable text).head? = some [natText 1, natText 1, natText 3, exText.print (-1), exText.print 1,
      exText.print (1 / 3), exText.print (Real.sqrt (4 / 3))] := by
  obtain ⟨nn, h1, h2⟩ := exTrained
  have hb : ∀ l k, ∀ v ∈ (⟨exampleShape, fun _ => 0⟩ : TrainedNetwork).values
      [[fun _ => 1, fun _ => -1], [fun _ => 1]] l k, |v| ≤ DBL_MAX := by
    intro l k v hv
    simp only [TrainedNetwork.values, List.mem_map] at hv
    obtain ⟨G, hG, rfl⟩ := hv
    refine exTrained_values l k G ?_
    simp only [List.flatten_cons, List.flatten_nil, List.append_nil, List.cons_append, List.nil_append,
      List.mem_cons, List.not_mem_nil, or_false] at hG
    rcases hG with rfl | rfl | rfl <;> simp
  have h : NeuronEpoch [⟨exampleShape, fun _ => 0⟩] 10
      (fun _ => [(nn, [fun _ => 1, fun _ => -1]), (nn, [fun _ => 1])]) := by
    refine ⟨by simpa using exampleShape_sensible, by simp, fun i e he => ?_⟩
    have he' : e = ⟨exampleShape, fun _ => 0⟩ := by
      have := List.mem_of_getElem? he
      simpa using this
    subst he'
    refine ⟨by simp, ?_, by simp [exampleShape, Finset.sum_range_succ], by simp, fun l _ k _ => hb l k⟩
    intro q hq
    simp only [List.mem_cons, List.not_mem_nil, or_false] at hq
    rcases hq with rfl | rfl <;> exact ⟨h1, fun h => absurd h (by decide)⟩
  obtain ⟨fs', text, e1, e2, e3, -⟩ := (C110_table exFloat_data 5 0 .HDNNP_2G 1 (id := "short".toList) (by decide) h
    fs).2 (by decide) (.inl (by decide))
  refine ⟨nn, fs', text, e1, e2, ?_, ?_⟩
  · rw [e3]
    simp [TrainedNetwork.words, exampleShape, List.range_succ]
  · have e4 : (fileTable text).head? = some (neuronWords exFloat 1 1 [1, -1, 1]) := by
      rw [e3]
      rfl
    have e5 : sampleDeviation [1, -1, 1] = some (Real.sqrt (4 / 3)) := by
      unfold sampleDeviation
      norm_num
    have e6 : meanValue [1, -1, 1] = some (1 / 3) := by
      unfold meanValue
      rw [if_neg (by simp)]
      norm_num
    rw [e4]
    unfold neuronWords
    rw [e5, e6]
    have e7 : ([1, -1, 1] : List ℝ).min? = some (-1) := by simp [List.min?]
    have e8 : ([1, -1, 1] : List ℝ).max? = some 1 := by simp [List.max?]
    rw [e7, e8]
    rfl

/-- One evaluation before the first epoch: the count is too large. -/
example (fs : Files) : ∃ nn fs' text, writeNeuronStatistics exFloat "short".toList "x".toList 1
      (fun _ => [epochEvaluations 0 (epochEvaluations 0 nn [fun _ => 1]) [fun _ => 1]]) fs = some fs' ∧
    fs' "x".toList = some text ∧ fileTable text ≠ [] ∧ ∀ row ∈ fileTable text, row[2]? = some (natText 2) := by
  obtain ⟨nn, h1, h2⟩ := exTrained
  have h : NeuronEpoch [⟨exampleShape, fun _ => 0⟩] 0
      (fun _ => [(nn, [fun _ => 1], [fun _ => 1])].map fun q : NeuralNetwork × List Buf × List Buf =>
        (q.1, q.2.1 ++ q.2.2)) := by
    refine ⟨by simpa using exampleShape_sensible, by simp, fun i e he => ?_⟩
    have he' : e = ⟨exampleShape, fun _ => 0⟩ := by
      have := List.mem_of_getElem? he
      simpa using this
    subst he'
    refine ⟨by simp, ?_, by simp [exampleShape, Finset.sum_range_succ], by simp, fun l _ k _ v hv => ?_⟩
    · intro q hq
      simp only [List.map_cons, List.map_nil, List.mem_cons, List.not_mem_nil, or_false] at hq
      rw [hq]
      exact ⟨h1, fun _ => h2⟩
    · simp only [TrainedNetwork.values, List.mem_map] at hv
      obtain ⟨G, hG, rfl⟩ := hv
      refine exTrained_values l k G ?_
      have : G = fun _ => 1 := by simpa using hG
      rw [this]
      simp
  obtain ⟨fs', text, e1, e2, e3, e4⟩ := C110_first_epoch exFloat_data (id := "short".toList) (by decide) h "x".toList fs
  exact ⟨nn, fs', text, e1, e2, e3, e4⟩

end N2P2
