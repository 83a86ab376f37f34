import Verif.Lemma.Histogram
import Verif.Props.ScalingFile

/-! C102: histograms written by the scaling tool. -/

namespace N2P2

/-- C102: the tool writes a histogram for every symmetry function which is not constant on the data
set. Each line of the table has the limits of a bin and the number of values of the whole data
set in this bin, however the data set is distributed over processes. The bins have equal width and all but the last
divide the range of the values. The comments have the range, the mean and the standard deviation. Nothing else
is written. -/
theorem C102_symmetry_functions {N : NumberText} (hN : N.Data) (nan : ℝ) {dblMax : ℝ} (hM : 0 ≤ dblMax)
    (eps : ℝ) {fs : List (List SymFncScaling)} (hfs : InOrder fs) (hfew : ∀ f ∈ fs, f.length + 1 < 2 ^ 64)
    {data : List (ℕ → List StatAtom)} (hd : GoodData fs data)
    (hb : ∀ k i, ∀ v ∈ dataValues data k i, |v| ≤ dblMax) {numBins : ℕ} (h2 : 2 ≤ numBins)
    (hn : numBins < 2 ^ 64) {Z : ℕ → ℕ} (hZ : ∀ k < fs.length, Z k < 2 ^ 64)
    (hinj : ∀ k < fs.length, ∀ l < fs.length, Z k = Z l → k = l) {info : ℕ → ℕ → List Str}
    (hinfo : ∀ k i, ∀ l ∈ info k i, '\n' ∉ l) (files : Files) :
    ∃ files', histogramTool dblMax eps N nan numBins Z info fs data files = some files' ∧
      (∀ (k i : ℕ) (f : List SymFncScaling), fs[k]? = some f → i < f.length → ∀ lo hi,
        IsLeast {v | v ∈ dataValues data k i} lo → IsGreatest {v | v ∈ dataValues data k i} hi →
        lo < hi → ∃ text, files' (histogramFile (Z k) (i + 1)) = some text ∧
          fileTable text = histogramTable N (dataValues data k i) lo hi numBins ∧
          (∀ l ∈ info k i, "#SFINFO ".toList ++ l ∈ readLines text) ∧
          infoLine N "min         " lo ∈ readLines text ∧
          infoLine N "max         " hi ∈ readLines text ∧
          infoLine N "mean        " (listMean (dataValues data k i)) ∈ readLines text ∧
          infoLine N "sigma       " (listSigma (dataValues data k i)) ∈ readLines text) ∧
      ∀ x, (∀ (k i : ℕ) (f : List SymFncScaling), fs[k]? = some f → i < f.length →
        (∃ a ∈ dataValues data k i, ∃ b ∈ dataValues data k i, a < b) →
        x ≠ histogramFile (Z k) (i + 1)) → files' x = files x := by
  classical
  obtain ⟨hne, hd⟩ := hd
  let stat : ℕ → List SymFncScaling → (ℕ → List StatAtom) → StatData := fun k f atoms =>
    statRun dblMax eps ⟨k, [], f, ⟨true, false, false⟩⟩ ((atoms k).map .update)
  let el : ℕ → List SymFncScaling → HistoElement := fun k f =>
    ⟨Z k, info k, k, f.length, StatData.collect dblMax f.length (data.map (stat k f))
      ((data.map (stat k f)).headD [])⟩
  let L : List (HistoElement × ℕ) := (fs.mapIdx el).flatMap fun e =>
    (List.range e.scaling.numSymmetryFunctions).map fun i => (e, i)
  let step : Files → HistoElement × ℕ → Option Files := fun fs p =>
    writeHistogram N nan numBins (data.map fun atoms => atoms p.1.scaling.index) p.1 fs p.2
  have htool : histogramTool dblMax eps N nan numBins Z info fs data files = L.foldlM step files := by
    unfold histogramTool writeHistograms
    rw [foldlM_flatMap]
    congr 1
    funext fs e
    rw [List.foldlM_map]
  have hL : ∀ p, p ∈ L ↔ ∃ (k i : ℕ) (f : List SymFncScaling),
      fs[k]? = some f ∧ i < f.length ∧ p = (el k f, i) := by
    intro p
    constructor
    · intro hp
      obtain ⟨e, he, hp⟩ := List.mem_flatMap.1 hp
      obtain ⟨i, hi, rfl⟩ := List.mem_map.1 hp
      obtain ⟨k, hk, rfl⟩ := List.mem_mapIdx.1 he
      exact ⟨k, i, fs[k], List.getElem?_eq_getElem hk, List.mem_range.1 hi, rfl⟩
    · rintro ⟨k, i, f, hk, hi, rfl⟩
      obtain ⟨hk', rfl⟩ := List.getElem?_eq_some_iff.1 hk
      exact List.mem_flatMap.2 ⟨_, List.mem_mapIdx.2 ⟨k, hk', rfl⟩,
        List.mem_map.2 ⟨i, List.mem_range.2 hi, rfl⟩⟩
  -- the statistics
  have hcol : ∀ (k i : ℕ) (f : List SymFncScaling), fs[k]? = some f → i < f.length →
      ∃ c, (el k f).scaling.statistics.find? i = some c ∧ CollectedFor dblMax (dataValues data k i) c ∧
        (c.min < c.max → ∃ a ∈ dataValues data k i, ∃ b ∈ dataValues data k i, a < b) := by
    intro k i f hk hi
    have hv := fun atoms (ha : atoms ∈ data) => process_values dblMax eps (k := k) (f := f)
      (fun j sf hj => (hfs k f hk j sf hj).2) (fun a h => hd atoms ha k f hk a h) hi
    have hc := collected_values hne (stat k f) (fun atoms => (atoms k).map fun a => a.G.getD i 0) i hv
    refine ⟨_, collect_find dblMax f.length _ _ hi, hc, fun hlt => ?_⟩
    by_cases hemp : dataValues data k i = []
    · have h0 := collected_empty hne (stat k f) i (M := dblMax) fun p hp => by
        have := hv p hp
        have e : ((p k).map fun a => a.G.getD i 0) = [] := by
          rw [← List.length_eq_zero_iff]
          have h3 := congrArg List.length hemp
          unfold dataValues at h3
          rw [List.length_flatMap, List.length_nil] at h3
          have := (List.sum_eq_zero_iff.1 h3) _ (List.mem_map.2 ⟨p, hp, rfl⟩)
          exact this
        rw [e] at this
        exact this
      rw [h0.1, h0.2] at hlt
      linarith
    · exact ⟨_, (hc.min hemp (hb k i)).1, _, (hc.max hemp (hb k i)).1, hlt⟩
  have hstep : ∀ p ∈ L, ∃ out : Option Str, (∀ fs, step fs p = some (match out with
      | none => fs
      | some t => fs.write (histogramFile p.1.Z (p.2 + 1)) t)) ∧
      ∀ c, p.1.scaling.statistics.find? p.2 = some c →
      (c.min < c.max → ∃ t, out = some t ∧ HistoText N nan numBins (p.1.info p.2)
        (dataValues data p.1.scaling.index p.2) c t) ∧ (¬ c.min < c.max → out = none) := by
    intro p hp
    obtain ⟨k, i, f, hk, hi, rfl⟩ := (hL p).1 hp
    obtain ⟨c, hc, -⟩ := hcol k i f hk hi
    have hk' := (List.getElem?_eq_some_iff.1 hk).1
    have hl := hfew f (List.mem_of_getElem? hk)
    obtain ⟨out, h1, h3, h4⟩ := writeHistogram_eq hN nan h2 hn (data.map fun atoms => atoms k)
      (e := el k f) (hZ k hk') hi (by omega) (hinfo k i) (by
        intro atoms ha a hm
        obtain ⟨g, hg, rfl⟩ := List.mem_map.1 ha
        exact (hd g hg k f hk a hm).2.2) hc
    refine ⟨out, h1, fun c' hc' => ?_⟩
    have : c = c' := Option.some.inj (hc.symm.trans hc')
    subst this
    rw [List.flatMap_map] at h3
    exact ⟨h3, h4⟩
  choose! out ho1 ho2 using hstep
  have hpw : L.Pairwise fun a b => histogramFile a.1.Z (a.2 + 1) ≠ histogramFile b.1.Z (b.2 + 1) := by
    refine List.pairwise_flatMap.2 ⟨fun e _ => ?_, ?_⟩
    · rw [List.pairwise_map]
      refine List.Pairwise.imp ?_ List.nodup_range
      intro i j hij h
      have := (histogramFile_inj h).2
      omega
    · rw [List.pairwise_iff_getElem]
      intro i j hi hj hij x hx y hy h
      obtain ⟨a, -, rfl⟩ := List.mem_map.1 hx
      obtain ⟨b, -, rfl⟩ := List.mem_map.1 hy
      rw [List.length_mapIdx] at hi hj
      have := (histogramFile_inj h).1
      rw [List.getElem_mapIdx, List.getElem_mapIdx] at this
      have := hinj i hi j hj this
      omega
  obtain ⟨files', e, h3, h4⟩ := fold_writes step (fun p => histogramFile p.1.Z (p.2 + 1)) out L files
    (fun p hp fs => ho1 p hp fs) hpw
  refine ⟨files', htool.trans e, ?_, ?_⟩
  · intro k i f hk hi lo up hlo hup hlt
    have hp := (hL _).2 ⟨k, i, f, hk, hi, rfl⟩
    obtain ⟨c, hc, hcf, -⟩ := hcol k i f hk hi
    have hne' : dataValues data k i ≠ [] := by
      intro h0
      have := hlo.1
      rw [h0] at this
      cases this
    have e1 : c.min = lo := (hcf.min hne' (hb k i)).unique hlo
    have e2 : c.max = up := (hcf.max hne' (hb k i)).unique hup
    have hlen := (listSigma_pos hlo.1 hup.1 hlt.ne).1
    obtain ⟨t, ht, htx⟩ := (ho2 _ hp c hc).1 (by rw [e1, e2]; exact hlt)
    have hin := htx.info
    refine ⟨t, h3 _ hp t ht, ?_, ?_, ?_, ?_, ?_, ?_⟩
    · rw [htx.table, e1, e2]
    · intro l hl
      exact hin _ (List.mem_append_left _ (List.mem_map.2 ⟨l, hl, rfl⟩))
    · rw [← e1]; exact hin _ (List.mem_append_right _ (by simp))
    · rw [← e2]; exact hin _ (List.mem_append_right _ (by simp))
    · rw [← hcf.mean nan hne']; exact hin _ (List.mem_append_right _ (by simp))
    · rw [← hcf.sigma nan hlen]; exact hin _ (List.mem_append_right _ (by simp))
  · intro x hx
    refine h4 x fun p hp hout => ?_
    obtain ⟨k, i, f, hk, hi, rfl⟩ := (hL p).1 hp
    obtain ⟨c, hc, -, hlt⟩ := hcol k i f hk hi
    refine hx k i f hk hi (hlt ?_)
    by_contra hlt'
    exact hout ((ho2 _ hp c hc).2 hlt')

/-- Values and limits of the example. -/
theorem exHisto_range : IsLeast {v | v ∈ dataValues exScalingData 0 0} 0 ∧
    IsGreatest {v | v ∈ dataValues exScalingData 0 0} 6 := by
  rw [exScaling_values]
  refine ⟨⟨by simp, ?_⟩, ⟨by simp, ?_⟩⟩
  · intro v hv
    simp only [Set.mem_ofPred_eq, List.mem_cons, List.not_mem_nil, or_false] at hv
    rcases hv with rfl | rfl | rfl <;> norm_num
  · intro v hv
    simp only [Set.mem_ofPred_eq, List.mem_cons, List.not_mem_nil, or_false] at hv
    rcases hv with rfl | rfl | rfl <;> norm_num

theorem exHisto_bound : ∀ k i, ∀ v ∈ dataValues exScalingData k i, |v| ≤ 100 := by
  intro k i v hv
  unfold dataValues exScalingData at hv
  match k, i with
  | 0, 0 =>
    simp only [if_true, List.flatMap_cons, List.flatMap_nil, List.map_cons, List.map_nil,
      List.append_nil, List.mem_append, List.mem_cons, List.not_mem_nil, or_false,
      List.getD_cons_zero] at hv
    rcases hv with (rfl | rfl) | rfl <;> norm_num [abs_le]
  | 0, i + 1 =>
    simp only [if_true, List.flatMap_cons, List.flatMap_nil, List.map_cons, List.map_nil,
      List.append_nil, List.mem_append, List.mem_cons, List.not_mem_nil, or_false,
      List.getD_cons_succ, List.getD_nil] at hv
    rcases hv with (rfl | rfl) | rfl <;> norm_num
  | k + 1, i => simp at hv

/-- The values 0, 6 and 3 of two processes in three bins. -/
example : ∃ files' text, histogramTool 100 0 exText 0 3 (fun _ => 29) (fun _ _ => []) exScalingFunctions
    exScalingData (fun _ => none) = some files' ∧ files' "sf.029.0001.histo".toList = some text ∧
    fileTable text = [[exText.print 0, exText.print 3, exText.print 1],
      [exText.print 3, exText.print 6, exText.print 1],
      [exText.print 6, exText.print 9, exText.print 1]] := by
  obtain ⟨files', h1, h2, -⟩ := C102_symmetry_functions exText_data 0 (dblMax := 100) (by norm_num) 0
    exScaling_inOrder (by simp [exScalingFunctions]) exScaling_data exHisto_bound (numBins := 3)
    (by norm_num) (by norm_num) (Z := fun _ => 29) (by simp)
    (by
      intro k hk l hl _
      simp only [exScalingFunctions, List.length_singleton] at hk hl
      omega) (info := fun _ _ => []) (by simp) (fun _ => none)
  obtain ⟨text, h3, h4, -⟩ := h2 0 0 _ rfl (by simp) 0 6 exHisto_range.1 exHisto_range.2 (by norm_num)
  refine ⟨files', text, h1, ?_, ?_⟩
  · have e : histogramFile 29 1 = "sf.029.0001.histo".toList := by decide +kernel
    rw [← e]
    exact h3
  · rw [h4, exScaling_values]
    have c1 : countBetween [0, 6, 3] 0 3 = 1 := by
      unfold countBetween
      simp only [List.countP_cons, List.countP_nil, decide_eq_true_eq]
      norm_num
    have c2 : countBetween [0, 6, 3] 3 6 = 1 := by
      unfold countBetween
      simp only [List.countP_cons, List.countP_nil, decide_eq_true_eq]
      norm_num
    have c3 : countBetween [0, 6, 3] 6 9 = 1 := by
      unfold countBetween
      simp only [List.countP_cons, List.countP_nil, decide_eq_true_eq]
      norm_num
    have e1 : ((6 : ℝ) - 0) / (((3 : ℕ) : ℝ) - 1) = 3 := by norm_num
    have e2 : (0 : ℝ) + ((0 : ℕ) : ℝ) * 3 = 0 := by norm_num
    have e3 : (0 : ℝ) + (((0 : ℕ) : ℝ) + 1) * 3 = 3 := by norm_num
    have e4 : (0 : ℝ) + ((1 : ℕ) : ℝ) * 3 = 3 := by norm_num
    have e5 : (0 : ℝ) + (((1 : ℕ) : ℝ) + 1) * 3 = 6 := by norm_num
    have e6 : (0 : ℝ) + ((2 : ℕ) : ℝ) * 3 = 6 := by norm_num
    have e7 : (0 : ℝ) + (((2 : ℕ) : ℝ) + 1) * 3 = 9 := by norm_num
    unfold histogramTable
    rw [show List.range 3 = [0, 1, 2] from rfl]
    simp only [List.map_cons, List.map_nil]
    rw [e1, e2, e3, e4, e5, e6, e7, c1, c2, c3, Nat.cast_one]

/-- C102: every value is in exactly one bin, so the counts add up to the number of values. The last
bin has the values equal to the maximum. -/
theorem C102_all_counted {vs : List ℝ} {lo hi : ℝ} (hlo : IsLeast {v | v ∈ vs} lo)
    (hhi : IsGreatest {v | v ∈ vs} hi) (hlt : lo < hi) {n : ℕ} (hn : 2 ≤ n) :
    let w := (hi - lo) / (n - 1)
    ((List.range n).map fun j : ℕ => countBetween vs (lo + j * w) (lo + (j + 1) * w)).sum = vs.length ∧
      countBetween vs (lo + (n - 1 : ℕ) * w) (lo + ((n - 1 : ℕ) + 1) * w) = vs.count hi := by
  classical
  intro w
  have hp : (0 : ℝ) < (n : ℝ) - 1 := by
    have : (2 : ℝ) ≤ n := by exact_mod_cast hn
    linarith
  have hw : 0 < w := div_pos (by linarith) hp
  have hend : lo + ((n : ℝ) - 1) * w = hi := by
    show lo + ((n : ℝ) - 1) * ((hi - lo) / (n - 1)) = hi
    field_simp
    ring
  constructor
  · have h := countBetween_split vs (fun j => lo + j * w) (by
      intro i j hij
      have : (i : ℝ) < j := by exact_mod_cast hij
      show lo + i * w < lo + j * w
      nlinarith) n
    push_cast at h
    rw [h]
    unfold countBetween
    rw [List.countP_eq_length]
    intro v hv
    rw [decide_eq_true_iff]
    have h1 := hlo.2 hv
    have h2 := hhi.2 hv
    exact ⟨by linarith, by linarith⟩
  · rw [Nat.cast_sub (by omega), Nat.cast_one, hend]
    unfold countBetween List.count
    refine List.countP_congr fun v hv => ?_
    have h2 := hhi.2 hv
    rw [decide_eq_true_iff, beq_iff_eq]
    constructor
    · rintro ⟨h, -⟩
      exact le_antisymm h2 h
    · rintro rfl
      refine ⟨le_rfl, ?_⟩
      linarith

example : (let w : ℝ := (6 - 0) / ((4 : ℕ) - 1)
    ((List.range 4).map fun j : ℕ => countBetween [0, 6, 3, 6] (0 + j * w) (0 + (j + 1) * w)).sum) = 4 := by
  refine (C102_all_counted (vs := [0, 6, 3, 6]) ⟨by simp, ?_⟩ ⟨by simp, ?_⟩ (by norm_num) (by norm_num)).1
  · intro v hv
    simp only [Set.mem_ofPred_eq, List.mem_cons, List.not_mem_nil, or_false] at hv
    rcases hv with rfl | rfl | rfl | rfl <;> norm_num
  · intro v hv
    simp only [Set.mem_ofPred_eq, List.mem_cons, List.not_mem_nil, or_false] at hv
    rcases hv with rfl | rfl | rfl | rfl <;> norm_num

/-- C102 (disagreement): no or one bin is not refused. The program divides by zero or asks for a histogram without
bins as soon as some function is not constant. -/
theorem C102_few_bins {numBins : ℕ} (h : numBins = 0 ∨ numBins = 1) {c : StatContainer}
    (hc : c.min < c.max) : sfHistogram numBins c = none := by
  unfold sfHistogram
  rw [if_pos hc]
  rcases h with rfl | rfl
  · have e1 : sizePred 0 = 2 ^ 64 - 1 := by decide
    rw [e1, if_neg (by decide)]
    have e2 : (2 ^ 64 - 1 + 1) % 2 ^ 64 = 0 := by decide
    rw [e2]
    unfold GslHistogram.uniform
    rw [if_pos (.inl rfl)]
    rfl
  · exact if_pos (by decide)

example : sfHistogram 1 { StatContainer.init 100 with min := 2, max := 5 } = none :=
  C102_few_bins (.inr rfl) (by norm_num)

/-! ### Neighbours -/

/-- C102: the neighbour histogram has the bins 0, 1, … up to the greatest number of neighbours of any atom, and bin `j`
counts the atoms of the whole data set with exactly `j` neighbours. The greatest number is also returned.
The file for structures has a line for every structure of every process with its number of atoms and the minimum,
maximum and mean number of neighbours. Nothing else is left behind. -/
theorem C102_neighbours {N1 N : NumberText} (hN1 : N1.Data) (hN : N.Data) (nan : ℝ)
    {fileHisto fileStructure : Str} (hf : fileStructure.length ≤ 900) {procs : List (List Structure)}
    (hne : procs ≠ []) (hlen : procs.length < 2 ^ 64) (hdiff : fileHisto ≠ fileStructure)
    (hparts : ∀ i < procs.length, fileHisto ≠ partName fileStructure i)
    (hs : ∀ ss ∈ procs, ∀ s ∈ ss, GoodStructure s) (fs : Files) :
    ∃ fs' m, writeNeighborHistogram N1 N nan fileHisto fileStructure procs fs = some (fs', m) ∧
      (∀ a ∈ allAtoms procs, a.numNeighbors ≤ m) ∧
      (m = 0 ∨ ∃ a ∈ allAtoms procs, a.numNeighbors = m) ∧
      (∃ text, fs' fileHisto = some text ∧ fileTable text = (List.range (m + 1)).map fun j : ℕ =>
        [N1.print (j - 1 / 2), N1.print (j + 1 / 2),
          N.print ((allAtoms procs).countP fun a => a.numNeighbors = j)]) ∧
      (∃ text, fs' fileStructure = some text ∧
        List.Forall₂ (NeighborRow N) procs.flatten (fileTable text)) ∧
      (∀ i < procs.length, fs' (partName fileStructure i) = none) ∧
      ∀ x, x ≠ fileHisto → x ≠ fileStructure → (∀ i < procs.length, x ≠ partName fileStructure i) →
        fs' x = fs x := by
  classical
  obtain ⟨texts, e1, l1, hrows⟩ := neighborTexts_ok hN nan hne hs
  obtain ⟨fs1, e2, hw1, hw2⟩ := writeProcFiles_ok fileStructure hf texts 0 fs (by omega)
  obtain ⟨header, e3, hh⟩ := neighborHistoHeader_comment
  obtain ⟨hs', e4, hb⟩ := header_bodies hh
  obtain ⟨hm1, hm2⟩ := maxNeighbors_eq procs
  generalize hm : maxNeighbors procs = m at hm1 hm2
  obtain ⟨h, e5, h3, h4, h5, h6⟩ := uniform_eq (n := m + 1) (by omega) (a := -1 / 2) (b := m + 1 / 2)
    (by
      have : (0 : ℝ) ≤ m := Nat.cast_nonneg m
      linarith)
  have hrange : ∀ j : ℕ, h.range j = j - 1 / 2 := by
    intro j
    rw [h6 j]
    have : ((m : ℝ) + 1) ≠ 0 := by positivity
    have e : ((m : ℝ) + 1 / 2 - -1 / 2) / ((m + 1 : ℕ) : ℝ) = 1 := by
      push_cast
      rw [div_eq_one_iff_eq this]
      ring
    rw [e]
    ring
  let counted := procs.map fun ss => ss.foldl
    (fun h s => s.atoms.foldl (fun h a => h.increment a.numNeighbors) h) h
  let histo := header.flatten ++ (GslHistogram.collect counted h).text N1 N 9
  obtain ⟨fs2, e6, hc1, hc2, hc3⟩ := combineFiles_ok fileStructure hf texts (fs1.write fileHisto histo)
    (by omega) (by
      intro i t ht
      have hi : i < procs.length := by
        rw [← l1]; exact (List.getElem?_eq_some_iff.1 ht).1
      show Function.update fs1 fileHisto (some histo) (partName fileStructure i) = some t
      rw [Function.update_of_ne (hparts i hi).symm]
      have := hw1 i t ht
      rwa [Nat.zero_add] at this)
  rw [l1] at e6 hc2 hc3
  have ecount : counted = (procs.map fun ss => (ss.flatMap Structure.atoms).map fun a =>
      (a.numNeighbors : ℝ)).map fun vs => vs.foldl GslHistogram.increment h := by
    rw [List.map_map]
    exact List.map_congr_left fun ss _ => countStructures_eq ss h
  refine ⟨fs2, m, ?_, hm1, hm2, ⟨histo, ?_, ?_⟩, ⟨texts.flatten, hc1, hrows⟩, hc2, ?_⟩
  · unfold writeNeighborHistogram
    rw [e1]
    simp only [Option.bind_eq_bind, Option.bind_some]
    rw [e2, hm]
    simp only [Option.bind_some]
    rw [e5]
    simp only [Option.bind_some]
    rw [e3]
    simp only [Option.bind_some]
    have e7 : combineFiles procs.length fileStructure (fs1.write fileHisto (header.flatten ++
      (GslHistogram.collect (procs.map fun ss => ss.foldl
        (fun h s => s.atoms.foldl (fun h a => h.increment a.numNeighbors) h) h) h).text N1 N 9)) =
      some fs2 := e6
    rw [e7]
    rfl
  · rw [hc3 fileHisto hdiff hparts]
    exact Function.update_self ..
  · show fileTable (header.flatten ++ (GslHistogram.collect counted h).text N1 N 9) = _
    rw [e4, fileTable_eq hb (text_rows hN1 hN 9 _)]
    rw [show (GslHistogram.collect counted h).n = m + 1 from h3]
    refine List.map_congr_left fun j hj => ?_
    have hj' : j < h.n := by rw [h3]; exact List.mem_range.1 hj
    rw [ecount, histogram_collect h4 h5 _ j hj', allAtoms_values]
    show [N1.print (h.range j), N1.print (h.range (j + 1)), _] = _
    have ec : countBetween ((allAtoms procs).map fun a => (a.numNeighbors : ℝ)) (h.range j)
        (h.range (j + 1)) = (allAtoms procs).countP fun a => a.numNeighbors = j := by
      unfold countBetween
      rw [List.countP_map]
      refine List.countP_congr fun a _ => ?_
      simp only [Function.comp, decide_eq_true_eq]
      rw [hrange, hrange]
      push_cast
      constructor
      · rintro ⟨k1, k2⟩
        have a1 : (j : ℝ) < a.numNeighbors + 1 := by linarith
        have a2 : (a.numNeighbors : ℝ) < j + 1 := by linarith
        have b1 : j < a.numNeighbors + 1 := by exact_mod_cast a1
        have b2 : a.numNeighbors < j + 1 := by exact_mod_cast a2
        omega
      · intro k
        rw [k]
        constructor <;> linarith
    rw [ec, hrange, hrange]
    congr 3
    push_cast
    ring
  · intro x x1 x2 x3
    rw [hc3 x x2 x3]
    show Function.update fs1 fileHisto (some histo) x = fs x
    rw [Function.update_of_ne x1]
    exact hw2 x fun i hi => by
      rw [Nat.zero_add]
      exact x3 i (by omega)

/-- One structure with two atoms on the first process, one structure with one atom on the second. -/
def exNeighborProcs : List (List Structure) :=
  [[{ Structure.init with
      index := 0, numAtoms := 2,
      atoms := [{ Atom.init with numNeighbors := 2 }, { Atom.init with numNeighbors := 0 }] }],
    [{ Structure.init with
      index := 1, numAtoms := 1, atoms := [{ Atom.init with numNeighbors := 2 }] }]]

example : ∃ fs' text text', writeNeighborHistogram exText exText 0 "neighbors.histo".toList
    "neighbors.out".toList exNeighborProcs (fun _ => none) = some (fs', 2) ∧
    fs' "neighbors.histo".toList = some text ∧
    fileTable text = [[exText.print (0 - 1 / 2), exText.print (0 + 1 / 2), exText.print 1],
      [exText.print (1 - 1 / 2), exText.print (1 + 1 / 2), exText.print 0],
      [exText.print (2 - 1 / 2), exText.print (2 + 1 / 2), exText.print 2]] ∧
    fs' "neighbors.out".toList = some text' ∧ (fileTable text').length = 2 := by
  have hgood : ∀ ss ∈ exNeighborProcs, ∀ s ∈ ss, GoodStructure s := by
    intro ss h s hs
    simp only [exNeighborProcs, List.mem_cons, List.not_mem_nil, or_false] at h
    rcases h with rfl | rfl
    · rw [List.mem_singleton.1 hs]
      exact ⟨by simp, rfl, by norm_num, by simp, by simp⟩
    · rw [List.mem_singleton.1 hs]
      exact ⟨by simp, rfl, by norm_num, by simp, by simp⟩
  obtain ⟨fs', m, h1, h2, h3, ⟨t, h4, h5⟩, ⟨t', h6, h7⟩, -⟩ := C102_neighbours exText_data exText_data 0
    (fileHisto := "neighbors.histo".toList) (fileStructure := "neighbors.out".toList) (by decide)
    (procs := exNeighborProcs) (by simp [exNeighborProcs]) (by simp [exNeighborProcs]) (by decide)
    (by
      intro i hi
      simp only [exNeighborProcs, List.length_cons, List.length_nil] at hi
      match i, hi with
      | 0, _ => decide +kernel
      | 1, _ => decide +kernel) hgood (fun _ => none)
  have hm : m = 2 := by
    have a1 := h2 { Atom.init with numNeighbors := 2 } (by simp [allAtoms, exNeighborProcs])
    rcases h3 with h3 | ⟨a, ha, h3⟩
    · subst h3
      exact absurd a1 (by norm_num)
    · simp only [allAtoms, exNeighborProcs, List.flatten_cons, List.flatten_nil, List.flatMap_append,
        List.flatMap_cons, List.flatMap_nil, List.append_nil, List.mem_append, List.mem_cons,
        List.not_mem_nil, or_false] at ha
      rcases ha with (rfl | rfl) | rfl
      · exact h3.symm
      · subst h3
        exact absurd a1 (by norm_num)
      · exact h3.symm
  subst hm
  refine ⟨fs', t, t', h1, h4, ?_, h6, ?_⟩
  · rw [h5, show List.range (2 + 1) = [0, 1, 2] from rfl]
    have c0 : (allAtoms exNeighborProcs).countP (fun a => a.numNeighbors = 0) = 1 := rfl
    have c1 : (allAtoms exNeighborProcs).countP (fun a => a.numNeighbors = 1) = 0 := rfl
    have c2 : (allAtoms exNeighborProcs).countP (fun a => a.numNeighbors = 2) = 2 := rfl
    simp only [List.map_cons, List.map_nil]
    rw [c0, c1, c2]
    simp only [Nat.cast_zero, Nat.cast_one, Nat.cast_ofNat]
  · rw [← h7.length_eq]
    rfl

end N2P2
