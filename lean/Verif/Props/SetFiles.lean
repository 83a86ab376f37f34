import Verif.Lemma.SetFiles

/-! Properties of the files with the training and the test set. -/

namespace N2P2

variable {Byte : Type} {D : DataSetup Byte} {L : List (List Str)} {Z : List Str}

/-- The two files, as written by several processes. -/
theorem setFiles_ok (procs : List (List Structure)) (hp : procs.length < 2 ^ 64) (fs : Files)
    {N : NumberText} {m : EMap} {offs : List ℝ} {rs : List (SetTexts × List Structure)}
    (h : procs.mapM (fun ss => writeSetLoop N m offs ⟨[], []⟩ ss) = some rs) :
    ∃ fs', writeSetsToFiles N m offs procs fs = some (rs.map (·.2), fs') ∧
      fs' "train.data".toList = some (rs.map (·.1.train)).flatten ∧
      fs' "test.data".toList = some (rs.map (·.1.test)).flatten ∧
      (∀ i, i < procs.length → fs' (partName "train.data".toList i) = none ∧
        fs' (partName "test.data".toList i) = none) ∧
      ∀ x, x ≠ "train.data".toList → x ≠ "test.data".toList →
        (∀ i, i < procs.length → x ≠ partName "train.data".toList i ∧
          x ≠ partName "test.data".toList i) → fs' x = fs x := by
  have hl : rs.length = procs.length := (mapM_some h).1
  have n1 : trainDataName = ['t', 'r', 'a', 'i', 'n', '.', 'd', 'a', 't', 'a'] := by decide +kernel
  have n2 : testDataName = ['t', 'e', 's', 't', '.', 'd', 'a', 't', 'a'] := by decide +kernel
  have t1 : ∀ i, (partName trainDataName i).tail.head? = some 'r' := by
    intro i
    rw [n1]
    rfl
  have t2 : ∀ i, (partName testDataName i).tail.head? = some 'e' := by
    intro i
    rw [n2]
    rfl
  have t3 : trainDataName.tail.head? = some 'r' := by rw [n1]; rfl
  have t4 : testDataName.tail.head? = some 'e' := by rw [n2]; rfl
  have hne : ∀ i j, partName trainDataName i ≠ partName testDataName j := by
    intro i j e
    have := t1 i
    rw [e, t2] at this
    exact absurd this (by decide)
  have h1 : ∀ i, partName trainDataName i ≠ testDataName := by
    intro i e
    have := t1 i
    rw [e, t4] at this
    exact absurd this (by decide)
  have h2 : ∀ i, partName testDataName i ≠ trainDataName := by
    intro i e
    have := t2 i
    rw [e, t3] at this
    exact absurd this (by decide)
  have h3 : trainDataName ≠ testDataName := by decide +kernel
  have ll1 : (rs.map (·.1.train)).length = procs.length := by simp [hl]
  have ll2 : (rs.map (·.1.test)).length = procs.length := by simp [hl]
  obtain ⟨f1, e1, a1, a2⟩ := writeProcFiles_ok trainDataName (by decide +kernel) (rs.map (·.1.train)) 0 fs
    (by omega)
  obtain ⟨f2, e2, b1, b2⟩ := writeProcFiles_ok testDataName (by decide +kernel) (rs.map (·.1.test)) 0 f1
    (by omega)
  simp only [Nat.zero_add] at a1 a2 b1 b2
  obtain ⟨f3, e3, c1, c2, c3⟩ := combineFiles_ok trainDataName (by decide +kernel) (rs.map (·.1.train)) f2
    (by omega) (by
      intro i t hi
      rw [b2 _ fun j _ => hne i j]
      exact a1 i t hi)
  obtain ⟨f4, e4, d1, d2, d3⟩ := combineFiles_ok testDataName (by decide +kernel) (rs.map (·.1.test)) f3
    (by omega) (by
      intro i t hi
      rw [c3 _ (h2 i) fun j _ => (hne j i).symm]
      exact b1 i t hi)
  rw [ll1] at a2 e3 c2 c3
  rw [ll2] at b2 e4 d2 d3
  refine ⟨f4, ?_, ?_, d1, ?_, ?_⟩
  · unfold writeSetsToFiles
    rw [h]
    simp only [Option.bind_eq_bind, Option.bind_some, e1, e2, e3, e4]
  · show f4 trainDataName = _
    rw [d3 _ h3 fun i _ => (h2 i).symm]
    exact c1
  · intro i hi
    refine ⟨?_, d2 i hi⟩
    show f4 (partName trainDataName i) = _
    rw [d3 _ (h1 i) fun j _ => hne i j]
    exact c2 i hi
  · intro x x1 x2 x3
    rw [d3 x x2 fun i hi => (x3 i hi).2, c3 x x1 fun i hi => (x3 i hi).1,
      b2 x fun i hi => (x3 i hi).2, a2 x fun i hi => (x3 i hi).1]

/-- C101: the files train.data and test.data written by nnp-train are together the data set: there are
copies of every structure of the data file, each in exactly one of the two files, whatever the number of processes and the random
numbers. A copy agrees with the original, the energy including the energies of the free atoms. Structures marked with
"set=train" are in train.data, those marked with "set=test" in test.data. Structures without a
mark are in test.data if their random number, the next one of their process, is below the
desired fraction, and in train.data otherwise. The structures in memory, the energies without the energies of the free
atoms, are unchanged. No other files change, and the files of the processes are gone. -/
theorem C101_sets (hD : D.Sane) (hN : D.N.Sane) (hm : D.m.Sane)
    (hL : ∀ l ∈ L, D.Readable l ∧ D.Writable l) (hZ : getNumStructures Z = 0)
    (P : ℕ) (hP64 : P < 2 ^ 64) (randomize excl : Bool) (draws : List ℕ)
    (hP : if excl then 2 ≤ P else 1 ≤ P) (hn : (if excl then P - 1 else P) ≤ L.length)
    (hd : ∀ p ∈ draws, p < P) (hmany : randomize = true → ∀ p < P, L.length ≤ draws.count p) :
    ∃ s, distributeFile D P randomize excl draws (L.flatten ++ Z) = .ok s ∧
      ∀ (nnp : Training.NNPType) (fraction : ℝ) (rnd : ℕ → ℕ → ℝ) (pm : ℕ → Training.PropertyMap)
        (fs : Files),
        let procs := (List.range P).map fun p => selectStructures nnp fraction (rnd p) (pm p) (s.held p)
        ∃ fs' train test I J, writeSetsToFiles D.N D.m D.offs procs fs = some (procs, fs') ∧
          fs' "train.data".toList = some train ∧ fs' "test.data".toList = some test ∧
          D.CopiesOf L I train ∧ D.CopiesOf L J test ∧ (I ++ J).Perm (List.range L.length) ∧
          (∀ (i : ℕ) l, L[i]? = some l → MarkedTrain l → i ∈ I) ∧
          (∀ (i : ℕ) l, L[i]? = some l → MarkedTest l → i ∈ J) ∧
          (∀ p < P, ∀ (j : ℕ) v l, (s.held p)[j]? = some v → L[v.index]? = some l → NamesNoSet l →
            (rnd p (((s.held p).take j).countP fun w => w.sampleType = .unknown) < fraction →
              v.index ∈ J) ∧
            (fraction ≤ rnd p (((s.held p).take j).countP fun w => w.sampleType = .unknown) →
              v.index ∈ I)) ∧
          (∀ i, i < P → fs' (partName "train.data".toList i) = none ∧
            fs' (partName "test.data".toList i) = none) ∧
          ∀ x, x ≠ "train.data".toList → x ≠ "test.data".toList →
            (∀ i, i < P → x ≠ partName "train.data".toList i ∧
              x ≠ partName "test.data".toList i) → fs' x = fs x := by
  obtain ⟨s, e1, e2, e3, -⟩ := C93_distributed hD (fun l hl => (hL l hl).1) hZ P randomize excl draws hP
    hn hd hmany
  refine ⟨s, e1, fun nnp fraction rnd pm fs => ?_⟩
  intro procs
  -- the structures in memory
  have hsel : ∀ p < P, ∀ (j : ℕ) v, (selectStructures nnp fraction (rnd p) (pm p) (s.held p))[j]? = some v →
      ∃ w, (s.held p)[j]? = some w ∧ w.index = v.index ∧
        v = { w with sampleType := chosenSet fraction (rnd p) (s.held p) j w } := by
    intro p _ j v hv
    rw [selectStructures_get] at hv
    obtain ⟨w, h1, rfl⟩ := Option.map_eq_some_iff.1 hv
    exact ⟨w, h1, rfl, rfl⟩
  have hsel' : ∀ p < P, ∀ (j : ℕ) w, (s.held p)[j]? = some w →
      { w with sampleType := chosenSet fraction (rnd p) (s.held p) j w } ∈
        selectStructures nnp fraction (rnd p) (pm p) (s.held p) := by
    intro p _ j w hw
    apply List.mem_of_getElem? (i := j)
    rw [selectStructures_get, hw]
    rfl
  have hval : ∀ p < P, ∀ v ∈ s.held p, v.sampleType ≠ .validation := by
    intro p hp v hv
    obtain ⟨l, h1, u, h2, h3⟩ := e3 p hp v hv
    have h4 := readFromLines_valid (hL l (List.mem_of_getElem? h1)).1.1 h2
    rw [h3]
    exact h4
  have hdone : ∀ p < P, ∀ v ∈ selectStructures nnp fraction (rnd p) (pm p) (s.held p),
      v.sampleType = .training ∨ v.sampleType = .test := by
    intro p hp v hv
    obtain ⟨j, hj⟩ := List.mem_iff_getElem?.1 hv
    obtain ⟨w, h1, -, rfl⟩ := hsel p hp j v hj
    have hw := hval p hp w (List.mem_of_getElem? h1)
    by_cases hu : w.sampleType = .unknown
    · rcases lt_or_ge (rnd p (((s.held p).take j).countP fun w => w.sampleType = .unknown)) fraction
        with h | h
      · exact Or.inr ((chosenSet_unknown hu).1 h)
      · exact Or.inl ((chosenSet_unknown hu).2 h)
    · show chosenSet _ _ _ _ _ = _ ∨ chosenSet _ _ _ _ _ = _
      rw [chosenSet_known hu]
      revert hu hw
      cases w.sampleType <;> simp
  have hch : ∀ vs ∈ procs, ∀ v ∈ vs, D.Chosen L v := by
    intro vs hvs v hv
    obtain ⟨p, hp, rfl⟩ := List.mem_map.1 hvs
    rw [List.mem_range] at hp
    obtain ⟨j, hj⟩ := List.mem_iff_getElem?.1 hv
    obtain ⟨w, h1, h2, h3⟩ := hsel p hp j v hj
    obtain ⟨l, h4, u, h5, h6⟩ := e3 p hp w (List.mem_of_getElem? h1)
    rw [h2] at h4 h5
    refine ⟨l, u, h4, h5, ?_⟩
    rw [h3, h6]
  have hlen : procs.length = P := by simp [procs]
  obtain ⟨rs, T, T', g1, g2, g3, g4, g5, g6⟩ := writeSetLoops_ok hD hN hm (fun l hl => (hL l hl).2) procs hch
  obtain ⟨fs', k1, k2, k3, k4, k5⟩ := setFiles_ok procs (by omega) fs g1
  rw [g2] at k1
  rw [g3] at k2
  rw [g4] at k3
  rw [hlen] at k4 k5
  have hindex : ∀ p, (selectStructures nnp fraction (rnd p) (pm p) (s.held p)).map Structure.index =
      (s.held p).map Structure.index := by
    intro p
    apply List.ext_getElem?
    intro j
    rw [List.getElem?_map, List.getElem?_map, selectStructures_get]
    cases (s.held p)[j]? <;> rfl
  have hmem : ∀ set, ∀ p < P, ∀ (j : ℕ) w, (s.held p)[j]? = some w →
      chosenSet fraction (rnd p) (s.held p) j w = set → w.index ∈ procs.flatMap (numbersOf set) := by
    intro set p hp j w hw hset
    rw [List.mem_flatMap]
    refine ⟨_, List.mem_map.2 ⟨p, List.mem_range.2 hp, rfl⟩, ?_⟩
    unfold numbersOf
    rw [List.mem_map]
    exact ⟨_, List.mem_filter.2 ⟨hsel' p hp j w hw, by simpa using hset⟩, rfl⟩
  -- where a structure of the file is
  have hwhere : ∀ (i : ℕ) l, L[i]? = some l → ∃ p < P, ∃ (j : ℕ) (w u : Structure),
      (s.held p)[j]? = some w ∧ w.index = i ∧
      (Structure.forReading D.m i).readFromLines D.N D.m l = some u ∧ w.sampleType = u.sampleType := by
    intro i l hl
    have hi : i ∈ List.range L.length := List.mem_range.2 (List.getElem?_eq_some_iff.1 hl).1
    obtain ⟨p, hp, h1⟩ := List.mem_flatMap.1 (e2.mem_iff.2 hi)
    obtain ⟨w, h2, h3⟩ := List.mem_map.1 h1
    obtain ⟨j, h4⟩ := List.mem_iff_getElem?.1 h2
    obtain ⟨l', h5, u, h6, h7⟩ := e3 p (List.mem_range.1 hp) w h2
    rw [h3] at h5 h6
    rw [hl] at h5
    cases h5
    exact ⟨p, List.mem_range.1 hp, j, w, u, h4, h3, h6, by rw [h7]⟩
  refine ⟨fs', _, _, _, _, k1, k2, k3, sections_copies g5, sections_copies g6, ?_, ?_, ?_, ?_, k4, k5⟩
  · refine (flatMap_perm (h := fun vs => vs.map Structure.index) procs ?_).trans ?_
    · intro vs hvs
      obtain ⟨p, hp, rfl⟩ := List.mem_map.1 hvs
      exact numbersOf_perm _ (hdone p (List.mem_range.1 hp))
    · simp only [procs, List.flatMap_map, hindex]
      exact e2
  · intro i l hl hmark
    obtain ⟨p, hp, j, w, u, h1, h2, h3, h4⟩ := hwhere i l hl
    rw [(read_marked (hL l (List.mem_of_getElem? hl)).1.1 h3).2.1 hmark] at h4
    rw [← h2]
    exact hmem _ p hp j w h1 (by rw [chosenSet_known (by rw [h4]; simp), h4])
  · intro i l hl hmark
    obtain ⟨p, hp, j, w, u, h1, h2, h3, h4⟩ := hwhere i l hl
    rw [(read_marked (hL l (List.mem_of_getElem? hl)).1.1 h3).2.2 hmark] at h4
    rw [← h2]
    exact hmem _ p hp j w h1 (by rw [chosenSet_known (by rw [h4]; simp), h4])
  · intro p hp j v l hv hl hno
    obtain ⟨l', h5, u, h6, h7⟩ := e3 p hp v (List.mem_of_getElem? hv)
    rw [hl] at h5
    cases h5
    have hu : v.sampleType = .unknown := by
      have h8 := (read_marked (hL l (List.mem_of_getElem? hl)).1.1 h6).1 hno
      rw [h7]
      exact h8
    exact ⟨fun h => hmem _ p hp j v hv ((chosenSet_unknown hu).1 h),
      fun h => hmem _ p hp j v hv ((chosenSet_unknown hu).2 h)⟩

/-- A structure without atoms, with the given line "begin". -/
def exMarked (b : Str) : List Str := [b, "energy 2".toList, "end".toList]

theorem exMarked_read {N : NumberText} {m : EMap} {b : Str} {ws : List Str} {k : ℕ} {t : Structure}
    (hb : split (reduce b) = keyBegin :: ws) (ht : readBegin (Structure.forReading m k) ws = some t)
    (hs : t = { Structure.forReading m k with sampleType := t.sampleType }) :
    ∃ c, (Structure.forReading m k).readFromLines N m (exMarked b) =
      some { t with
        energyRef := N.atof ['2']
        numElementsPresent := c } := by
  have h1 : split (reduce "energy 2".toList) = [keyEnergy, ['2']] := by decide +kernel
  have h2 : split (reduce "end".toList) = [keyEnd] := by decide +kernel
  have hp : t.isPeriodic = false := by rw [hs]; rfl
  unfold Structure.readFromLines exMarked
  simp only [List.head?_cons, Option.bind_eq_bind, Option.bind_some, hb, ne_eq, not_true_eq_false, if_false]
  rw [readLoop_cons _ _ _ _ _ _ _ _ hb, if_pos rfl, ht, Option.bind_some,
    readLoop_cons _ _ _ _ _ _ _ _ h1, if_neg (by decide), if_neg (by decide), if_neg (by decide),
    if_neg (by decide), if_pos rfl]
  simp only [List.getElem?_cons_succ, List.getElem?_cons_zero, Option.bind_some]
  rw [readLoop_cons _ _ _ _ _ _ _ _ h2, if_neg (by decide), if_neg (by decide), if_neg (by decide),
    if_neg (by decide), if_neg (by decide), if_neg (by decide), if_pos rfl]
  unfold checkEnd
  rw [if_neg (by simp), if_neg (by simp [hp]), Option.bind_some, countPresent_eq]
  · refine ⟨t.numElementsPresent + (List.range t.numElements).countP fun i =>
      decide (0 < t.numAtomsPerElement.getD i 0), ?_⟩
    rw [Option.bind_some]
    unfold Structure.remapIfPeriodic
    rw [if_neg (by simp [hp])]
  · show t.numElements ≤ t.numAtomsPerElement.length
    rw [hs]
    show m.size ≤ (Structure.forReading m k).numAtomsPerElement.length
    rw [size_forReading]

theorem exMarked_ok {m : EMap} (hm : m.size = 2) {b : Str} {ws : List Str}
    (hb : split (reduce b) = keyBegin :: ws)
    (ht : ∀ k, ∃ set, readBegin (Structure.forReading m k) ws =
      some { Structure.forReading m k with sampleType := set }) :
    (⟨exText, m, [5, 1], exFormat, exMachine⟩ : DataSetup _).Readable (exMarked b) ∧
      (⟨exText, m, [5, 1], exFormat, exMachine⟩ : DataSetup _).Writable (exMarked b) := by
  refine ⟨⟨⟨b, ["energy 2".toList], "end".toList, rfl, ?_, by decide +kernel, ?_⟩, ?_⟩, ?_⟩
  · unfold firstWord
    rw [hb]
    rfl
  · intro x hx
    rw [List.mem_singleton] at hx
    subst hx
    exact ⟨keyEnergy, by decide +kernel, by decide, by decide⟩
  · intro k
    obtain ⟨set, h⟩ := ht k
    obtain ⟨c, e⟩ := exMarked_read (N := exText) hb h rfl
    refine ⟨_, e, ?_, ?_⟩
    · show Char.ofNat 0 ∉ []
      simp
    · have e2 : (Structure.forReading m k).numAtomsPerElement.length = 2 := by rw [size_forReading, hm]
      show (6 + 0 + 4 * 0) * 1 + 4 * 4 + 0 * 8 +
        (7 + (Structure.forReading m k).numAtomsPerElement.length + 0) * 8 + (23 + 0) * 8 < 2 ^ 31
      rw [e2]
      decide
  · intro k u hu
    obtain ⟨set, h⟩ := ht k
    obtain ⟨c, e⟩ := exMarked_read (N := exText) hb h rfl
    rw [show (Structure.forReading m k).readFromLines exText m (exMarked b) = some u from hu] at e
    cases e
    refine ⟨⟨?_, ?_, ?_⟩, ?_, ?_, ?_, ?_⟩
    · show _ ∉ []
      simp
    · show _ ∉ []
      simp
    · show 0 ≤ 1014
      decide
    · intro a ha
      exact absurd ha (List.not_mem_nil (a := a))
    · intro h
      exact absurd (show false = true from h) (by decide)
    · intro h
      exact absurd (show false = true from h) (by decide)
    · intro h
      exact absurd (show false = true from h) (by decide)

/-- Four structures on two processes: one for training, one for testing, two drawn: random numbers 0
and 1. -/
example : ∃ m, EMap.empty.registerElements "O\t H".toList = .ok (m, 2) ∧
    ∃ s fs' train test I J,
      distributeFile ⟨exText, m, [5, 1], exFormat, exMachine⟩ 2 false false []
        ([exMarked "begin set=train".toList, exMarked "begin set=test".toList,
          exMarked "begin".toList, exMarked "begin".toList].flatten ++ []) = .ok s ∧
      writeSetsToFiles exText m [5, 1] ((List.range 2).map fun p =>
        selectStructures .HDNNP_2G (1 / 2) (fun i => i) (fun _ => none) (s.held p)) (fun _ => none) =
        some ((List.range 2).map fun p =>
        selectStructures .HDNNP_2G (1 / 2) (fun i => i) (fun _ => none) (s.held p), fs') ∧
      fs' "train.data".toList = some train ∧ fs' "test.data".toList = some test ∧
      DataSetup.CopiesOf ⟨exText, m, [5, 1], exFormat, exMachine⟩
        [exMarked "begin set=train".toList, exMarked "begin set=test".toList,
          exMarked "begin".toList, exMarked "begin".toList] I train ∧
      DataSetup.CopiesOf ⟨exText, m, [5, 1], exFormat, exMachine⟩
        [exMarked "begin set=train".toList, exMarked "begin set=test".toList,
          exMarked "begin".toList, exMarked "begin".toList] J test ∧
      0 ∈ I ∧ 1 ∈ J ∧ I.length + J.length = 4 := by
  obtain ⟨m, h1, h2, -, -, -⟩ := exFiled_ok
  have hsize : m.size = 2 := by
    obtain ⟨m', g1, g2, -⟩ := emap_sane "O\t H".toList ["O".toList, "H".toList]
      ((C01_tokens_are_words _ _).1 (by decide)) (by decide +kernel) (by decide)
    rw [h1] at g1
    cases g1
    exact g2
  have w1 : split (reduce "begin set=train".toList) = [keyBegin, "set=train".toList] := by
    decide +kernel
  have w2 : split (reduce "begin set=test".toList) = [keyBegin, "set=test".toList] := by
    decide +kernel
  have w3 : split (reduce "begin".toList) = [keyBegin] := by decide +kernel
  obtain ⟨s, e1, e2⟩ := C101_sets (D := ⟨exText, m, [5, 1], exFormat, exMachine⟩)
    (L := [exMarked "begin set=train".toList, exMarked "begin set=test".toList,
          exMarked "begin".toList, exMarked "begin".toList]) (Z := [])
    ⟨hsize.symm, exMachine_survives⟩ exText_sane h2 (by
      intro l hl
      simp only [List.mem_cons, List.not_mem_nil, or_false] at hl
      rcases hl with rfl | rfl | rfl | rfl
      · exact exMarked_ok hsize w1 fun k => ⟨.training, rfl⟩
      · exact exMarked_ok hsize w2 fun k => ⟨.test, rfl⟩
      · exact exMarked_ok hsize w3 fun k => ⟨.unknown, rfl⟩
      · exact exMarked_ok hsize w3 fun k => ⟨.unknown, rfl⟩) rfl 2 (by decide) false false []
    (by decide) (by decide) (by simp) (by simp)
  obtain ⟨fs', train, test, I, J, k1, k2, k3, k4, k5, k6, k7, k8, -⟩ :=
    e2 .HDNNP_2G (1 / 2) (fun _ i => i) (fun _ _ => none) (fun _ => none)
  refine ⟨m, h1, s, fs', train, test, I, J, e1, k1, k2, k3, k4, k5, ?_, ?_, ?_⟩
  · exact k7 0 _ rfl ⟨_, _, rfl, w1⟩
  · exact k8 1 _ rfl ⟨_, _, rfl, w2⟩
  · have := k6.length_eq
    rw [List.length_append, List.length_range] at this
    exact this

end N2P2
