import Verif.Spec.SetFiles
import Verif.Lemma.ComparisonFile
import Verif.Props.DataFile
import Verif.Props.Training

/-! Files with the training and the test set. -/

namespace N2P2

variable {Byte : Type} {D : DataSetup Byte} {L : List (List Str)}

/-! ### The set named in the file -/

section
variable {N : NumberText} {m : EMap}

theorem readLattice_set {s : Structure} {n : ℕ} {words : List Str} {r : Structure × ℕ}
    (e : readLattice N s n words = some r) : r.1.sampleType = s.sampleType := by
  unfold readLattice at e
  by_cases hn : n < 3
  · rw [dif_pos hn] at e
    obtain ⟨a, -, e⟩ := Option.bind_eq_some_iff.1 e
    obtain ⟨b, -, e⟩ := Option.bind_eq_some_iff.1 e
    obtain ⟨c, -, e⟩ := Option.bind_eq_some_iff.1 e
    cases e
    dsimp only
    by_cases h3 : n + 1 = 3
    · rw [if_pos h3]; rfl
    · rw [if_neg h3]
  · rw [dif_neg hn] at e
    cases e

theorem readAtom_set {s s' : Structure} {words : List Str} (e : readAtom N m s words = some s') :
    s'.sampleType = s.sampleType := by
  unfold N2P2.readAtom at e
  obtain ⟨a1, -, e⟩ := Option.bind_eq_some_iff.1 e
  obtain ⟨a2, -, e⟩ := Option.bind_eq_some_iff.1 e
  obtain ⟨a3, -, e⟩ := Option.bind_eq_some_iff.1 e
  obtain ⟨a4, -, e⟩ := Option.bind_eq_some_iff.1 e
  obtain ⟨el, -, e⟩ := Option.bind_eq_some_iff.1 e
  obtain ⟨a5, -, e⟩ := Option.bind_eq_some_iff.1 e
  obtain ⟨a7, -, e⟩ := Option.bind_eq_some_iff.1 e
  obtain ⟨a8, -, e⟩ := Option.bind_eq_some_iff.1 e
  obtain ⟨a9, -, e⟩ := Option.bind_eq_some_iff.1 e
  obtain ⟨c, hc, e⟩ := Option.bind_eq_some_iff.1 e
  have e := Option.some.inj e
  subst e
  rfl

/-- Behind the line "begin" the set does not change. -/
theorem readLoop_set (lines : List Str)
    (hl : ∀ x ∈ lines, firstWord x ≠ some keyBegin) {s s' : Structure} {n : ℕ}
    (e : readLoop N m lines s n = some s') : s'.sampleType = s.sampleType := by
  induction lines generalizing s n with
  | nil => cases e; rfl
  | cons line lines ih =>
    have ih : ∀ {s : Structure} {n : ℕ}, readLoop N m lines s n = some s' →
        s'.sampleType = s.sampleType := fun e => ih (fun x hx => hl x (by simp [hx])) e
    have hb := hl line (by simp)
    cases hw : split (reduce line) with
    | nil => rw [readLoop_empty _ _ _ _ hw] at e; cases e
    | cons key ws =>
      rw [readLoop_cons _ _ _ _ _ _ _ _ hw] at e
      have h1 : key ≠ keyBegin := by
        rintro rfl
        exact hb (by unfold firstWord; rw [hw]; rfl)
      rw [if_neg h1] at e
      by_cases h2 : key = keyComment
      · rw [if_pos h2] at e
        obtain ⟨t, e1, e2⟩ := Option.bind_eq_some_iff.1 e
        obtain ⟨pos, -, rfl⟩ := Option.map_eq_some_iff.1 e1
        have e3 := ih e2
        exact e3
      rw [if_neg h2] at e
      by_cases h3 : key = keyLattice
      · rw [if_pos h3] at e
        obtain ⟨t, e1, e2⟩ := Option.bind_eq_some_iff.1 e
        exact (ih e2).trans (readLattice_set e1)
      rw [if_neg h3] at e
      by_cases h4 : key = keyAtom
      · rw [if_pos h4] at e
        obtain ⟨t, e1, e2⟩ := Option.bind_eq_some_iff.1 e
        exact (ih e2).trans (readAtom_set e1)
      rw [if_neg h4] at e
      by_cases h5 : key = keyEnergy
      · rw [if_pos h5] at e
        obtain ⟨t, e1, e2⟩ := Option.bind_eq_some_iff.1 e
        have e3 := ih e2
        exact e3
      rw [if_neg h5] at e
      by_cases h6 : key = keyCharge
      · rw [if_pos h6] at e
        obtain ⟨t, e1, e2⟩ := Option.bind_eq_some_iff.1 e
        have e3 := ih e2
        exact e3
      rw [if_neg h6] at e
      by_cases h7 : key = keyEnd
      · rw [if_pos h7] at e
        unfold checkEnd at e
        split_ifs at e
        cases e
        rfl
      · rw [if_neg h7] at e
        cases e

theorem countPresent_set {s s' : Structure} (hl : s.numElements ≤ s.numAtomsPerElement.length)
    (e : s.countPresent = some s') : s'.sampleType = s.sampleType := by
  rw [countPresent_eq s hl] at e
  cases e
  rfl

theorem remapIfPeriodic_set {s s' : Structure} (e : s.remapIfPeriodic = some s') :
    s'.sampleType = s.sampleType := by
  unfold Structure.remapIfPeriodic at e
  by_cases hp : s.isPeriodic = true
  · rw [if_pos hp] at e
    unfold Structure.remap at e
    obtain ⟨atoms, e1, rfl⟩ := Option.map_eq_some_iff.1 e
    rfl
  · rw [if_neg hp] at e
    cases e
    rfl

theorem readBegin_valid {words : List Str} {s s' : Structure} (h : s.sampleType ≠ .validation)
    (e : readBegin s words = some s') : s'.sampleType ≠ .validation := by
  unfold readBegin at e
  induction words generalizing s with
  | nil => cases e; exact h
  | cons w ws ih =>
    rw [List.foldlM_cons] at e
    obtain ⟨u, e1, e2⟩ := Option.bind_eq_some_iff.1 e
    refine ih ?_ e2
    split_ifs at e1 <;>
    · cases e1
      simp

/-- The set of a structure read is the one named behind "begin". -/
theorem readFromLines_set {l : List Str} (hl : IsSection l) {k : ℕ} {u : Structure}
    (e : (Structure.forReading m k).readFromLines N m l = some u) :
    ∃ b rest t, l = b :: rest ∧
      readBegin (Structure.forReading m k) (split (reduce b)).tail = some t ∧
      u.sampleType = t.sampleType := by
  obtain ⟨b, body, x, rfl, h1, h2, h3⟩ := hl
  unfold Structure.readFromLines at e
  obtain ⟨_, -, e⟩ := Option.bind_eq_some_iff.1 e
  obtain ⟨_, -, e⟩ := Option.bind_eq_some_iff.1 e
  split_ifs at e
  obtain ⟨s1, e2, e⟩ := Option.bind_eq_some_iff.1 e
  obtain ⟨s2, e3, e4⟩ := Option.bind_eq_some_iff.1 e
  have hk := readLoop_keeps _ (ReadKeeps.start m k) e2
  have e5 := countPresent_set (by
    rw [hk.length, hk.numElements]
    show m.size ≤ (resizeNat (List.replicate 0 0) m.size).length
    rw [resizeNat_replicate]
    simp) e3
  have e6 := remapIfPeriodic_set e4
  cases hw : split (reduce b) with
  | nil => rw [firstWord, hw] at h1; cases h1
  | cons key ws =>
    have hkey : key = keyBegin := by
      rw [firstWord, hw] at h1
      exact Option.some.inj h1
    rw [readLoop_cons _ _ _ _ _ _ _ _ hw, if_pos hkey] at e2
    obtain ⟨t, g1, g2⟩ := Option.bind_eq_some_iff.1 e2
    refine ⟨b, _, t, rfl, by rw [hw]; exact g1, ?_⟩
    rw [e6, e5]
    refine readLoop_set _ ?_ g2
    intro y hy
    rcases List.mem_append.1 hy with hy | hy
    · obtain ⟨w, w1, w2, -⟩ := h3 y hy
      rw [w1]
      exact fun h => w2 (Option.some.inj h)
    · rw [List.mem_singleton] at hy
      subst hy
      rw [h2]
      decide

theorem readFromLines_valid {l : List Str} (hl : IsSection l) {k : ℕ} {u : Structure}
    (e : (Structure.forReading m k).readFromLines N m l = some u) : u.sampleType ≠ .validation := by
  obtain ⟨b, rest, t, -, h1, h2⟩ := readFromLines_set hl e
  rw [h2]
  exact readBegin_valid (by show SampleType.unknown ≠ _; simp) h1

theorem read_marked {l : List Str} (hl : IsSection l) {k : ℕ} {u : Structure}
    (e : (Structure.forReading m k).readFromLines N m l = some u) :
    (NamesNoSet l → u.sampleType = .unknown) ∧ (MarkedTrain l → u.sampleType = .training) ∧
      (MarkedTest l → u.sampleType = .test) := by
  obtain ⟨b, rest, t, rfl, h1, h2⟩ := readFromLines_set hl e
  rw [h2]
  refine ⟨?_, ?_, ?_⟩ <;>
  · rintro ⟨b', r', e1, e2⟩
    cases e1
    rw [e2] at h1
    cases h1
    rfl

end

/-! ### Selection -/

theorem toStructure_forTraining (t : SampleType) : t.forTraining.toStructure = t := by cases t <;> rfl

/-- Structure number `i` after the selection. -/
noncomputable def chosenSet (fraction : ℝ) (rnd : ℕ → ℝ) (ss : List Structure) (i : ℕ) (s : Structure) :
    SampleType :=
  (Training.expectedType fraction rnd (ss.map Structure.forSelection) i s.forSelection).toStructure

theorem selectStructures_get (nnp : Training.NNPType) (fraction : ℝ) (rnd : ℕ → ℝ)
    (p : Training.PropertyMap) (ss : List Structure) (i : ℕ) :
    (selectStructures nnp fraction rnd p ss)[i]? =
      ss[i]?.map fun s => { s with sampleType := chosenSet fraction rnd ss i s } := by
  unfold selectStructures
  rw [List.getElem?_zipWith]
  cases hs : ss[i]? with
  | none => rfl
  | some s =>
    have h := (C47_partition nnp fraction rnd (ss.map Structure.forSelection) p).2.1 i s.forSelection
      (by rw [List.getElem?_map, hs]; rfl)
    rw [h]
    rfl

theorem chosenSet_known {fraction : ℝ} {rnd : ℕ → ℝ} {ss : List Structure} {i : ℕ} {s : Structure}
    (h : s.sampleType ≠ .unknown) : chosenSet fraction rnd ss i s = s.sampleType := by
  unfold chosenSet Training.expectedType
  rw [if_neg]
  · exact toStructure_forTraining _
  · show s.sampleType.forTraining ≠ _
    revert h
    cases s.sampleType <;> simp [SampleType.forTraining]

theorem chosenSet_unknown {fraction : ℝ} {rnd : ℕ → ℝ} {ss : List Structure} {i : ℕ} {s : Structure}
    (h : s.sampleType = .unknown) :
    (rnd ((ss.take i).countP fun v => v.sampleType = .unknown) < fraction →
      chosenSet fraction rnd ss i s = .test) ∧
    (fraction ≤ rnd ((ss.take i).countP fun v => v.sampleType = .unknown) →
      chosenSet fraction rnd ss i s = .training) := by
  have hc : Training.undecidedBefore (ss.map Structure.forSelection) i =
      (ss.take i).countP fun v => v.sampleType = .unknown := by
    unfold Training.undecidedBefore
    rw [← List.map_take, List.countP_map]
    apply List.countP_congr
    intro v _
    show decide (v.sampleType.forTraining = _) = true ↔ _
    cases v.sampleType <;> simp [SampleType.forTraining]
  unfold chosenSet Training.expectedType
  rw [hc, if_pos (show s.forSelection.sampleType = _ by
    show s.sampleType.forTraining = _
    rw [h]
    rfl)]
  constructor
  · intro h1
    rw [if_pos h1]
    rfl
  · intro h1
    rw [if_neg (not_lt.2 h1)]
    rfl

/-! ### Writing -/

/-- A structure of the data file after offsets were subtracted and its set was chosen. -/
def DataSetup.Chosen (D : DataSetup Byte) (L : List (List Str)) (v : Structure) : Prop :=
  ∃ l u, L[v.index]? = some l ∧
    (Structure.forReading D.m v.index).readFromLines D.N D.m l = some u ∧
    v = { u with
      energyRef := u.energyRef - u.offsetSum D.offs
      sampleType := v.sampleType }

theorem chosen_step (hD : D.Sane) (hN : D.N.Sane) (hm : D.m.Sane) (hW : ∀ l ∈ L, D.Writable l)
    {v : Structure} (hv : D.Chosen L v) :
    ∃ u lines, addEnergyOffset D.offs v true = some u ∧ u.sampleType = v.sampleType ∧
      removeEnergyOffset D.offs u true = some v ∧
      u.writeToFile D.N D.m true = some (lines.flatMap (· ++ ['\n'])) ∧ (∀ l ∈ lines, '\n' ∉ l) ∧
      ∃ l, L[v.index]? = some l ∧ D.SameSection v.index l lines := by
  obtain ⟨l, u, h1, h2, h3⟩ := hv
  have hk := readFromLines_keeps h2
  have hu := hW l (List.mem_of_getElem? h1) _ u h2
  obtain ⟨lines, g1, g2, g3, g4⟩ := written_lines hN hm u true hu
  have hr := removeOffset_read hD h2
  have hl : u.numAtomsPerElement.length = D.offs.length := by
    rw [hk.length, size_forReading, hD.offs]
  have hsum : ((List.zip u.numAtomsPerElement D.offs).map fun q => (q.1 : ℝ) * q.2).sum =
      u.offsetSum D.offs := by
    have e := (addOffset_eq D.offs u (by omega)).2.2
    rw [hr] at e
    have := congrArg Structure.energyRef (Option.some.inj e)
    dsimp only at this
    linarith
  refine ⟨{ u with sampleType := v.sampleType }, lines, ?_, rfl, ?_, g1, g2, l, h1, g3, u, h2, g4⟩
  · rw [(addOffset_eq D.offs v (by rw [h3]; dsimp only; omega)).2.1]
    rw [h3]
    dsimp only
    rw [hsum, sub_add_cancel]
  · rw [(addOffset_eq D.offs _ (by dsimp only; omega)).2.2]
    dsimp only
    rw [hsum]
    exact congrArg some h3.symm

/-- Numbers of the structures in a set. -/
def numbersOf (set : SampleType) (vs : List Structure) : List ℕ :=
  (vs.filter fun v => v.sampleType = set).map Structure.index

/-- Text of many sections. -/
def sectionsText (T : List (List Str)) : Str := (T.map fun t => t.flatMap (· ++ ['\n'])).flatten

/-- Copies of structures. -/
def DataSetup.Sections (D : DataSetup Byte) (L : List (List Str)) (I : List ℕ) (T : List (List Str)) :
    Prop :=
  (∀ t ∈ T, ∀ l ∈ t, '\n' ∉ l) ∧
    List.Forall₂ (fun i t => ∃ l, L[i]? = some l ∧ D.SameSection i l t) I T

theorem writeSetLoop_ok (hD : D.Sane) (hN : D.N.Sane) (hm : D.m.Sane) (hW : ∀ l ∈ L, D.Writable l) :
    ∀ (vs : List Structure), (∀ v ∈ vs, D.Chosen L v) → ∀ t : SetTexts,
    ∃ T T', writeSetLoop D.N D.m D.offs t vs =
        some (⟨t.train ++ sectionsText T, t.test ++ sectionsText T'⟩, vs) ∧
      D.Sections L (numbersOf .training vs) T ∧ D.Sections L (numbersOf .test vs) T' := by
  intro vs
  induction vs with
  | nil =>
    intro _ t
    exact ⟨[], [], by simp [writeSetLoop, sectionsText], ⟨nofun, .nil⟩, ⟨nofun, .nil⟩⟩
  | cons v vs ih =>
    intro hv t
    obtain ⟨u, lines, e1, e2, e3, e4, e5, e6⟩ := chosen_step hD hN hm hW (hv v (by simp))
    have ih := ih fun x hx => hv x (by simp [hx])
    unfold writeSetLoop
    rw [e1]
    simp only [Option.bind_eq_bind, Option.bind_some]
    unfold SetTexts.add
    rw [e2]
    have hcons : ∀ {I T}, D.Sections L I T → D.Sections L (v.index :: I) (lines :: T) := by
      rintro I T ⟨h1, h2⟩
      refine ⟨?_, .cons e6 h2⟩
      intro x hx
      rcases List.mem_cons.1 hx with rfl | hx
      · exact e5
      · exact h1 x hx
    cases hset : v.sampleType with
    | training =>
      simp only [e4, Option.map_some, Option.bind_some, e3]
      obtain ⟨T, T', h1, h2, h3⟩ := ih ⟨t.train ++ lines.flatMap (· ++ ['\n']), t.test⟩
      refine ⟨lines :: T, T', ?_, ?_, ?_⟩
      · rw [h1]
        simp [sectionsText]
      · have : numbersOf .training (v :: vs) = v.index :: numbersOf .training vs := by
          simp [numbersOf, hset]
        rw [this]
        exact hcons h2
      · have : numbersOf .test (v :: vs) = numbersOf .test vs := by
          simp [numbersOf, hset]
        rw [this]
        exact h3
    | test =>
      simp only [e4, Option.map_some, Option.bind_some, e3]
      obtain ⟨T, T', h1, h2, h3⟩ := ih ⟨t.train, t.test ++ lines.flatMap (· ++ ['\n'])⟩
      refine ⟨T, lines :: T', ?_, ?_, ?_⟩
      · rw [h1]
        simp [sectionsText]
      · have : numbersOf .training (v :: vs) = numbersOf .training vs := by
          simp [numbersOf, hset]
        rw [this]
        exact h2
      · have : numbersOf .test (v :: vs) = v.index :: numbersOf .test vs := by
          simp [numbersOf, hset]
        rw [this]
        exact hcons h3
    | unknown =>
      simp only [Option.bind_some, e3]
      obtain ⟨T, T', h1, h2, h3⟩ := ih t
      exact ⟨T, T', by rw [h1]; rfl, by simpa [numbersOf, hset] using h2,
        by simpa [numbersOf, hset] using h3⟩
    | validation =>
      simp only [Option.bind_some, e3]
      obtain ⟨T, T', h1, h2, h3⟩ := ih t
      exact ⟨T, T', by rw [h1]; rfl, by simpa [numbersOf, hset] using h2,
        by simpa [numbersOf, hset] using h3⟩

theorem writeSetLoops_ok (hD : D.Sane) (hN : D.N.Sane) (hm : D.m.Sane) (hW : ∀ l ∈ L, D.Writable l) :
    ∀ (procs : List (List Structure)), (∀ vs ∈ procs, ∀ v ∈ vs, D.Chosen L v) →
    ∃ rs T T', procs.mapM (fun ss => writeSetLoop D.N D.m D.offs ⟨[], []⟩ ss) = some rs ∧
      rs.map (·.2) = procs ∧ (rs.map (·.1.train)).flatten = sectionsText T ∧
      (rs.map (·.1.test)).flatten = sectionsText T' ∧
      D.Sections L (procs.flatMap (numbersOf .training)) T ∧
      D.Sections L (procs.flatMap (numbersOf .test)) T' := by
  intro procs
  induction procs with
  | nil => intro _; exact ⟨[], [], [], rfl, rfl, rfl, rfl, ⟨nofun, .nil⟩, ⟨nofun, .nil⟩⟩
  | cons vs procs ih =>
    intro h
    obtain ⟨rs, T, T', h1, h2, h3, h4, h5, h6⟩ := ih fun x hx => h x (by simp [hx])
    obtain ⟨S, S', g1, g2, g3⟩ := writeSetLoop_ok hD hN hm hW vs (h vs (by simp)) ⟨[], []⟩
    have happ : ∀ {I J T S}, D.Sections L I T → D.Sections L J S → D.Sections L (I ++ J) (T ++ S) := by
      rintro I J T S ⟨a1, a2⟩ ⟨b1, b2⟩
      refine ⟨?_, List.rel_append a2 b2⟩
      intro t ht
      rcases List.mem_append.1 ht with ht | ht
      · exact a1 t ht
      · exact b1 t ht
    refine ⟨(⟨sectionsText S, sectionsText S'⟩, vs) :: rs, S ++ T, S' ++ T', ?_, ?_, ?_, ?_, ?_, ?_⟩
    · rw [List.mapM_cons, g1, h1]
      rfl
    · rw [List.map_cons, h2]
    · rw [List.map_cons, List.flatten_cons, h3]
      simp [sectionsText]
    · rw [List.map_cons, List.flatten_cons, h4]
      simp [sectionsText]
    · rw [List.flatMap_cons]
      exact happ g2 h5
    · rw [List.flatMap_cons]
      exact happ g3 h6

theorem sections_copies {I : List ℕ} {T : List (List Str)} (h : D.Sections L I T) :
    D.CopiesOf L I (sectionsText T) := ⟨T, readLines_texts T h.1, h.2⟩

theorem numbersOf_perm : ∀ (vs : List Structure),
    (∀ v ∈ vs, v.sampleType = .training ∨ v.sampleType = .test) →
    (numbersOf .training vs ++ numbersOf .test vs).Perm (vs.map Structure.index) := by
  intro vs
  induction vs with
  | nil => intro _; exact .nil
  | cons v vs ih =>
    intro h
    have ih := ih fun x hx => h x (by simp [hx])
    rcases h v (by simp) with hv | hv
    · have e1 : numbersOf .training (v :: vs) = v.index :: numbersOf .training vs := by
        simp [numbersOf, hv]
      have e2 : numbersOf .test (v :: vs) = numbersOf .test vs := by simp [numbersOf, hv]
      rw [e1, e2]
      exact ih.cons _
    · have e1 : numbersOf .training (v :: vs) = numbersOf .training vs := by simp [numbersOf, hv]
      have e2 : numbersOf .test (v :: vs) = v.index :: numbersOf .test vs := by simp [numbersOf, hv]
      rw [e1, e2]
      exact List.perm_middle.trans (ih.cons _)

theorem flatMap_perm {α β : Type} {f g h : α → List β} : ∀ l : List α,
    (∀ a ∈ l, (f a ++ g a).Perm (h a)) → (l.flatMap f ++ l.flatMap g).Perm (l.flatMap h) := by
  intro l
  induction l with
  | nil => intro _; exact .nil
  | cons a l ih =>
    intro hl
    have h1 := ih fun x hx => hl x (by simp [hx])
    have h2 := hl a (by simp)
    rw [List.flatMap_cons, List.flatMap_cons, List.flatMap_cons]
    refine List.Perm.trans ?_ (h2.append h1)
    rw [List.append_assoc, List.append_assoc]
    refine List.Perm.append_left _ ?_
    rw [← List.append_assoc, ← List.append_assoc]
    exact List.Perm.append_right _ List.perm_append_comm

end N2P2
