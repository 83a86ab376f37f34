import Verif.Lemma.CurveFile
import Verif.Props.WeightFile

/-! Property C97: the errors reported during training are those of the whole training and test set. -/

namespace N2P2

open Training (Key NNPType)

theorem curveTitle_head (type : NNPType) (stage : ℕ) : (curveFile type stage).head? ≠ some 't' := by
  cases type <;> exact (by decide : some 'l' ≠ some 't')

variable {N : NumberText} {nanText : Str} {normalize : Bool} {u : ModeUnits} {pk : List Key}
  {epochs : List (List (List Structure))}

private theorem report_ok (hr : TrainingRun N nanText normalize u pk epochs) (every always : Key → ℕ)
    {file : Str} (hfile : file.head? ≠ some 't') {h : List Str}
    (hh : curveHeader normalize pk = some h) (fs : Files) :
    ∃ fs' errors t, trainingReport N nanText every always normalize u pk file epochs fs = some fs' ∧
      List.Forall₂ (EpochErrors N pk) epochs errors ∧ fs' file = some (h.flatten ++ t) ∧
      Rows t (curveWords N nanText normalize u pk 0 errors) ∧
      Finished N nanText every always normalize u pk file 0 epochs fs fs' :=
  report_run hr.numbers hr.nan hr.units hr.properties hfile hh every always epochs 0 fs []
    (fun procs hp => ⟨(hr.processes procs hp).1, (hr.processes procs hp).2, hr.structures procs hp⟩)
    (by rw [Nat.zero_add]; exact hr.count) (.inl hr.first) (by simp)

/-- C97: reporting never fails. -/
theorem C97_report_written (hr : TrainingRun N nanText normalize u pk epochs) (every always : Key → ℕ)
    (type : NNPType) (stage : ℕ) (fs : Files) :
    ∃ fs' text, trainingReport N nanText every always normalize u pk (curveFile type stage) epochs fs =
      some fs' ∧ fs' (curveTitle type stage) = some text := by
  obtain ⟨h, hh, -⟩ := curveHeader_ok normalize pk
  obtain ⟨fs', -, t, e, -, ht, -⟩ := report_ok hr every always (curveTitle_head type stage) hh fs
  rw [← curveTitle_name] at ht
  exact ⟨fs', _, e, ht⟩

/-- C97: the learning curve has one line for each epoch, in order, and starts with its number. -/
theorem C97_epoch_column (hr : TrainingRun N nanText normalize u pk epochs) (every always : Key → ℕ)
    (type : NNPType) (stage : ℕ) (fs fs' : Files)
    (h : trainingReport N nanText every always normalize u pk (curveFile type stage) epochs fs = some fs')
    (text : Str) (ht : fs' (curveTitle type stage) = some text) :
    column text 0 = (List.range epochs.length).map fun i => some (natText i) := by
  obtain ⟨hd, hh, hc⟩ := curveHeader_ok normalize pk
  obtain ⟨fs1, errors, t, e, he, h1, hrows, -⟩ :=
    report_ok hr every always (curveTitle_head type stage) hh fs
  rw [h] at e
  cases e
  rw [curveTitle_name, h1] at ht
  cases ht
  have hl : epochs.length = errors.length := he.length_eq
  have hw := (read_rows hc hrows).1
  unfold column
  rw [show (fun l => (split (reduce l))[0]?) = (fun w : List Str => w[0]?) ∘ fun l => split (reduce l) from
    rfl, ← List.map_map, hw]
  unfold curveWords
  rw [List.map_map, hl]
  refine List.ext_getElem? fun i => ?_
  rw [List.getElem?_map, List.getElem?_map, List.getElem?_zipIdx]
  by_cases hi : i < errors.length
  · rw [List.getElem?_eq_getElem hi, List.getElem?_range hi]
    simp
  · rw [List.getElem?_eq_none (by omega), List.getElem?_eq_none (by simpa using hi)]
    rfl

private theorem errors_same (normalize : Bool) {u : ModeUnits} (hu : normalize = true → u.Positive) (k : Key)
    (m : Metric) (part : Part) {phys procs : List (List Structure)}
    (h : List.Forall₂ (List.Forall₂ (InPhysicalUnits normalize u)) phys procs) :
    (if normalize = true then (errorOf k m (partOf part procs)).map (· / unitFactor u k)
      else errorOf k m (partOf part procs)) = errorOf k m (partOf part phys) := by
  cases normalize with
  | false =>
    have : phys = procs := by
      have h1 : ∀ a b : List Structure, List.Forall₂ (InPhysicalUnits false u) a b → a = b := by
        intro a b hab
        induction hab with
        | nil => rfl
        | cons h1 _ ih =>
          have h1 : _ = _ := h1
          rw [h1, ih]
      induction h with
      | nil => rfl
      | cons h2 _ ih => rw [h1 _ _ h2, ih]
    rw [this]
    rfl
  | true =>
    rw [if_pos rfl]
    have h1 : List.Forall₂ (Structure.NormalizedFrom u) (partOf part phys) (partOf part procs) :=
      forall₂_part part (forall₂_concat h)
    rw [error_units (hu rfl) k m h1, Option.map_map]
    have hne := (unitFactor_pos (hu rfl) k).ne'
    cases errorOf k m (partOf part phys) with
    | none => rfl
    | some x => simp [mul_div_cancel_right₀ x hne]

/-- C97: every column named in the header contains what its name says: in each epoch the root mean square
or mean absolute error of the training or test set, over all structures of all processes, in
physical units or the units of training. -/
theorem C97_error_columns (hr : TrainingRun N nanText normalize u pk epochs) (every always : Key → ℕ)
    (type : NNPType) (stage : ℕ) (fs fs' : Files)
    (h : trainingReport N nanText every always normalize u pk (curveFile type stage) epochs fs = some fs')
    (text : Str) (ht : fs' (curveTitle type stage) = some text)
    (phys : List (List (List Structure))) (hphys : SameRun normalize u phys epochs)
    (k : Key) (hk : k ∈ pk) (m : Metric) (hm : Reported k m) (part : Part) :
    (∃ c, NamesColumn text c (columnTitle k m part .physical)) ∧
    (∀ c, NamesColumn text c (columnTitle k m part .physical) → column text c =
      phys.map fun procs => some (shownError N nanText (errorOf k m (partOf part procs)))) ∧
    (normalize = true → ∃ c, NamesColumn text c (columnTitle k m part .training)) ∧
    (normalize = true → ∀ c, NamesColumn text c (columnTitle k m part .training) → column text c =
      epochs.map fun procs => some (shownError N nanText (errorOf k m (partOf part procs)))) := by
  have hm := reported_mem hm
  obtain ⟨hd, hh, hc⟩ := curveHeader_ok normalize pk
  obtain ⟨fs1, errors, t, e, he, h1, hrows, -⟩ :=
    report_ok hr every always (curveTitle_head type stage) hh fs
  rw [h] at e
  cases e
  rw [curveTitle_name, h1] at ht
  cases ht
  obtain ⟨hw, hlines⟩ := read_rows hc hrows
  -- the header names the column
  have hex : ∀ unit : UnitSystem, unit = .physical ∨ normalize = true →
      ∃ c, NamesColumn (hd.flatten ++ t) c (columnTitle k m part unit) := by
    intro unit hunit
    have hmem : ((k, m, part, unit) : CurveEntry) ∈ curveEntries normalize pk :=
      mem_curveEntries.2 ⟨hk, hm, hunit⟩
    obtain ⟨i, hi⟩ := List.mem_iff_getElem?.1 hmem
    obtain ⟨l, hl, rest, hs⟩ := curve_line hh hi
    refine ⟨i + 1, l, ?_, rest, hs⟩
    obtain ⟨hs', rfl, hb⟩ := header_bodies' hc
    obtain ⟨ls, rfl, h2, -⟩ := hrows
    rw [← List.flatMap_def, readLines_append hs' (fun l h => (hb l h).1)]
    obtain ⟨l', hl', e⟩ := List.mem_map.1 hl
    rw [← List.append_cancel_right e]
    exact List.mem_append_left _ hl'
  -- and nothing else has this name
  have hcol : ∀ unit : UnitSystem, unit = .physical ∨ normalize = true → ∀ c,
      NamesColumn (hd.flatten ++ t) c (columnTitle k m part unit) → column (hd.flatten ++ t) c =
        errors.map fun e => some (shownError N nanText (entryValue normalize u e (k, m, part, unit))) := by
    rintro unit hunit c ⟨l, hl, rest, hs⟩
    have hmem : ((k, m, part, unit) : CurveEntry) ∈ curveEntries normalize pk :=
      mem_curveEntries.2 ⟨hk, hm, hunit⟩
    rcases hlines l hl with hl | hl
    swap
    · rw [hs] at hl
      obtain ⟨e, -, he⟩ := List.mem_map.1 hl
      exact absurd (List.cons.inj he).1.symm (natText_not (c := '#') rfl (by decide))
    obtain ⟨i, rfl, hi⟩ := curve_names hh hl hmem hs
    unfold column
    rw [show (fun l => (split (reduce l))[i + 1]?) = (fun w : List Str => w[i + 1]?) ∘
      fun l => split (reduce l) from rfl, ← List.map_map, hw]
    unfold curveWords
    rw [List.map_map]
    have hfun : ((fun w : List Str => w[i + 1]?) ∘ fun e : (Key → PropErrors) × ℕ =>
        natText e.2 :: (curveEntries normalize pk).map fun en =>
          shownError N nanText (entryValue normalize u e.1 en)) =
        fun e => some (shownError N nanText (entryValue normalize u e.1 (k, m, part, unit))) := by
      funext e
      simp only [Function.comp_apply, List.getElem?_cons_succ, List.getElem?_map, hi, Option.map_some]
    rw [hfun]
    have := List.zipIdx_map_fst 0 errors
    conv_rhs => rw [← this]
    rw [List.map_map]
    rfl
  refine ⟨hex _ (.inl rfl), fun c hcn => ?_, fun hn => hex _ (.inr hn), fun hn c hcn => ?_⟩
  · rw [hcol _ (.inl rfl) c hcn]
    clear hcol hex hw hlines hrows h hcn hc hh
    have hu := hr.units
    clear hr
    unfold SameRun at hphys
    induction he generalizing phys with
    | nil => cases hphys; rfl
    | cons h1 _ ih =>
      cases hphys with
      | cons h2 h3 =>
        rw [List.map_cons, List.map_cons, ih _ h3]
        congr 3
        rw [← errors_same normalize hu k m part h2]
        unfold entryValue
        simp only [(h1 k hk).value m hm part, and_true]
  · rw [hcol _ (.inr hn) c hcn]
    clear hcol hex hw hlines hrows h hcn hc hh hphys hr
    induction he with
    | nil => rfl
    | cons h1 _ ih =>
      rw [List.map_cons, List.map_cons, ih]
      congr 3
      unfold entryValue
      simp [(h1 k hk).value m hm part]

/-- C97: in the epochs chosen by the settings a comparison file is written for the training set and one for
the test set. It lists reference and calculated value of all structures of the set, process by
process. The files of the processes are gone. -/
theorem C97_comparison_files (hr : TrainingRun N nanText normalize u pk epochs) (every always : Key → ℕ)
    (type : NNPType) (stage : ℕ) (fs fs' : Files)
    (h : trainingReport N nanText every always normalize u pk (curveFile type stage) epochs fs = some fs')
    (epoch : ℕ) (procs : List (List Structure)) (hp : epochs[epoch]? = some procs)
    (k : Key) (hk : k ∈ pk) (hdue : ComparisonDue every always epoch k) (part : Part) :
    (∃ text, fs' (setFile part k epoch) = some text ∧
      (dataLines text).map (fun l => split (reduce l)) =
        (partOf part procs).flatMap (comparisonWords N k)) ∧
    ∀ rank, rank < procs.length → fs' (partFile part k epoch rank) = none := by
  obtain ⟨hd, hh, -⟩ := curveHeader_ok normalize pk
  obtain ⟨fs1, errors, t, e, -, -, -, hrep⟩ :=
    report_ok hr every always (curveTitle_head type stage) hh fs
  rw [h] at e
  cases e
  have := hrep.comparison epoch procs hp k hk (by rwa [Nat.zero_add]) part
  rw [Nat.zero_add] at this
  obtain ⟨⟨text, h1, hd, t, h2, rfl, h3⟩, h4⟩ := this
  refine ⟨⟨_, by rw [setFile_name]; exact h1, ?_⟩, ?_⟩
  · obtain ⟨hd', h5, h6⟩ := comparisonHeader_ok k
    rw [h5] at h2
    cases h2
    exact (read_rows h6 h3).1
  · intro rank hrank
    rw [partFile_name]
    exact h4 rank hrank

/-- C97: nothing else is written or removed. In particular no comparison files of other epochs. -/
theorem C97_other_files (hr : TrainingRun N nanText normalize u pk epochs) (every always : Key → ℕ)
    (type : NNPType) (stage : ℕ) (fs fs' : Files)
    (h : trainingReport N nanText every always normalize u pk (curveFile type stage) epochs fs = some fs')
    (name : Str) (h1 : name ≠ curveTitle type stage)
    (h2 : ∀ epoch < epochs.length, ∀ k ∈ pk, ComparisonDue every always epoch k → ∀ part : Part,
      name ≠ setFile part k epoch)
    (h3 : ∀ epoch < epochs.length, ∀ k ∈ pk, ∀ (part : Part) (rank : ℕ), name ≠ partFile part k epoch rank) :
    fs' name = fs name := by
  obtain ⟨hd, hh, -⟩ := curveHeader_ok normalize pk
  obtain ⟨fs1, errors, t, e, -, -, -, hrep⟩ :=
    report_ok hr every always (curveTitle_head type stage) hh fs
  rw [h] at e
  cases e
  rw [curveTitle_name] at h1
  refine hrep.others name h1 fun i procs hi k hk hdue part => ?_
  have hlt : i < epochs.length := (List.getElem?_eq_some_iff.1 hi).1
  rw [Nat.zero_add] at hdue ⊢
  refine ⟨?_, fun j hj e => h3 i hlt k hk part j ?_⟩
  · rw [← setFile_name]; exact h2 i hlt k hk hdue part
  · rw [partFile_name]; exact e

/-! ### Example -/

/-- A structure of the training set with one atom. -/
noncomputable def exScored (ref : ℝ) : Structure :=
  { Structure.init with
    numAtoms := 1
    sampleType := .training
    energyRef := ref
    atoms := [Atom.init] }

/-- Energies are doubled in the units of training. -/
noncomputable def exScale : ModeUnits := ⟨0, 2, 1, 1⟩

theorem exScored_trainable (ref : ℝ) : Trainable (exScored ref) := by
  refine ⟨.inl rfl, Nat.one_pos, by simp [exScored, Structure.init], ?_⟩
  intro a ha
  cases List.mem_singleton.1 ha
  simp [Atom.init]

theorem exScored_physical (ref ref' : ℝ) (h : ref' = ref * 2) :
    InPhysicalUnits true exScale (exScored ref) (exScored ref') := by
  subst h
  refine ⟨rfl, rfl, ?_, ?_, .cons ⟨?_, ?_, ?_, ?_⟩ .nil⟩ <;>
    simp [exScored, exScale, Structure.init, Atom.init]

/-- Two processes with a structure each, epochs 0 and 1. -/
noncomputable def exEpochs : List (List (List Structure)) :=
  [[[exScored 2], [exScored 6]], [[exScored 2], [exScored 2]]]

theorem exEpochs_run : TrainingRun exText "-nan".toList true exScale [.energy] exEpochs := by
  have hone : ∀ x : List (List Structure), x ∈ exEpochs → x = [[exScored 2], [exScored 6]] ∨
      x = [[exScored 2], [exScored 2]] := by
    intro x hx
    simpa [exEpochs] using hx
  refine ⟨exText_data, ⟨⟨by decide, by decide⟩, by decide, by decide⟩, ?_, by simp, by simp [exEpochs],
    by simp [exEpochs], ?_, ?_⟩
  · intro _; unfold ModeUnits.Positive exScale; norm_num
  · intro x hx
    rcases hone x hx with rfl | rfl <;> simp
  · intro x hx ss hss s hs
    rcases hone x hx with rfl | rfl
    · rcases List.mem_cons.1 hss with rfl | hss
      · cases List.mem_singleton.1 hs; exact exScored_trainable 2
      · cases List.mem_singleton.1 hss; cases List.mem_singleton.1 hs; exact exScored_trainable 6
    · rcases List.mem_cons.1 hss with rfl | hss
      · cases List.mem_singleton.1 hs; exact exScored_trainable 2
      · cases List.mem_singleton.1 hss; cases List.mem_singleton.1 hs; exact exScored_trainable 2

/-- In physical units the differences are 1 and 3, then 1 and 1. -/
theorem exEpochs_same : SameRun true exScale [[[exScored 1], [exScored 3]], [[exScored 1], [exScored 1]]]
    exEpochs := by
  have h1 := exScored_physical 1 2 (by norm_num)
  have h3 := exScored_physical 3 6 (by norm_num)
  exact .cons (.cons (.cons h1 .nil) (.cons (.cons h3 .nil) .nil))
    (.cons (.cons (.cons h1 .nil) (.cons (.cons h1 .nil) .nil)) .nil)

theorem exScored_error (a b : ℝ) : errorOf .energy .MAE (partOf .train [[exScored a], [exScored b]]) =
    some ((|a| + |b|) / 2) := by
  have h : partOf .train [[exScored a], [exScored b]] = [exScored a, exScored b] := by
    simp [partOf, exScored, Part.sample]
  rw [h]
  simp [errorOf, meanAbsolute, average, deviations, exScored, Structure.init]

/-- Report of the example: the mean absolute error of the energy is 2 and then 1 in physical units, 4 and then 2
in the units of training; there is no test set. Comparison files are written in epoch 0 only. -/
example : ∃ fs text, trainingReport exText "-nan".toList (fun _ => 5) (fun _ => 0) true exScale [.energy]
      (curveFile .HDNNP_2G 1) exEpochs (fun _ => none) = some fs ∧
    fs "learning-curve.out".toList = some text ∧
    column text 0 = [some (natText 0), some (natText 1)] ∧
    (∃ c, NamesColumn text c "MAE_Etrain_pu".toList ∧
      column text c = [some (exText.print 2), some (exText.print 1)]) ∧
    (∃ c, NamesColumn text c "MAE_Etrain_iu".toList ∧
      column text c = [some (exText.print 4), some (exText.print 2)]) ∧
    (∃ c, NamesColumn text c "RMSE_Etest_pu".toList ∧
      column text c = [some "-nan".toList, some "-nan".toList]) ∧
    (∃ t, fs "trainpoints.000000.out".toList = some t ∧ (dataLines t).map (fun l => split (reduce l)) =
      [[natText 0, exText.print 2, exText.print 0], [natText 0, exText.print 6, exText.print 0]]) ∧
    fs "trainpoints.000000.out.0001".toList = none ∧
    fs "trainpoints.000001.out".toList = none := by
  obtain ⟨fs, text, h1, h2⟩ := C97_report_written exEpochs_run (fun _ => 5) (fun _ => 0) .HDNNP_2G 1
    (fun _ => none)
  have hc := C97_error_columns exEpochs_run _ _ _ _ _ _ h1 text h2 _ exEpochs_same .energy (by simp)
  have hdue : ComparisonDue (fun _ => 5) (fun _ => 0) 0 .energy := ⟨by norm_num, .inr le_rfl⟩
  have hcomp := C97_comparison_files exEpochs_run _ _ _ _ _ _ h1 0 _ rfl .energy (by simp) hdue .train
  refine ⟨fs, text, h1, h2, ?_, ?_, ?_, ?_, ?_, ?_, ?_⟩
  · exact C97_epoch_column exEpochs_run _ _ _ _ _ _ h1 text h2
  · obtain ⟨⟨c, h3⟩, h4, -⟩ := hc .MAE (.inl rfl) .train
    refine ⟨c, h3, (h4 c h3).trans ?_⟩
    simp only [List.map_cons, List.map_nil, exScored_error, shownError]
    norm_num
  · obtain ⟨-, -, h3, h4⟩ := hc .MAE (.inl rfl) .train
    obtain ⟨c, h3⟩ := h3 rfl
    refine ⟨c, h3, (h4 rfl c h3).trans ?_⟩
    simp only [exEpochs, List.map_cons, List.map_nil, exScored_error, shownError]
    norm_num
  · obtain ⟨⟨c, h3⟩, h4, -⟩ := hc .RMSE (.inl rfl) .test
    refine ⟨c, h3, (h4 c h3).trans ?_⟩
    have : ∀ a b, partOf .test [[exScored a], [exScored b]] = [] := by
      intro a b; simp [partOf, exScored, Part.sample]
    simp only [List.map_cons, List.map_nil, this]
    simp [errorOf, rootMeanSquare, average, shownError]
  · obtain ⟨⟨t, h3, h4⟩, -⟩ := hcomp
    refine ⟨t, h3, h4.trans ?_⟩
    simp [partOf, exScored, Part.sample, comparisonWords, Structure.init]
  · exact hcomp.2 1 (by decide)
  · have h5 : "trainpoints.000001.out".toList = setFile .train .energy 1 := by decide +kernel
    refine C97_other_files exEpochs_run _ _ _ _ _ _ h1 _ (by decide) ?_ ?_
    · intro epoch he k hk hd part h
      rw [h5, setFile_name, setFile_name] at h
      have := comparisonName_epoch h
      subst this
      obtain ⟨-, h6 | h6⟩ := hd
      · exact absurd h6 (by norm_num)
      · exact absurd h6 (by norm_num)
    · intro epoch _ k _ part rank h
      rw [h5, setFile_name, partFile_name] at h
      exact partName_ne_comparison _ _ _ _ _ h.symm

end N2P2
