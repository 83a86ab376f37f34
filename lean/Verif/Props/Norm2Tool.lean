import Verif.Lemma.Norm2Tool
import Verif.Props.NormTool
import Verif.Props.LengthUnit

/-! Property C113: nnp-norm2. -/

namespace N2P2

theorem exForce_mode : getValue (parseLines (exNormLines "force" [])) "normalize_data_set".toList =
    .ok "force".toList := by decide +kernel

theorem exForce_present : Present (parseLines (exNormLines "force" [])) "use_short_forces".toList :=
  (find?_isSome_iff _ _).1 (by decide +kernel)

/-- C113: the mean energy and the units are the ones of a training which normalizes the data set by itself (mode `force`). -/
theorem C113_training {nan : ℝ} {N : NumberText} {stage1 : Bool} {c : Contents} {lines : List Str}
    {procs : List (List Structure)} {r : NormResult}
    (hrun : dataSetNormalization nan N stage1 c lines procs ⟨0, 1, 1, 1⟩ = .ok r)
    (hmode : getValue c "normalize_data_set".toList = .ok "force".toList) :
    r.units = norm2Units nan procs := by
  obtain ⟨_, hu, _⟩ := dataSetNormalization_ok hrun hmode
  rw [normUnits_force] at hu
  split at hu
  · simp only [Except.ok.injEq, Prod.mk.injEq] at hu
    exact hu.2.symm
  · cases hu

example : ∃ r, dataSetNormalization 0 exText false (parseLines (exNormLines "force" [])) (exNormLines "force" [])
      exNormProcs ⟨0, 1, 1, 1⟩ = .ok r ∧ r.units = norm2Units 0 exNormProcs := by
  obtain ⟨r, hr⟩ := C90_runs 0 exText_sane (exNormLines "force" []) exNormProcs ⟨0, 1, 1, 1⟩ exForce_mode
    (.inr ⟨rfl, exForce_present⟩)
  exact ⟨r, hr, C113_training hr exForce_mode⟩

/-- C113: in the units of nnp-norm2 the reference energies per atom of all structures of all processes have mean 0, the
components of the reference forces have standard deviation 1, and so have the components of the predicted forces, divided by the
conversion factor for lengths. -/
theorem C113_units (nan : ℝ) {procs procs' : List (List Structure)} (hc : Counted procs.flatten)
    (h2 : 2 ≤ procs.flatten.length) (hF : listSigma (refForces procs.flatten) ≠ 0)
    (hn : listSigma (nnpForces procs.flatten) ≠ 0)
    (hconv : normalizeAll (norm2Units nan procs) procs = some procs') :
    listMean (refEnergies procs'.flatten) = 0 ∧ listSigma (refForces procs'.flatten) = 1 ∧
    listSigma ((nnpForces procs.flatten).map fun v => v / (norm2Units nan procs).convLength) = 1 := by
  obtain ⟨r, hr⟩ := C90_runs nan exText_sane (exNormLines "force" []) procs ⟨0, 1, 1, 1⟩ exForce_mode
    (.inr ⟨rfl, exForce_present⟩)
  rw [← C113_training hr exForce_mode] at hconv ⊢
  obtain ⟨-, -, h1, h2, h3, -⟩ := C90_force hr exForce_mode hc h2 hF hn hconv
  exact ⟨h1, h2, h3⟩

example : ∃ procs', normalizeAll (norm2Units 0 exNormProcs) exNormProcs = some procs' ∧
    listMean (refEnergies procs'.flatten) = 0 ∧ listSigma (refForces procs'.flatten) = 1 := by
  obtain ⟨p, hp⟩ := exNorm_conv (norm2Units 0 exNormProcs)
  have h := C113_units 0 exNorm_counted le_rfl exNorm_forces.1 exNorm_forces.2 hp
  exact ⟨p, hp, h.1, h.2.1⟩

theorem norm2_convLength (nan : ℝ) {procs : List (List Structure)} (hc : Counted procs.flatten)
    (h2 : 2 ≤ procs.flatten.length) : (norm2Units nan procs).convLength = listSigma (nnpForces procs.flatten) := by
  unfold norm2Units
  rw [normStats_eq nan nnpValues procs hc h2]
  rfl

/-- C113: the forces predicted with the new settings for the converted structures have standard deviation 1. `olds` are the
structures as read, `procs` hold the forces predicted for them by nnp-norm2, `news` are the converted structures. -/
theorem C113_predicted {srt : List Neighbor → List Neighbor} {P P' : Potential} {n : ℕ} {nan : ℝ}
    {procs : List (List Structure)} (hcnt : Counted procs.flatten) (h2 : 2 ≤ procs.flatten.length)
    (hF : listSigma (refForces procs.flatten) ≠ 0) (hN : listSigma (nnpForces procs.flatten) ≠ 0)
    {procs' : List (List Structure)} (hconv : normalizeAll (norm2Units nan procs) procs = some procs')
    (hsrt : IsSort srt) (hP : P.Fits n) (hn : 0 < n)
    (hsame : P.SameSettings (norm2Units nan procs).convLength P' n) (hset : ∃ M' : Mode, M'.SetUp P' n)
    (olds news : List Structure)
    (hold : List.Forall₂ (fun s t => ∃ s1, P.Predicts srt n s s1 ∧
      t.atoms.map Atom.f = s1.atoms.map Atom.f) olds procs.flatten)
    (hnew : List.Forall₂ (fun s s' => s.Rescaled (norm2Units nan procs).convLength s' ∧ s'.New n) olds news) :
    (∀ s' ∈ news, ∃ s1', P'.Predicts srt n s' s1') ∧
    ∀ results, List.Forall₂ (P'.Predicts srt n) news results → listSigma (nnpForces results) = 1 := by
  obtain ⟨r, hr⟩ := C90_runs nan exText_sane (exNormLines "force" []) procs ⟨0, 1, 1, 1⟩ exForce_mode
    (.inr ⟨rfl, exForce_present⟩)
  rw [← C113_training hr exForce_mode] at hconv hsame hnew
  exact C90_predicted hr exForce_mode hcnt h2 hF hN hconv hsrt hP hn hsame hset olds news hold hnew

/-- The data set: the same three atoms twice. -/
example : ∃ (srt : List Neighbor → List Neighbor) (t : ℝ) (procs : List (List Structure))
    (results : List Structure), IsSort srt ∧
    List.Forall₂ (fun s t => ∃ s1, exPotential.Predicts srt 2 s s1 ∧
      t.atoms.map Atom.f = s1.atoms.map Atom.f) [exTriple 1 t, exTriple 1 t] procs.flatten ∧
    exPotential.SameSettings (norm2Units 0 procs).convLength (exUnitPotential (norm2Units 0 procs).convLength) 2 ∧
    List.Forall₂ ((exUnitPotential (norm2Units 0 procs).convLength).Predicts srt 2)
      [exTriple (norm2Units 0 procs).convLength t, exTriple (norm2Units 0 procs).convLength t] results ∧
    listSigma (nnpForces results) = 1 := by
  obtain ⟨srt, hsrt⟩ := exists_isSort
  obtain ⟨M, hM, -⟩ := exists_exMode
  obtain ⟨t, M1, s1, ht, he, hne⟩ := exists_force hsrt hM
  have hev : (exTriple 1 t).Evaluable M exPotential 2 :=
    exPotential_evaluable (exTriple_new 1 t) (exTriple_apart ht)
  have hsm := exPotential_smooth (exTriple_apart ht) (M.listRadius (exTriple 1 t))
  have hno : exPotential.NoOwnImages (exTriple 1 t) := exTriple_noOwnImages _ _ _
  obtain ⟨_, _, g1, -, gl, -⟩ := C74_energy hsrt hM exPotential_fits (by norm_num) hev true false
  rw [he] at g1
  cases g1
  have h0 := C35_total_force_partial hsrt hM exPotential_fits (by norm_num) hev hno false he
  rw [exTriple_length, Finset.sum_range_succ, Finset.sum_range_succ, Finset.sum_range_one] at h0
  have hS := exPredicted_sigma h0 hne
  set p := exPredicted s1.forceOn with hp
  obtain ⟨p', hp'⟩ := exPredicted_conv s1.forceOn (norm2Units 0 [[p], [p]])
  have hcnt : Counted [[p], [p]].flatten := by
    intro s hs
    simp only [List.flatten_cons, List.flatten_nil, List.append_nil, List.cons_append,
      List.nil_append, List.mem_cons, List.not_mem_nil, or_false, or_self] at hs
    rw [hs]
    exact ⟨rfl, by simp [hp, exPredicted]⟩
  have hc : 0 < (norm2Units 0 [[p], [p]]).convLength := by
    rw [norm2_convLength 0 hcnt le_rfl]
    exact lt_of_le_of_ne (listSigma_nonneg _) (Ne.symm hS)
  have hold : List.Forall₂ (fun s t => ∃ s1, exPotential.Predicts srt 2 s s1 ∧
      t.atoms.map Atom.f = s1.atoms.map Atom.f) [exTriple 1 t, exTriple 1 t] [[p], [p]].flatten := by
    have : ∃ s1, exPotential.Predicts srt 2 (exTriple 1 t) s1 ∧ p.atoms.map Atom.f = s1.atoms.map Atom.f := by
      refine ⟨s1, ⟨M, M1, false, hM, hev, hsm, he⟩, ?_⟩
      rw [atoms_f s1, gl, exTriple_length]
      rfl
    exact .cons this (.cons this .nil)
  have hnew : List.Forall₂ (fun s s' => s.Rescaled (norm2Units 0 [[p], [p]]).convLength s' ∧ s'.New 2)
      [exTriple 1 t, exTriple 1 t] [exTriple (norm2Units 0 [[p], [p]]).convLength t, exTriple (norm2Units 0 [[p], [p]]).convLength t] :=
    .cons ⟨exTriple_rescaled _ t, exTriple_new _ t⟩ (.cons ⟨exTriple_rescaled _ t, exTriple_new _ t⟩ .nil)
  obtain ⟨k1, k2⟩ := C113_predicted hcnt le_rfl hS hS hp' hsrt exPotential_fits
    (by norm_num) (exUnit_same _) (exists_exUnitMode hc) _ _ hold hnew
  obtain ⟨u, hu⟩ := k1 _ List.mem_cons_self
  have hres : List.Forall₂ ((exUnitPotential (norm2Units 0 [[p], [p]]).convLength).Predicts srt 2)
      [exTriple (norm2Units 0 [[p], [p]]).convLength t, exTriple (norm2Units 0 [[p], [p]]).convLength t] [u, u] :=
    .cons hu (.cons hu .nil)
  exact ⟨srt, t, _, [u, u], hsrt, hold, exUnit_same _, hres, k2 _ hres⟩

/-- C113: nnp-norm2 writes a copy of the settings to `input.nn.bak` and new settings to `input.nn`. A program which reads them uses
the units of nnp-norm2 (as printed), leaves the unit of charge as it is and gets the same answers for all other keywords. -/
theorem C113_files (nan : ℝ) {N : NumberText} (hN : N.Sane) (hU : N.Uncommented) {lines : List Str}
    (hl : ∀ l ∈ lines, '\n' ∉ l) (hw : ∀ kw ∈ toolKeywords, ¬ Present (parseLines lines) kw)
    (hf : Present (parseLines lines) "use_short_forces".toList) (procs : List (List Structure)) (fs : Files)
    {u : ModeUnits} (hu : u = norm2Units nan procs) :
    ∃ (fs' : Files) (bak nn : Str), norm2Tool nan N false lines procs fs = .ok fs' ∧
      fs' "input.nn.bak".toList = some bak ∧ readLines bak = lines ∧
      fs' "input.nn".toList = some nn ∧
      (∀ old, setupNormalization N (parseLines (readLines nn)) old = .ok (true,
        ⟨N.rounded u.meanEnergy, N.rounded u.convEnergy, N.rounded u.convLength, old.convCharge⟩)) ∧
      (∀ kw ∉ normKeywords, SameAnswers (parseLines (readLines nn)) (parseLines lines) kw) ∧
      sanityCheck (parseLines (readLines nn)) = sanityCheck (parseLines lines) ∧
      ∀ x, x ≠ "input.nn".toList → x ≠ "input.nn.bak".toList → fs' x = fs x := by
  have hw' : ∀ kw ∈ normKeywords, ¬ Present (parseLines lines) kw := fun kw hk => hw kw (normKeyword_tool kw hk)
  have hcharge : ((parseLines lines).find? "conv_charge".toList).isSome = false := by
    rw [Bool.eq_false_iff]
    exact fun e => hw "conv_charge".toList (by decide) ((find?_isSome_iff _ _).1 e)
  obtain ⟨b, hb1, hb2⟩ := found2_iff (parseLines lines)
  have hb : b = false := by
    rw [Bool.eq_false_iff]
    intro h
    obtain ⟨kw, hk, hp⟩ := hb2.1 h
    exact hw' kw hk hp
  rw [hb] at hb1
  have hforces : keywordExists (parseLines lines) "use_short_forces".toList = .ok true := by
    rw [exists_single (by decide +kernel), (find?_isSome_iff _ _).2 hf]
  obtain ⟨ys, hstr⟩ := header2_strpr hN u
  have hread := file2_read hN hU u hl
  obtain ⟨hother, hval⟩ := contents2 hN hU u hw'
  have kne : "input.nn".toList ≠ "input.nn.bak".toList := by decide
  refine ⟨((fs.write "input.nn.bak".toList (settingsText lines)).write "input.nn".toList
    ((norm2Header N u).flatMap (· ++ ['\n']) ++ settingsText lines)), settingsText lines,
    (norm2Header N u).flatMap (· ++ ['\n']) ++ settingsText lines, ?_, ?_, ?_, ?_, ?_, ?_, ?_, ?_⟩
  · unfold norm2Tool
    dsimp only
    rw [setup2 N hw', hcharge, hb1, hforces, ← hu]
    simp only [Except.toOption, orThrow, bind, Except.bind, Bool.false_eq_true, if_false, hstr, orUndefined,
      Bool.or_self, Bool.not_true]
  · unfold Files.write
    rw [Function.update_of_ne kne.symm, Function.update_self]
  · rw [settingsText_eq, readLines_write _ hl]
  · unfold Files.write
    rw [Function.update_self]
  · intro old
    rw [hread]
    obtain ⟨q, hq, hset⟩ := setupNormalization_read N (c := parseLines (norm2Header N u ++ lines))
      (v1 := N.print u.meanEnergy) (v2 := N.print u.convEnergy) (v3 := N.print u.convLength) old (by
        intro kw hk
        unfold normKeywords at hk
        simp only [List.mem_cons, List.not_mem_nil, or_false] at hk
        rcases hk with rfl | rfl | rfl
        · exact hval ("mean_energy".toList, N.print u.meanEnergy) (by simp)
        · exact hval ("conv_energy".toList, N.print u.convEnergy) (by simp)
        · exact hval ("conv_length".toList, N.print u.convLength) (by simp))
    rw [hset]
    have h4 : ((parseLines (norm2Header N u ++ lines)).find? "conv_charge".toList).isSome = false := by
      rw [← hcharge]
      exact isSome_of_values (values_apart hother (by decide))
    unfold normCharge at hq
    rw [exists_single (by decide +kernel), h4] at hq
    have hq' : old.convCharge = q := by
      simpa [NormErr.lift, bind, Except.bind, pure, Except.pure] using hq
    rw [← hq']
    rfl
  · intro kw hk
    rw [hread]
    exact sameAnswers_apart (fun k h => toolKeyword_group k (normKeyword_tool k h)) hother hk
  · rw [hread]
    refine sanityCheck_apart (fun k h => toolKeyword_group k (normKeyword_tool k h)) (by decide +kernel) hother ?_ ?_
    · intro k hk
      rw [count_values, range_values, List.length_map, kvList_parseLines,
        filter_key_nil (not_present_iff.1 (hw' k hk))]
      simp
    · intro k hk
      rw [count_values]
      have : ∃ v, ((parseLines (norm2Header N u ++ lines)).range k).map (·.value) = [v] := by
        unfold normKeywords at hk
        simp only [List.mem_cons, List.not_mem_nil, or_false] at hk
        rcases hk with rfl | rfl | rfl
        · exact ⟨_, hval ("mean_energy".toList, N.print u.meanEnergy) (by simp)⟩
        · exact ⟨_, hval ("conv_energy".toList, N.print u.convEnergy) (by simp)⟩
        · exact ⟨_, hval ("conv_length".toList, N.print u.convLength) (by simp)⟩
      obtain ⟨v, hv⟩ := this
      rw [hv]
      simp
  · intro x h1 h2
    unfold Files.write
    rw [Function.update_of_ne h1, Function.update_of_ne h2]

theorem exNorm2_without : ∀ kw ∈ toolKeywords, ¬ Present (parseLines (exNormLines "force" [])) kw := by
  intro kw hk h
  have h1 := (find?_isSome_iff _ _).2 h
  have h2 : ∀ k ∈ toolKeywords, ((parseLines (exNormLines "force" [])).find? k).isSome = false := by
    decide +kernel
  rw [h2 kw hk] at h1
  cases h1

example : ∃ (fs' : Files) (bak nn : Str),
    norm2Tool 0 exText false (exNormLines "force" []) exNormProcs (fun _ => none) = .ok fs' ∧
      fs' "input.nn.bak".toList = some bak ∧ readLines bak = exNormLines "force" [] ∧
      fs' "input.nn".toList = some nn ∧
      SameAnswers (parseLines (readLines nn)) (parseLines (exNormLines "force" [])) "use_short_forces".toList := by
  obtain ⟨fs', bak, nn, h1, h2, h3, h4, -, h5, -⟩ := C113_files 0 exText_sane exText_uncommented
    (lines := exNormLines "force" []) (by decide +kernel) exNorm2_without exForce_present exNormProcs (fun _ => none) rfl
  exact ⟨fs', bak, nn, h1, h2, h3, h4, h5 _ (by decide)⟩

/-- C113: nothing is written if charges are trained, if the settings have one of the four keywords for units, or if
forces are not used. -/
theorem C113_refused (nan : ℝ) (N : NumberText) {charges : Bool} {lines : List Str}
    (h : charges = true ∨ (∃ kw ∈ toolKeywords, Present (parseLines lines) kw) ∨
      ¬ Present (parseLines lines) "use_short_forces".toList) (procs : List (List Structure)) (fs : Files) :
    norm2Tool nan N charges lines procs fs = .error .exception := by
  obtain ⟨b, hb1, hb2⟩ := found2_iff (parseLines lines)
  have hforces : keywordExists (parseLines lines) "use_short_forces".toList =
      .ok ((parseLines lines).find? "use_short_forces".toList).isSome := exists_single (by decide +kernel) _
  have key : (∃ e, setupNormalization N (parseLines lines) ⟨0, 1, 1, 1⟩ = .error e) ∨
      (charges || b || !((parseLines lines).find? "use_short_forces".toList).isSome) = true := by
    rcases h with rfl | ⟨kw, hk, hp⟩ | h
    · exact .inr (by simp)
    · by_cases hn : ∃ k ∈ normKeywords, Present (parseLines lines) k
      · exact .inr (by rw [hb2.2 hn]; simp)
      · push Not at hn
        have hkw : kw = "conv_charge".toList := by
          unfold toolKeywords at hk
          simp only [List.mem_cons, List.not_mem_nil, or_false] at hk
          rcases hk with rfl | rfl | rfl | rfl
          · exact absurd hp (hn _ (by decide))
          · exact absurd hp (hn _ (by decide))
          · exact absurd hp (hn _ (by decide))
          · rfl
        rw [hkw] at hp
        refine .inl ⟨.usage, ?_⟩
        rw [setup2 N hn, if_pos ((find?_isSome_iff _ _).2 hp)]
    · refine .inr ?_
      have : ((parseLines lines).find? "use_short_forces".toList).isSome = false := by
        rw [Bool.eq_false_iff]
        exact fun e => h ((find?_isSome_iff _ _).1 e)
      rw [this]
      simp
  unfold norm2Tool
  dsimp only
  rw [hb1, hforces]
  rcases key with ⟨e, he⟩ | hk
  · rw [he]; rfl
  · cases hs : setupNormalization N (parseLines lines) ⟨0, 1, 1, 1⟩ with
    | error e => rfl
    | ok v =>
      simp only [Except.toOption, orThrow, bind, Except.bind]
      rw [if_pos hk]

example : norm2Tool 0 exText false (exNormLines "force" ["conv_charge 2"]) exNormProcs (fun _ => none) =
    .error .exception :=
  C113_refused 0 exText (.inr (.inl ⟨"conv_charge".toList, by decide, (find?_isSome_iff _ _).1 (by decide +kernel)⟩))
    exNormProcs _

/-- C113: a second run with the settings written by the first is refused. -/
theorem C113_twice (nan : ℝ) {N : NumberText} (hN : N.Sane) (hU : N.Uncommented) {lines : List Str}
    (hl : ∀ l ∈ lines, '\n' ∉ l) {charges : Bool} {procs : List (List Structure)} {fs fs' : Files}
    (hrun : norm2Tool nan N charges lines procs fs = .ok fs') (procs' : List (List Structure)) (fs'' : Files) :
    ∃ nn, fs' "input.nn".toList = some nn ∧
      ∀ charges', norm2Tool nan N charges' (readLines nn) procs' fs'' = .error .exception := by
  have hok : ¬ (charges = true ∨ (∃ kw ∈ toolKeywords, Present (parseLines lines) kw) ∨
      ¬ Present (parseLines lines) "use_short_forces".toList) := by
    intro h
    rw [C113_refused nan N h] at hrun
    cases hrun
  push Not at hok
  obtain ⟨h0, hw, hf⟩ := hok
  rw [Bool.eq_false_iff.2 h0] at hrun
  obtain ⟨f, bak, nn, h1, -, -, h2, h3, -⟩ := C113_files nan hN hU hl hw hf procs fs rfl
  rw [h1] at hrun
  injection hrun with hrun
  refine ⟨nn, hrun ▸ h2, fun charges' => C113_refused nan N ?_ procs' fs''⟩
  by_contra hc
  push Not at hc
  have := setup2 N (fun kw hk => hc.2.1 kw (normKeyword_tool kw hk)) ⟨0, 1, 1, 1⟩
  rw [h3] at this
  split at this <;> simp at this

example : ∃ (fs' : Files) (nn : Str),
    norm2Tool 0 exText false (exNormLines "force" []) exNormProcs (fun _ => none) = .ok fs' ∧
      fs' "input.nn".toList = some nn ∧
      norm2Tool 0 exText false (readLines nn) exNormProcs fs' = .error .exception := by
  have hl : ∀ l ∈ exNormLines "force" [], '\n' ∉ l := by decide +kernel
  obtain ⟨fs', bak, nn, h1, -⟩ := C113_files 0 exText_sane exText_uncommented hl exNorm2_without exForce_present
    exNormProcs (fun _ => none) rfl
  obtain ⟨nn, h2, h3⟩ := C113_twice 0 exText_sane exText_uncommented hl h1 exNormProcs fs'
  exact ⟨fs', nn, h1, h2, h3 false⟩

end N2P2
