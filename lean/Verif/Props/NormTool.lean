import Verif.Lemma.NormTool
import Verif.Props.Normalization

/-! Property C105: nnp-norm. -/

namespace N2P2

/-- C105: in the units of nnp-norm the reference energies per atom of all structures have mean 0 and standard deviation 1,
the components of the reference forces have standard deviation 1, and the largest charge is 1 or -1. -/
theorem C105_units (nan : ℝ) {procs : List (List Structure)} (hc : Counted procs.flatten)
    (h2 : 2 ≤ procs.flatten.length) (hE : listSigma (refEnergies procs.flatten) ≠ 0)
    (hF : listSigma (refForces procs.flatten) ≠ 0) {procs' : List (List Structure)}
    (hp : procs' = procs.map (List.map (normToolStructure (normToolUnits nan procs)))) :
    listMean (refEnergies procs'.flatten) = 0 ∧ listSigma (refEnergies procs'.flatten) = 1 ∧
    listSigma (refForces procs'.flatten) = 1 ∧
    (∀ q ∈ refCharges procs'.flatten, |q| ≤ 1) ∧
    ((∃ q ∈ refCharges procs.flatten, q ≠ 0) → ∃ q ∈ refCharges procs'.flatten, |q| = 1) := by
  have hfl : procs'.flatten = procs.flatten.map (normToolStructure (normToolUnits nan procs)) := by
    rw [hp, List.map_flatten]
  obtain ⟨v1, v2, v3⟩ := normTool_values (normToolUnits nan procs) procs.flatten hc
  rw [← hfl] at v1 v2 v3
  have hs := normStats_eq nan refValues procs hc h2
  have hne : procs.flatten ≠ [] := fun h => by rw [h] at h2; simp at h2
  have n1 : refEnergies procs.flatten ≠ [] := by
    intro h
    exact hne (List.map_eq_nil_iff.1 h)
  have n2 : refForces procs.flatten ≠ [] := by
    intro h
    have h3 : 3 ≤ (refForces procs.flatten).length := qForces_ne_nil (q := refValues) hc hne
    rw [h] at h3
    simp at h3
  have u1 : (normToolUnits nan procs).meanEnergy = listMean (refEnergies procs.flatten) := by
    unfold normToolUnits
    rw [hs]
    rfl
  have u2 : (normToolUnits nan procs).convEnergy = 1 / listSigma (refEnergies procs.flatten) := by
    unfold normToolUnits
    rw [hs]
    rfl
  have u3 : (normToolUnits nan procs).convLength =
      listSigma (refForces procs.flatten) / listSigma (refEnergies procs.flatten) := by
    unfold normToolUnits
    rw [hs]
    rfl
  have p1 := lt_of_le_of_ne (listSigma_nonneg (refEnergies procs.flatten)) (Ne.symm hE)
  have p2 := lt_of_le_of_ne (listSigma_nonneg (refForces procs.flatten)) (Ne.symm hF)
  obtain ⟨c1, c2, c3⟩ := maxCharge_all procs
  have u4 : (normToolUnits nan procs).convCharge =
      if (procs.map maxAbsCharge).foldl max 0 > 0 then 1 / (procs.map maxAbsCharge).foldl max 0 else 1 := rfl
  refine ⟨?_, ?_, ?_, ?_, ?_⟩
  · rw [v1, listMean_affine_norm n1, u1]
    simp
  · rw [v1, listSigma_affine_norm n1, u2, abs_of_pos (by positivity)]
    field_simp
  · have : (normToolUnits nan procs).convEnergy / (normToolUnits nan procs).convLength =
        1 / listSigma (refForces procs.flatten) := by
      rw [u2, u3]
      field_simp
    rw [v2, listSigma_affine_norm n2, this, abs_of_pos (by positivity)]
    field_simp
  · intro q hq
    rw [v3] at hq
    obtain ⟨x, hx, rfl⟩ := List.mem_map.1 hq
    rw [u4]
    have := c1 x hx
    split
    · rename_i h
      rw [abs_mul, abs_of_pos (show (0 : ℝ) < 1 / _ by positivity), mul_one_div, div_le_one h]
      exact this
    · rename_i h
      rw [mul_one]
      linarith
  · rintro ⟨x, hx, h0⟩
    have hpos : 0 < (procs.map maxAbsCharge).foldl max 0 := lt_of_lt_of_le (abs_pos.2 h0) (c1 x hx)
    rcases c3 with c3 | ⟨y, hy, c3⟩
    · rw [c3] at hpos
      exact absurd hpos (lt_irrefl _)
    · refine ⟨y * (normToolUnits nan procs).convCharge, by rw [v3]; exact List.mem_map.2 ⟨y, hy, rfl⟩, ?_⟩
      rw [u4, if_pos hpos, abs_mul, abs_of_pos (show (0 : ℝ) < 1 / _ by positivity), c3]
      field_simp

noncomputable def exChargeProcs : List (List Structure) :=
  [[{ exNormStructure 1 1 2 with atoms := [{ Atom.init with fRef := ![1, 0, 0], chargeRef := -2 }] }],
    [exNormStructure 3 (-1) (-2)]]

example : ∃ procs', procs' = exChargeProcs.map (List.map (normToolStructure (normToolUnits 0 exChargeProcs))) ∧
    listSigma (refEnergies procs'.flatten) = 1 ∧ listSigma (refForces procs'.flatten) = 1 ∧
    ∃ q ∈ refCharges procs'.flatten, |q| = 1 := by
  obtain ⟨-, h1, h2, -, h3⟩ := C105_units 0 (procs := exChargeProcs) (by
      intro s hs
      simp only [exChargeProcs, List.flatten_cons, List.flatten_nil, List.append_nil, List.cons_append,
        List.nil_append, List.mem_cons, List.not_mem_nil, or_false] at hs
      rcases hs with rfl | rfl <;> exact ⟨rfl, List.cons_ne_nil _ _⟩) le_rfl exNorm_energies
    (by
      simp [exChargeProcs, refForces, exNormStructure, listSigma, listMean]
      norm_num) rfl
  exact ⟨_, rfl, h1, h2, h3 ⟨-2, by simp [exChargeProcs, refCharges], by norm_num⟩⟩

/-- C105: the mean energy and the units of energy and length are the ones of a training which normalizes the data set by itself
(mode `ref`, with forces). -/
theorem C105_training {nan : ℝ} {N : NumberText} {c : Contents} {lines : List Str} {procs : List (List Structure)}
    {old : ModeUnits} {r : NormResult} (hrun : dataSetNormalization nan N false c lines procs old = .ok r)
    (hmode : getValue c "normalize_data_set".toList = .ok "ref".toList)
    (hforces : Present c "use_short_forces".toList) :
    r.units.meanEnergy = (normToolUnits nan procs).meanEnergy ∧
    r.units.convEnergy = (normToolUnits nan procs).convEnergy ∧
    r.units.convLength = (normToolUnits nan procs).convLength := by
  obtain ⟨_, hu, _⟩ := dataSetNormalization_ok hrun hmode
  rw [normUnits_ref, (find?_isSome_iff c _).2 hforces] at hu
  simp only [if_true, Except.ok.injEq, Prod.mk.injEq] at hu
  rw [← hu.2]
  exact ⟨rfl, rfl, rfl⟩

example : ∃ r, dataSetNormalization 0 exText false (parseLines (exNormLines "ref" [])) (exNormLines "ref" [])
      exNormProcs ⟨0, 1, 1, 1⟩ = .ok r ∧ r.units.convLength = (normToolUnits 0 exNormProcs).convLength := by
  have hm : getValue (parseLines (exNormLines "ref" [])) "normalize_data_set".toList =
      .ok "ref".toList := by decide +kernel
  obtain ⟨r, hr⟩ := C90_runs 0 exText_sane (exNormLines "ref" []) exNormProcs ⟨0, 1, 1, 1⟩ hm (.inl rfl)
  exact ⟨r, hr, (C105_training hr hm ((find?_isSome_iff _ _).1 (by decide +kernel))).2.2⟩

/-- C105: nnp-norm writes the data set in the new units to `output.data`, a copy of the settings to `input.nn.bak` and new
settings to `input.nn`. A program which reads them uses the units of nnp-norm (as printed) and gets the same answers for all other
keywords. -/
theorem C105_files (nan : ℝ) {N : NumberText} (hN : N.Sane) (hU : N.Uncommented) {m : EMap} (hm : m.Sane)
    {lines : List Str} (hl : ∀ l ∈ lines, '\n' ∉ l)
    (hw : ∀ kw ∈ toolKeywords, ¬ Present (parseLines lines) kw) {procs : List (List Structure)}
    (hp : procs.length < 2 ^ 64) (hs : ∀ s ∈ procs.flatten, s.Writable m ∧ s.Unevaluated) (fs : Files)
    {u : ModeUnits} (hu : u = normToolUnits nan procs) :
    ∃ (fs' : Files) (ts : List Structure) (data : List Str) (bak nn : Str),
      normTool nan N m lines procs fs = .ok fs' ∧
      fs' "output.data".toList = some data.flatten ∧
      fs' "input.nn.bak".toList = some bak ∧
      fs' "input.nn".toList = some nn ∧
      procs.flatten.mapM (fun s => s.toNormalizedUnits u.meanEnergy u.convEnergy u.convLength u.convCharge) =
        some ts ∧
      ts.mapM (fun t => t.writeToFile N m true) = some data ∧
      readLines bak = lines ∧
      (∀ old, setupNormalization N (parseLines (readLines nn)) old = .ok (true,
        ⟨N.rounded u.meanEnergy, N.rounded u.convEnergy, N.rounded u.convLength, N.rounded u.convCharge⟩)) ∧
      (∀ kw ∉ toolKeywords, SameAnswers (parseLines (readLines nn)) (parseLines lines) kw) ∧
      sanityCheck (parseLines (readLines nn)) = sanityCheck (parseLines lines) ∧
      ∀ x, ¬ "output.data".toList <+: x → x ≠ "input.nn".toList → x ≠ "input.nn.bak".toList → fs' x = fs x := by
  have : Nonempty Structure := ⟨Structure.init⟩
  have hex : ∀ s ∈ procs.flatten, ∃ t text,
      s.toNormalizedUnits u.meanEnergy u.convEnergy u.convLength u.convCharge = some t ∧
      t.writeToFile N m true = some text ∧ (normToolStructure u s).writeToFile N m true = some text :=
    fun s h => normTool_text hN hm u (hs s h).1 (hs s h).2
  choose! t text hex using hex
  have etext : procs.mapM (normToolText N m u) = some (procs.map fun ss => (ss.map text).flatten) := by
    refine mapM_of_map fun ss hss => ?_
    unfold normToolText
    rw [mapM_of_map (g := text) fun s h => (hex s (List.mem_flatten.2 ⟨ss, hss, h⟩)).2.2]
    rfl
  obtain ⟨fs1, g1, g2, g3⟩ := comparisonFile_prefix "output.data".toList (by decide)
    (procs.map fun ss => (ss.map text).flatten) fs (by rw [List.length_map]; exact hp)
  obtain ⟨b, hb1, hb2⟩ := keywordsFound_iff (parseLines lines)
  have hb : b = false := by
    rw [Bool.eq_false_iff]
    intro h
    obtain ⟨kw, hk, hp⟩ := hb2.1 h
    exact hw kw hk hp
  rw [hb] at hb1
  have hstr : ∃ ys, (normToolHeader N u).mapM strpr = some ys := by
    refine ⟨_, mapM_of_map (g := id) fun l hl => if_pos ?_⟩
    have hfield : ∀ x, (N.field x).length ≤ 24 := by
      intro x
      have := (hN x).2.2
      unfold NumberText.field padLeft
      simp only [List.length_append, List.length_replicate]
      omega
    have f1 := hfield u.meanEnergy
    have f2 := hfield u.convEnergy
    have f3 := hfield u.convLength
    have f4 := hfield u.convCharge
    have k1 : "mean_energy".toList.length = 11 := by decide
    have k2 : "conv_energy".toList.length = 11 := by decide
    have k3 : "conv_length".toList.length = 11 := by decide
    have k4 : "conv_charge".toList.length = 11 := by decide
    have k5 : " # nnp-norm".toList.length = 11 := by decide
    unfold normToolHeader normToolCharge normToolLine at hl
    simp only [List.cons_append, List.nil_append, List.mem_cons, List.not_mem_nil, or_false] at hl
    rcases hl with rfl | rfl | rfl | rfl | rfl | rfl | rfl | rfl | rfl | rfl
    · decide
    · decide
    · decide
    · simp only [List.length_append, List.length_cons]
      omega
    · simp only [List.length_append, List.length_cons]
      omega
    · simp only [List.length_append, List.length_cons]
      omega
    · simp only [List.length_append, List.length_cons]
      omega
    · decide
    · decide
    · decide
  obtain ⟨ys, hstr⟩ := hstr
  have hread := toolFile_read hN hU u hl
  obtain ⟨hother, hval⟩ := toolContents hN hU u hw
  have kne1 : "input.nn".toList ≠ "input.nn.bak".toList := by decide
  have kne2 : "output.data".toList ≠ "input.nn.bak".toList := by decide
  have kne3 : "output.data".toList ≠ "input.nn".toList := by decide
  refine ⟨((fs1.write "input.nn.bak".toList (settingsText lines)).write "input.nn".toList
    ((normToolHeader N u).flatMap (· ++ ['\n']) ++ settingsText lines)), procs.flatten.map t,
    procs.flatten.map text, settingsText lines,
    (normToolHeader N u).flatMap (· ++ ['\n']) ++ settingsText lines, ?_, ?_, ?_, ?_, ?_, ?_, ?_, ?_, ?_, ?_, ?_⟩
  · unfold normTool
    rw [hb1, ← hu]
    simp only [Except.toOption, orThrow, bind, Except.bind, Bool.false_eq_true, if_false, etext, g1, hstr, orUndefined]
  · unfold Files.write
    rw [Function.update_of_ne kne3, Function.update_of_ne kne2, g2]
    congr 1
    rw [List.map_flatten, List.flatten_flatten, List.map_map]
    rfl
  · unfold Files.write
    rw [Function.update_of_ne kne1.symm, Function.update_self]
  · unfold Files.write
    rw [Function.update_self]
  · exact mapM_of_map fun s h => (hex s h).1
  · rw [List.mapM_map]
    exact mapM_of_map fun s h => (hex s h).2.1
  · rw [settingsText_eq, readLines_write _ hl]
  · intro old
    rw [hread]
    have h1 := hval ("mean_energy".toList, N.print u.meanEnergy) (by simp)
    have h2 := hval ("conv_energy".toList, N.print u.convEnergy) (by simp)
    have h3 := hval ("conv_length".toList, N.print u.convLength) (by simp)
    have h4 := hval ("conv_charge".toList, N.print u.convCharge) (by simp)
    obtain ⟨q, hq, hset⟩ := setupNormalization_read N (c := parseLines (normToolHeader N u ++ lines))
      (v1 := N.print u.meanEnergy) (v2 := N.print u.convEnergy) (v3 := N.print u.convLength) old (by
        intro kw hk
        unfold normKeywords at hk
        simp only [List.mem_cons, List.not_mem_nil, or_false] at hk
        rcases hk with rfl | rfl | rfl
        · exact h1
        · exact h2
        · exact h3)
    rw [hset]
    have k4 : keyGroup "conv_charge".toList = some ["conv_charge".toList] := by decide +kernel
    obtain ⟨e, he1, he2⟩ := find?_of_values h4
    unfold normCharge at hq
    rw [exists_single k4, getValue_single k4 he1, he1, he2] at hq
    have hq' : N.atof (N.print u.convCharge) = q := by
      simpa [NormErr.lift, bind, Except.bind, pure, Except.pure] using hq
    rw [← hq']
    rfl
  · intro kw hk
    rw [hread]
    exact sameAnswers_apart toolKeyword_group hother hk
  · rw [hread]
    refine sanityCheck_apart toolKeyword_group (by decide +kernel) hother ?_ ?_
    · intro k hk
      rw [count_values, range_values, List.length_map, kvList_parseLines,
        filter_key_nil (not_present_iff.1 (hw k hk))]
      simp
    · intro k hk
      rw [count_values]
      have : ∃ v, ((parseLines (normToolHeader N u ++ lines)).range k).map (·.value) = [v] := by
        unfold toolKeywords at hk
        simp only [List.mem_cons, List.not_mem_nil, or_false] at hk
        rcases hk with rfl | rfl | rfl | rfl
        · exact ⟨_, hval ("mean_energy".toList, N.print u.meanEnergy) (by simp)⟩
        · exact ⟨_, hval ("conv_energy".toList, N.print u.convEnergy) (by simp)⟩
        · exact ⟨_, hval ("conv_length".toList, N.print u.convLength) (by simp)⟩
        · exact ⟨_, hval ("conv_charge".toList, N.print u.convCharge) (by simp)⟩
      obtain ⟨v, hv⟩ := this
      rw [hv]
      simp
  · intro x hx h1 h2
    unfold Files.write
    rw [Function.update_of_ne h1, Function.update_of_ne h2, g3 x hx]

theorem exNorm_without : ∀ kw ∈ toolKeywords, ¬ Present (parseLines (exNormLines "ref" [])) kw := by
  intro kw hk h
  have h1 := (find?_isSome_iff _ _).2 h
  have h2 : ∀ k ∈ toolKeywords, ((parseLines (exNormLines "ref" [])).find? k).isSome = false := by
    decide +kernel
  rw [h2 kw hk] at h1
  cases h1

theorem exFiled_writable {m : EMap} (hok : ∀ q, (exFiled false q).Filable exText m true) :
    ∀ s ∈ [[exFiled false 2], [exFiled false 3]].flatten, s.Writable m ∧ s.Unevaluated := by
  intro s hs
  have : ∃ q, s = exFiled false q := by
    simp only [List.flatten_cons, List.flatten_nil, List.append_nil, List.cons_append, List.nil_append,
      List.mem_cons, List.not_mem_nil, or_false] at hs
    rcases hs with rfl | rfl
    · exact ⟨2, rfl⟩
    · exact ⟨3, rfl⟩
  obtain ⟨q, rfl⟩ := this
  refine ⟨⟨(hok q).comment, (hok q).element⟩, ?_⟩
  intro a ha
  simp only [exFiled, List.mem_cons, List.not_mem_nil, or_false] at ha
  rcases ha with rfl | rfl | rfl <;> rfl

example : ∃ m, ∃ fs' : Files, normTool 0 exText m (exNormLines "ref" []) [[exFiled false 2], [exFiled false 3]] (fun _ => none) =
      .ok fs' ∧
    ∃ nn, fs' "input.nn".toList = some nn ∧
      SameAnswers (parseLines (readLines nn)) (parseLines (exNormLines "ref" [])) "use_short_forces".toList := by
  obtain ⟨m, -, hm, hok, -⟩ := exFiled_ok
  obtain ⟨fs', ts, data, bak, nn, h1, -, -, h2, -, -, -, -, h3, -⟩ := C105_files 0 exText_sane exText_uncommented hm
    (lines := exNormLines "ref" []) (by decide +kernel)
    exNorm_without (procs := [[exFiled false 2], [exFiled false 3]]) (by decide) (exFiled_writable hok) (fun _ => none) rfl
  exact ⟨m, fs', h1, nn, h2, h3 _ (by decide)⟩

/-- C105: settings with one of the keywords are refused. -/
theorem C105_refused (nan : ℝ) (N : NumberText) (m : EMap) {lines : List Str} {kw : Str}
    (hk : kw ∈ toolKeywords) (hp : Present (parseLines lines) kw) (procs : List (List Structure)) (fs : Files) :
    normTool nan N m lines procs fs = .error .exception := by
  obtain ⟨b, hb1, hb2⟩ := keywordsFound_iff (parseLines lines)
  have hb : b = true := hb2.2 ⟨kw, hk, hp⟩
  rw [hb] at hb1
  unfold normTool
  rw [hb1]
  rfl

example : normTool 0 exText EMap.empty (exNormLines "ref" ["conv_charge 2"]) exNormProcs (fun _ => none) =
    .error .exception :=
  C105_refused 0 exText EMap.empty (kw := "conv_charge".toList) (by decide)
    ((find?_isSome_iff _ _).1 (by decide +kernel)) exNormProcs _

/-- C105: a second run with the settings written by the first is refused. -/
theorem C105_twice (nan : ℝ) {N : NumberText} (hN : N.Sane) (hU : N.Uncommented) {m : EMap} {lines : List Str}
    (hl : ∀ l ∈ lines, '\n' ∉ l) {procs : List (List Structure)} {fs fs' : Files}
    (hrun : normTool nan N m lines procs fs = .ok fs') (procs' : List (List Structure)) (fs'' : Files) :
    ∃ nn, fs' "input.nn".toList = some nn ∧
      normTool nan N m (readLines nn) procs' fs'' = .error .exception := by
  have hnn : fs' "input.nn".toList = some ((normToolHeader N (normToolUnits nan procs)).flatMap (· ++ ['\n']) ++
      settingsText lines) := by
    unfold normTool at hrun
    obtain ⟨b, hb1, -⟩ := keywordsFound_iff (parseLines lines)
    rw [hb1] at hrun
    have hrun' : (if b = true then Except.error Fault.exception else _) = Except.ok fs' := hrun
    cases b with
    | true =>
      rw [if_pos rfl] at hrun'
      cases hrun'
    | false =>
      rw [if_neg (by decide)] at hrun'
      dsimp only at hrun'
      cases h1 : procs.mapM (normToolText N m (normToolUnits nan procs)) with
      | none =>
        rw [h1] at hrun'
        cases hrun'
      | some texts =>
        rw [h1] at hrun'
        cases h2 : comparisonFile "output.data".toList texts fs with
        | none =>
          have : (orThrow (comparisonFile "output.data".toList texts fs)).bind _ = Except.ok fs' := hrun'
          rw [h2] at this
          cases this
        | some f1 =>
          have h3 : (orThrow (comparisonFile "output.data".toList texts fs)).bind _ = Except.ok fs' := hrun'
          rw [h2] at h3
          cases h4 : (normToolHeader N (normToolUnits nan procs)).mapM strpr with
          | none =>
            have h5 : (orUndefined (List.mapM strpr (normToolHeader N (normToolUnits nan procs)))).bind _ =
              Except.ok fs' := h3
            rw [h4] at h5
            cases h5
          | some ys =>
            have h5 : (orUndefined (List.mapM strpr (normToolHeader N (normToolUnits nan procs)))).bind _ =
              Except.ok fs' := h3
            rw [h4] at h5
            injection h5 with h5
            rw [← h5]
            unfold Files.write
            rw [Function.update_self]
  refine ⟨_, hnn, C105_refused nan N m (kw := "mean_energy".toList) (by decide) ?_ procs' fs''⟩
  rw [toolFile_read hN hU _ hl, present_kv, kvList_parseLines, List.filterMap_append,
    (toolHeader_kv hN hU _).1]
  exact ⟨_, List.mem_append_left _ List.mem_cons_self⟩

example : ∃ m, ∃ fs' : Files, normTool 0 exText m (exNormLines "ref" []) [[exFiled false 2], [exFiled false 3]] (fun _ => none) =
      .ok fs' ∧
    ∃ nn, fs' "input.nn".toList = some nn ∧
      normTool 0 exText m (readLines nn) exNormProcs fs' = .error .exception := by
  obtain ⟨m, -, hm, hok, -⟩ := exFiled_ok
  have hl : ∀ l ∈ exNormLines "ref" [], '\n' ∉ l := by decide +kernel
  obtain ⟨fs', ts, data, bak, nn, h1, -⟩ := C105_files 0 exText_sane exText_uncommented hm hl exNorm_without
    (procs := [[exFiled false 2], [exFiled false 3]]) (by decide) (exFiled_writable hok) (fun _ => none) rfl
  exact ⟨m, fs', h1, C105_twice 0 exText_sane exText_uncommented hl h1 exNormProcs fs'⟩

end N2P2
