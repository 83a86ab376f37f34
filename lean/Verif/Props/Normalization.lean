import Verif.Lemma.Normalization
import Verif.Props.StructureFile

/-! Property C90: data set normalization. -/

namespace N2P2

theorem normWrite_file {N : NumberText} {mode : Str} (hm : mode ≠ "stats-only".toList)
    {mean : ℝ} {u : ModeUnits} {lines : List Str} {file : Option Str}
    (h : normWrite N mode mean u lines = .ok file) :
    file = some (normFile (normLine N "mean_energy" mean) (normLine N "conv_energy" u.convEnergy)
      (normLine N "conv_length" u.convLength) lines) := by
  unfold normWrite normLines at h
  rw [if_neg hm] at h
  split at h
  · rename_i t ht
    injection h with h
    subst h
    split at ht
    · injection ht with ht
      rw [ht]
    · cases ht
  · cases h

theorem normTexts_of {N : NumberText} (hN : N.Sane) (hU : N.Uncommented) (m e l : ℝ) :
    NormTexts (normLine N "mean_energy" m) (normLine N "conv_energy" e) (normLine N "conv_length" l)
      (N.print m) (N.print e) (N.print l) := by
  have h1 := kvLine_normLine hN hU (kw := "mean_energy") (by decide) m
  have h2 := kvLine_normLine hN hU (kw := "conv_energy") (by decide) e
  have h3 := kvLine_normLine hN hU (kw := "conv_length") (by decide) l
  exact ⟨h1.1, h2.1, h3.1, h1.2, h2.2, h3.2⟩

variable {nan : ℝ} {N : NumberText} {stage1 : Bool} {c : Contents} {lines : List Str}
  {procs procs' : List (List Structure)} {old : ModeUnits} {r : NormResult}

/-- C90: the normalization succeeds if the mode is `ref`, or `force` with forces. -/
theorem C90_runs (nan : ℝ) (hN : N.Sane) (lines : List Str) (procs : List (List Structure))
    (old : ModeUnits) {mode : Str} (hmode : getValue c "normalize_data_set".toList = .ok mode)
    (h : mode = "ref".toList ∨ mode = "force".toList ∧ Present c "use_short_forces".toList) :
    ∃ r, dataSetNormalization nan N false c lines procs old = .ok r := by
  have hm : mode ≠ "stats-only".toList := by rcases h with rfl | ⟨rfl, _⟩ <;> decide
  have hu : ∃ u, normUnits N c mode (c.find? "use_short_forces".toList).isSome
      (normStats nan refValues procs) (normStats nan nnpValues procs) old = .ok u := by
    rcases h with rfl | ⟨rfl, hf⟩
    · exact ⟨_, normUnits_ref⟩
    · rw [normUnits_force, (find?_isSome_iff c _).2 hf]
      exact ⟨_, rfl⟩
  obtain ⟨u, hu⟩ := hu
  have hlen : ∀ (kw : String) (x : ℝ), kw.toList.length ≤ 20 →
      ∃ t, strpr (normLine N kw x ++ ['\n']) = some t := by
    intro kw x hk
    have h3 := (hN x).2.2
    refine ⟨_, if_pos ?_⟩
    have h12 : " # nnp-train".toList.length = 12 := by decide
    unfold normLine NumberText.field padLeft
    simp only [List.length_append, List.length_cons, List.length_nil, List.length_replicate, h12]
    omega
  obtain ⟨t1, h1⟩ := hlen "mean_energy" (normStats nan refValues procs).meanEnergy (by decide)
  obtain ⟨t2, h2⟩ := hlen "conv_energy" u.2.convEnergy (by decide)
  obtain ⟨t3, h3⟩ := hlen "conv_length" u.2.convLength (by decide)
  have hw : ∃ f, normWrite N mode (normStats nan refValues procs).meanEnergy u.2 lines = .ok f := by
    unfold normWrite normLines
    rw [if_neg hm, h1, h2, h3]
    exact ⟨_, rfl⟩
  obtain ⟨f, hw⟩ := hw
  refine ⟨⟨u.1, u.2, f⟩, ?_⟩
  unfold dataSetNormalization
  rw [exists_single (by decide +kernel), hmode]
  simp only [NormErr.lift, bind, Except.bind, pure, Except.pure, Bool.false_eq_true, if_false]
  rw [hu]
  simp only [hw]

/-! Two processes with one structure each. -/

/-- A structure with one atom. -/
noncomputable def exNormStructure (e f g : ℝ) : Structure :=
  { Structure.init with
    numAtoms := 1
    energyRef := e
    atoms := [{ Atom.init with fRef := ![f, 0, 0], f := ![g, 0, 0] }] }

noncomputable def exNormProcs : List (List Structure) :=
  [[exNormStructure 1 1 2], [exNormStructure 3 (-1) (-2)]]

theorem exNorm_counted : Counted exNormProcs.flatten := by
  intro s hs
  simp only [exNormProcs, List.flatten_cons, List.flatten_nil, List.append_nil, List.cons_append,
    List.nil_append, List.mem_cons, List.not_mem_nil, or_false] at hs
  rcases hs with rfl | rfl <;> exact ⟨rfl, List.cons_ne_nil _ _⟩

theorem exNorm_energies : listSigma (refEnergies exNormProcs.flatten) ≠ 0 := by
  simp [exNormProcs, refEnergies, exNormStructure, listSigma, listMean, Structure.init]
  norm_num

theorem exNorm_forces : listSigma (refForces exNormProcs.flatten) ≠ 0 ∧
    listSigma (nnpForces exNormProcs.flatten) ≠ 0 := by
  constructor <;>
  · simp [exNormProcs, refForces, nnpForces, exNormStructure, listSigma, listMean]
    norm_num

theorem exNorm_conv (u : ModeUnits) : ∃ p, normalizeAll u exNormProcs = some p := by
  simp [normalizeAll, exNormProcs, exNormStructure, Structure.toNormalizedUnits,
    Atom.toNormalizedUnits, Atom.derivativesAllocated, Atom.init]

/-- A settings file. -/
def exNormLines (mode : String) (more : List String) : List Str :=
  ("normalize_data_set " ++ mode).toList :: "use_short_forces".toList :: more.map String.toList

/-! ### The conversion data -/

/-- C90 (mode `ref`): after the normalization with forces, the reference energies per atom of all
structures of all processes have mean 0 and standard deviation 1, and the components of the reference
forces have standard deviation 1. -/
theorem C90_ref (hrun : dataSetNormalization nan N stage1 c lines procs old = .ok r)
    (hmode : getValue c "normalize_data_set".toList = .ok "ref".toList)
    (hforces : Present c "use_short_forces".toList)
    (hc : Counted procs.flatten) (h2 : 2 ≤ procs.flatten.length)
    (hE : listSigma (refEnergies procs.flatten) ≠ 0) (hF : listSigma (refForces procs.flatten) ≠ 0)
    (hconv : normalizeAll r.units procs = some procs') :
    r.normalize = true ∧
    listMean (refEnergies procs'.flatten) = 0 ∧ listSigma (refEnergies procs'.flatten) = 1 ∧
    listSigma (refForces procs'.flatten) = 1 := by
  obtain ⟨_, hu, _⟩ := dataSetNormalization_ok hrun hmode
  rw [normUnits_ref, normStats_eq nan refValues procs hc h2, (find?_isSome_iff c _).2 hforces] at hu
  simp only [if_true, Except.ok.injEq, Prod.mk.injEq] at hu
  obtain ⟨e1, e2⟩ := normalizeAll_eq hc hconv
  have q1 : qEnergies refValues procs.flatten = refEnergies procs.flatten := rfl
  have q2 : qForces refValues procs.flatten = refForces procs.flatten := rfl
  rw [q1, q2] at hu
  have n1 : refEnergies procs.flatten ≠ [] := by
    intro h
    have := congrArg List.length h
    unfold refEnergies at this
    rw [List.length_map, List.length_nil] at this
    omega
  have n2 : refForces procs.flatten ≠ [] := by
    intro h
    have := qForces_ne_nil (q := refValues) hc (fun h => by rw [h] at h2; simp at h2)
    rw [q2, h] at this
    simp at this
  have p1 := lt_of_le_of_ne (listSigma_nonneg _) (Ne.symm hE)
  have p2 := lt_of_le_of_ne (listSigma_nonneg _) (Ne.symm hF)
  rw [e1, e2, listMean_affine_norm n1, listSigma_affine_norm n1, listSigma_affine_norm n2, ← hu.2]
  refine ⟨hu.1.symm, by simp, ?_, ?_⟩
  · simp only
    rw [abs_of_pos (by positivity), one_div, inv_mul_cancel₀ hE]
  · simp only
    rw [abs_of_pos (by positivity)]
    field_simp

example : ∃ r procs', dataSetNormalization 0 exText false (parseLines (exNormLines "ref" []))
      (exNormLines "ref" []) exNormProcs ⟨0, 1, 1, 1⟩ = .ok r ∧
    normalizeAll r.units exNormProcs = some procs' ∧ listSigma (refForces procs'.flatten) = 1 := by
  have hm : getValue (parseLines (exNormLines "ref" [])) "normalize_data_set".toList =
      .ok "ref".toList := by decide +kernel
  obtain ⟨r, hr⟩ := C90_runs 0 exText_sane (exNormLines "ref" []) exNormProcs ⟨0, 1, 1, 1⟩ hm (.inl rfl)
  obtain ⟨p, hp⟩ := exNorm_conv r.units
  exact ⟨r, p, hr, hp, (C90_ref hr hm ((find?_isSome_iff _ _).1 (by decide +kernel)) exNorm_counted
    le_rfl exNorm_energies exNorm_forces.1 hp).2.2.2⟩

/-- C90 (mode `ref`, training without forces): lengths keep their unit, energies as above. -/
theorem C90_ref_energies (hrun : dataSetNormalization nan N stage1 c lines procs old = .ok r)
    (hmode : getValue c "normalize_data_set".toList = .ok "ref".toList)
    (hforces : ¬ Present c "use_short_forces".toList)
    (hc : Counted procs.flatten) (h2 : 2 ≤ procs.flatten.length)
    (hE : listSigma (refEnergies procs.flatten) ≠ 0)
    (hconv : normalizeAll r.units procs = some procs') :
    r.normalize = true ∧ r.units.convLength = 1 ∧
    listMean (refEnergies procs'.flatten) = 0 ∧ listSigma (refEnergies procs'.flatten) = 1 := by
  obtain ⟨_, hu, _⟩ := dataSetNormalization_ok hrun hmode
  have hf : (c.find? "use_short_forces".toList).isSome = false := by
    rw [Bool.eq_false_iff]; exact fun h => hforces ((find?_isSome_iff c _).1 h)
  rw [normUnits_ref, normStats_eq nan refValues procs hc h2, hf] at hu
  simp only [Bool.false_eq_true, if_false, Except.ok.injEq, Prod.mk.injEq] at hu
  obtain ⟨e1, e2⟩ := normalizeAll_eq hc hconv
  have q1 : qEnergies refValues procs.flatten = refEnergies procs.flatten := rfl
  rw [q1] at hu
  have n1 : refEnergies procs.flatten ≠ [] := by
    intro h
    have := congrArg List.length h
    unfold refEnergies at this
    rw [List.length_map, List.length_nil] at this
    omega
  have p1 := lt_of_le_of_ne (listSigma_nonneg _) (Ne.symm hE)
  rw [e1, listMean_affine_norm n1, listSigma_affine_norm n1, ← hu.2]
  refine ⟨hu.1.symm, rfl, by simp, ?_⟩
  simp only
  rw [abs_of_pos (by positivity), one_div, inv_mul_cancel₀ hE]

example : ∃ r procs', dataSetNormalization 0 exText false (parseLines ["normalize_data_set ref".toList])
      [] exNormProcs ⟨0, 1, 1, 1⟩ = .ok r ∧
    normalizeAll r.units exNormProcs = some procs' ∧ listSigma (refEnergies procs'.flatten) = 1 := by
  have hm : getValue (parseLines ["normalize_data_set ref".toList]) "normalize_data_set".toList =
      .ok "ref".toList := by decide +kernel
  obtain ⟨r, hr⟩ := C90_runs 0 exText_sane [] exNormProcs ⟨0, 1, 1, 1⟩ hm (.inl rfl)
  obtain ⟨p, hp⟩ := exNorm_conv r.units
  exact ⟨r, p, hr, hp, (C90_ref_energies hr hm (fun h => absurd ((find?_isSome_iff _ _).2 h)
    (by decide +kernel)) exNorm_counted le_rfl exNorm_energies hp).2.2.2⟩

/-- C90 (mode `force`): the energies have mean 0, the components of the reference forces standard
deviation 1, and so have the components of the forces of the initial prediction, divided by the
conversion factor for lengths. (These are the forces predicted in the new unit of length,
`C90_predicted`.) -/
theorem C90_force (hrun : dataSetNormalization nan N stage1 c lines procs old = .ok r)
    (hmode : getValue c "normalize_data_set".toList = .ok "force".toList)
    (hc : Counted procs.flatten) (h2 : 2 ≤ procs.flatten.length)
    (hF : listSigma (refForces procs.flatten) ≠ 0) (hn : listSigma (nnpForces procs.flatten) ≠ 0)
    (hconv : normalizeAll r.units procs = some procs') :
    r.normalize = true ∧ Present c "use_short_forces".toList ∧
    listMean (refEnergies procs'.flatten) = 0 ∧ listSigma (refForces procs'.flatten) = 1 ∧
    listSigma ((nnpForces procs.flatten).map fun v => v / r.units.convLength) = 1 ∧
    r.units.convLength = listSigma (nnpForces procs.flatten) := by
  obtain ⟨_, hu, _⟩ := dataSetNormalization_ok hrun hmode
  rw [normUnits_force, normStats_eq nan refValues procs hc h2,
    normStats_eq nan nnpValues procs hc h2] at hu
  split at hu
  · rename_i hfo
    simp only [Except.ok.injEq, Prod.mk.injEq] at hu
    obtain ⟨e1, e2⟩ := normalizeAll_eq hc hconv
    have q1 : qEnergies refValues procs.flatten = refEnergies procs.flatten := rfl
    have q2 : qForces refValues procs.flatten = refForces procs.flatten := rfl
    have q3 : qForces nnpValues procs.flatten = nnpForces procs.flatten := rfl
    rw [q1, q2, q3] at hu
    have n0 : procs.flatten ≠ [] := fun h => by rw [h] at h2; simp at h2
    have n1 : refEnergies procs.flatten ≠ [] := by
      intro h
      have := congrArg List.length h
      unfold refEnergies at this
      rw [List.length_map, List.length_nil] at this
      omega
    have n2 : refForces procs.flatten ≠ [] := by
      intro h
      have := qForces_ne_nil (q := refValues) hc n0
      rw [q2, h] at this
      simp at this
    have n3 : nnpForces procs.flatten ≠ [] := by
      intro h
      have := qForces_ne_nil (q := nnpValues) hc n0
      rw [q3, h] at this
      simp at this
    have p2 := lt_of_le_of_ne (listSigma_nonneg _) (Ne.symm hF)
    have p3 := lt_of_le_of_ne (listSigma_nonneg _) (Ne.symm hn)
    have hdiv : (fun v : ℝ => v / r.units.convLength) =
        fun v => (v - 0) * (1 / r.units.convLength) := by
      funext v; ring
    rw [e1, e2, hdiv, listMean_affine_norm n1, listSigma_affine_norm n2, listSigma_affine_norm n3, ← hu.2]
    refine ⟨hu.1.symm, (find?_isSome_iff c _).1 hfo, by simp, ?_, ?_, rfl⟩
    · simp only
      rw [abs_of_pos (by positivity)]
      field_simp
    · simp only
      rw [abs_of_pos (by positivity), one_div, inv_mul_cancel₀ hn]
  · cases hu

example : ∃ r procs', dataSetNormalization 0 exText false (parseLines (exNormLines "force" []))
      (exNormLines "force" []) exNormProcs ⟨0, 1, 1, 1⟩ = .ok r ∧
    normalizeAll r.units exNormProcs = some procs' ∧ listSigma (refForces procs'.flatten) = 1 := by
  have hm : getValue (parseLines (exNormLines "force" [])) "normalize_data_set".toList =
      .ok "force".toList := by decide +kernel
  obtain ⟨r, hr⟩ := C90_runs 0 exText_sane (exNormLines "force" []) exNormProcs ⟨0, 1, 1, 1⟩ hm
    (.inr ⟨rfl, (find?_isSome_iff _ _).1 (by decide +kernel)⟩)
  obtain ⟨p, hp⟩ := exNorm_conv r.units
  exact ⟨r, p, hr, hp, (C90_force hr hm exNorm_counted le_rfl exNorm_forces.1 exNorm_forces.2
    hp).2.2.2.1⟩

/-- C90: no other mode is accepted, and `force` needs forces. -/
theorem C90_modes (hrun : dataSetNormalization nan N stage1 c lines procs old = .ok r) :
    stage1 = false ∧ ∃ mode, getValue c "normalize_data_set".toList = .ok mode ∧
      (mode = "stats-only".toList ∨ mode = "ref".toList ∨
        mode = "force".toList ∧ Present c "use_short_forces".toList) ∧
      (mode = "stats-only".toList → r.file = none ∧
        setupNormalization N c old = .ok (r.normalize, r.units)) := by
  cases hm : getValue c "normalize_data_set".toList with
  | error e =>
    unfold dataSetNormalization at hrun
    rw [exists_single (by decide +kernel), hm] at hrun
    simp only [NormErr.lift, bind, Except.bind] at hrun
    split at hrun <;> cases hrun
  | ok mode =>
    obtain ⟨h1, hu, hw⟩ := dataSetNormalization_ok hrun hm
    refine ⟨h1, mode, rfl, ?_, ?_⟩
    · unfold normUnits at hu
      split at hu
      · exact .inl ‹_›
      split at hu
      · exact .inr (.inl ‹_›)
      split at hu
      · split at hu
        · rename_i hf
          exact .inr (.inr ⟨‹_›, (find?_isSome_iff c _).1 hf⟩)
        · cases hu
      · cases hu
    · rintro rfl
      refine ⟨?_, hu⟩
      unfold normWrite at hw
      rw [if_pos rfl] at hw
      injection hw with hw
      exact hw.symm

example : getValue (parseLines (exNormLines "stats-only" [])) "normalize_data_set".toList =
    .ok "stats-only".toList ∧
    (dataSetNormalization 0 exText true (parseLines (exNormLines "ref" [])) [] exNormProcs
      ⟨0, 1, 1, 1⟩).isOk = false := by
  refine ⟨by decide +kernel, ?_⟩
  unfold dataSetNormalization
  rw [exists_single (by decide +kernel)]
  rfl

/-! ### The settings file -/

theorem exText_uncommented : exText.Uncommented := by
  intro x
  have h9 : ∀ n : Fin 10, '#' ≠ Char.ofNat (48 + n) ∧ '!' ≠ Char.ofNat (48 + n) := by decide
  have := h9 ⟨min 9 ⌊x⌋₊, by omega⟩
  exact ⟨fun h => this.1 (List.mem_singleton.1 h), fun h => this.2 (List.mem_singleton.1 h)⟩

/-- C90: a program reading the new settings file normalizes with the numbers written (as printed), gets
the same answers for all other keywords, and finds the same problems in the file. The old file had
either none of the three keywords or each of them once in a line beginning with it. -/
theorem C90_settings (hN : N.Sane) (hU : N.Uncommented) (hl : ∀ l ∈ lines, '\n' ∉ l)
    (hfile : WithoutNormalization lines ∨ WithNormalization lines)
    (hrun : dataSetNormalization nan N stage1 (parseLines lines) lines procs old = .ok r) {mode : Str}
    (hmode : getValue (parseLines lines) "normalize_data_set".toList = .ok mode)
    (hm : mode ≠ "stats-only".toList) (u : ModeUnits) :
    ∃ text q, r.file = some text ∧
      setupNormalization N (parseLines (readLines text)) u = .ok (true,
        ⟨N.rounded r.units.meanEnergy, N.rounded r.units.convEnergy, N.rounded r.units.convLength, q⟩) ∧
      (¬ Present (parseLines lines) "conv_charge".toList → q = u.convCharge) ∧
      (∀ v, getValue (parseLines lines) "conv_charge".toList = .ok v → q = N.atof v) ∧
      (∀ kw ∉ normKeywords, SameAnswers (parseLines (readLines text)) (parseLines lines) kw) ∧
      sanityCheck (parseLines (readLines text)) = sanityCheck (parseLines lines) := by
  obtain ⟨_, hu, hw⟩ := dataSetNormalization_ok hrun hmode
  have hmean : (normStats nan refValues procs).meanEnergy = r.units.meanEnergy := by
    unfold normUnits at hu
    rw [if_neg hm] at hu
    split at hu
    · simp only [Except.ok.injEq, Prod.mk.injEq] at hu; rw [← hu.2]
    split at hu
    · split at hu
      · simp only [Except.ok.injEq, Prod.mk.injEq] at hu; rw [← hu.2]
      · cases hu
    · cases hu
  rw [hmean] at hw
  have ht := normWrite_file hm hw
  have T := normTexts_of hN hU r.units.meanEnergy r.units.convEnergy r.units.convLength
  have hread := T.read hl
  have hkv := kvList_parseLines (newLines (normLine N "mean_energy" r.units.meanEnergy)
    (normLine N "conv_energy" r.units.convEnergy) (normLine N "conv_length" r.units.convLength) lines)
  have hother := T.filter_other lines
  rw [← hkv, ← kvList_parseLines lines] at hother
  have hval : ∀ kw ∈ normKeywords, ((parseLines (newLines
      (normLine N "mean_energy" r.units.meanEnergy) (normLine N "conv_energy" r.units.convEnergy)
      (normLine N "conv_length" r.units.convLength) lines)).range kw).map (·.value) =
      [normOf (N.print r.units.meanEnergy) (N.print r.units.convEnergy)
        (N.print r.units.convLength) kw] := by
    intro kw hk
    rw [range_values, hkv]
    rcases hfile with hf | hf
    · rw [T.filter_without hf hk]; rfl
    · obtain ⟨b, l, a, h1, h2, h3⟩ := hf kw hk
      rw [T.filter_with hk h1 h2 h3]; rfl
  have hcount : ∀ k ∈ normKeywords, Contents.count (parseLines lines) k ≤ 1 := by
    intro kw hk
    rw [count_values, range_values, List.length_map, kvList_parseLines]
    rcases hfile with hf | hf
    · rw [filter_key_nil (not_present_iff.1 (hf kw hk))]; simp
    · obtain ⟨b, l, a, h1, h2, h3⟩ := hf kw hk
      have h3' := not_present_iff.1 h3
      obtain ⟨v, hv⟩ := kvLine_beginsWith hk h2
      rw [h1, List.filterMap_append, List.filterMap_cons, hv, List.filter_append]
      simp only [List.filter_cons, BEq.rfl, if_true]
      rw [filter_key_nil fun x hx => h3' x (List.mem_append_left _ hx),
        filter_key_nil fun x hx => h3' x (List.mem_append_right _ hx)]
      simp
  obtain ⟨q, hq, hset⟩ := setupNormalization_read N u hval
  refine ⟨_, q, ht, ?_, ?_, ?_, ?_, ?_⟩
  · rw [hread]; exact hset
  · intro hno
    unfold normCharge at hq
    have hsame := (sameAnswers_other hother (kw := "conv_charge".toList) (by decide)).1
    rw [hsame, exists_single (by decide +kernel)] at hq
    have : ((parseLines lines).find? "conv_charge".toList).isSome = false := by
      rw [Bool.eq_false_iff]; exact fun h => hno ((find?_isSome_iff _ _).1 h)
    rw [this] at hq
    simp only [NormErr.lift, bind, Except.bind, Bool.false_eq_true, if_false, pure, Except.pure,
      Except.ok.injEq] at hq
    exact hq.symm
  · intro v hv
    obtain ⟨s1, s2, -⟩ := sameAnswers_other hother (kw := "conv_charge".toList) (by decide)
    have hex : keywordExists (parseLines lines) "conv_charge".toList = .ok true := by
      unfold getValue keywordCheck at hv
      rw [exists_single (by decide +kernel)] at hv ⊢
      cases hx : ((parseLines lines).find? "conv_charge".toList).isSome with
      | true => rfl
      | false => rw [hx] at hv; cases hv
    unfold normCharge at hq
    rw [s1, hex, s2, hv] at hq
    simp only [NormErr.lift, bind, Except.bind, if_true, pure, Except.pure, Except.ok.injEq] at hq
    exact hq.symm
  · intro kw hk
    rw [hread]
    exact sameAnswers_other hother hk
  · rw [hread]
    refine sanityCheck_other hother hcount fun k hk => ?_
    rw [count_values, hval k hk]
    simp

example : ∃ r text, dataSetNormalization 0 exText false (parseLines (exNormLines "ref" []))
      (exNormLines "ref" []) exNormProcs ⟨0, 1, 1, 1⟩ = .ok r ∧ r.file = some text ∧
    getValue (parseLines (readLines text)) "normalize_data_set".toList = .ok "ref".toList := by
  have hm : getValue (parseLines (exNormLines "ref" [])) "normalize_data_set".toList =
      .ok "ref".toList := by decide +kernel
  obtain ⟨r, hr⟩ := C90_runs 0 exText_sane (exNormLines "ref" []) exNormProcs ⟨0, 1, 1, 1⟩ hm (.inl rfl)
  obtain ⟨text, q, h1, -, -, -, h4, -⟩ := C90_settings exText_sane exText_uncommented
    (by decide +kernel) (.inl (fun kw hk h => by
      unfold normKeywords at hk
      simp only [List.mem_cons, List.not_mem_nil, or_false] at hk
      rcases hk with rfl | rfl | rfl <;>
        exact absurd ((find?_isSome_iff _ _).2 h) (by decide +kernel))) hr hm (by decide) ⟨0, 1, 1, 1⟩
  exact ⟨r, text, hr, h1, (h4 _ (by decide)).2.1.trans hm⟩

/-- A file with all three keywords. -/
example : WithNormalization (exNormLines "ref" ["mean_energy 1 # old", "conv_length 2", "conv_energy"]) := by
  intro kw hk
  unfold normKeywords at hk
  simp only [List.mem_cons, List.not_mem_nil, or_false] at hk
  rcases hk with rfl | rfl | rfl
  · exact ⟨["normalize_data_set ref".toList, "use_short_forces".toList], "mean_energy 1 # old".toList,
      ["conv_length 2".toList, "conv_energy".toList], by decide, .inr ⟨"1 # old".toList, by decide⟩,
      fun h => absurd ((find?_isSome_iff _ _).2 h) (by decide +kernel)⟩
  · exact ⟨["normalize_data_set ref".toList, "use_short_forces".toList,
      "mean_energy 1 # old".toList, "conv_length 2".toList], "conv_energy".toList,
      [], by decide, .inl rfl,
      fun h => absurd ((find?_isSome_iff _ _).2 h) (by decide +kernel)⟩
  · exact ⟨["normalize_data_set ref".toList, "use_short_forces".toList,
      "mean_energy 1 # old".toList], "conv_length 2".toList, ["conv_energy".toList],
      by decide, .inr ⟨"2".toList, by decide⟩,
      fun h => absurd ((find?_isSome_iff _ _).2 h) (by decide +kernel)⟩

/-- C90 does not hold if the file defines only some of the three keywords: the others are not added,
and the next program that reads the file refuses it. -/
theorem C90_some_keywords (hN : N.Sane) (hU : N.Uncommented) (hl : ∀ l ∈ lines, '\n' ∉ l)
    {l kw kw' : Str} (hk : kw ∈ normKeywords) (hin : l ∈ lines) (hb : BeginsWith kw l)
    (hk' : kw' ∈ normKeywords) (hno : ¬ Present (parseLines lines) kw')
    (hrun : dataSetNormalization nan N stage1 (parseLines lines) lines procs old = .ok r) {mode : Str}
    (hmode : getValue (parseLines lines) "normalize_data_set".toList = .ok mode)
    (hm : mode ≠ "stats-only".toList) (u : ModeUnits) :
    ∃ text, r.file = some text ∧
      setupNormalization N (parseLines (readLines text)) u = .error .usage := by
  obtain ⟨_, hu, hw⟩ := dataSetNormalization_ok hrun hmode
  have ht := normWrite_file hm hw
  have T := normTexts_of hN hU (normStats nan refValues procs).meanEnergy r.units.convEnergy
    r.units.convLength
  have hread := T.read hl
  refine ⟨_, ht, ?_⟩
  rw [hread]
  generalize hn1 : normLine N "mean_energy" (normStats nan refValues procs).meanEnergy = n1 at T ⊢
  generalize hn2 : normLine N "conv_energy" r.units.convEnergy = n2 at T ⊢
  generalize hn3 : normLine N "conv_length" r.units.convLength = n3 at T ⊢
  have hne : (lines.filterMap (normReplace n1 n2 n3)).isEmpty = false := by
    rw [Bool.eq_false_iff]
    intro h
    rw [List.isEmpty_iff, List.filterMap_eq_nil_iff] at h
    have := h l hin
    rw [(normReplace_iff n1 n2 n3 l _).2 ⟨kw, hk, hb, rfl⟩] at this
    cases this
  have hnl : newLines n1 n2 n3 lines = lines.map fun l => (normReplace n1 n2 n3 l).getD l := by
    unfold newLines
    rw [hne]
    rfl
  have hP : ∀ k, Present (parseLines (newLines n1 n2 n3 lines)) k ↔ Present (parseLines lines) k := by
    intro k
    rw [← not_iff_not, not_present_iff, not_present_iff, hnl]
    constructor
    · intro h x hx
      rw [← T.key x]
      exact h _ (List.mem_map.2 ⟨x, hx, rfl⟩)
    · intro h x hx
      obtain ⟨y, hy, rfl⟩ := List.mem_map.1 hx
      rw [T.key y]
      exact h y hy
  have hpk : Present (parseLines lines) kw := by
    by_contra h
    obtain ⟨v, hv⟩ := kvLine_beginsWith hk hb
    exact not_present_iff.1 h l hin (by rw [hv]; rfl)
  have hs : ∀ k, ((parseLines (newLines n1 n2 n3 lines)).find? k).isSome = true ↔
      Present (parseLines lines) k := fun k => (find?_isSome_iff _ _).trans (hP k)
  have g1 := hs "mean_energy".toList
  have g2 := hs "conv_energy".toList
  have g3 := hs "conv_length".toList
  unfold setupNormalization
  rw [exists_single (by decide +kernel), exists_single (by decide +kernel),
    exists_single (by decide +kernel), exists_single (by decide +kernel)]
  simp only [NormErr.lift, bind, Except.bind]
  generalize ((parseLines (newLines n1 n2 n3 lines)).find? "mean_energy".toList).isSome = m at g1 ⊢
  generalize ((parseLines (newLines n1 n2 n3 lines)).find? "conv_energy".toList).isSome = e at g2 ⊢
  generalize ((parseLines (newLines n1 n2 n3 lines)).find? "conv_length".toList).isSome = d at g3 ⊢
  have hnot : (m && e && d) = false := by
    rw [Bool.eq_false_iff]
    intro h
    simp only [Bool.and_eq_true] at h
    unfold normKeywords at hk'
    simp only [List.mem_cons, List.not_mem_nil, or_false] at hk'
    rcases hk' with rfl | rfl | rfl
    · exact hno (g1.1 h.1.1)
    · exact hno (g2.1 h.1.2)
    · exact hno (g3.1 h.2)
  have hsome : (!m && !e && !d) = false := by
    rw [Bool.eq_false_iff]
    intro h
    simp only [Bool.and_eq_true, Bool.not_eq_true'] at h
    unfold normKeywords at hk
    simp only [List.mem_cons, List.not_mem_nil, or_false] at hk
    rcases hk with rfl | rfl | rfl
    · rw [g1.2 hpk] at h; simp at h
    · rw [g2.2 hpk] at h; simp at h
    · rw [g3.2 hpk] at h; simp at h
  rw [hnot, hsome]
  rfl

example : ∃ r text, dataSetNormalization 0 exText false
      (parseLines (exNormLines "ref" ["conv_energy 1"])) (exNormLines "ref" ["conv_energy 1"])
      exNormProcs ⟨0, 1, 1, 1⟩ = .ok r ∧ r.file = some text ∧
    setupNormalization exText (parseLines (readLines text)) ⟨0, 1, 1, 1⟩ = .error .usage := by
  have hm : getValue (parseLines (exNormLines "ref" ["conv_energy 1"]))
      "normalize_data_set".toList = .ok "ref".toList := by decide +kernel
  obtain ⟨r, hr⟩ := C90_runs 0 exText_sane (exNormLines "ref" ["conv_energy 1"]) exNormProcs
    ⟨0, 1, 1, 1⟩ hm (.inl rfl)
  obtain ⟨text, h1, h2⟩ := C90_some_keywords (l := "conv_energy 1".toList)
    (kw := "conv_energy".toList) (kw' := "mean_energy".toList) exText_sane exText_uncommented
    (by decide +kernel) (by decide) (by decide) (.inr ⟨"1".toList, by decide⟩) (by decide)
    (fun h => absurd ((find?_isSome_iff _ _).2 h) (by decide +kernel)) hr hm (by decide) ⟨0, 1, 1, 1⟩
  exact ⟨r, text, hr, h1, h2⟩

/-- C90 does not hold if the keywords stand in lines that do not begin with them (indented lines, a tab
behind the keyword): the lines are not replaced, the keywords are defined a second time, and every
program that reads the new file stops with a critical problem. -/
theorem C90_indented (hN : N.Sane) (hU : N.Uncommented) (hl : ∀ l ∈ lines, '\n' ∉ l)
    (hb : ∀ k ∈ normKeywords, ∀ l ∈ lines, ¬ BeginsWith k l)
    {kw : Str} (hk : kw ∈ normKeywords) (hin : Present (parseLines lines) kw)
    (hrun : dataSetNormalization nan N stage1 (parseLines lines) lines procs old = .ok r) {mode : Str}
    (hmode : getValue (parseLines lines) "normalize_data_set".toList = .ok mode)
    (hm : mode ≠ "stats-only".toList) :
    ∃ text, r.file = some text ∧ (sanityCheck (parseLines (readLines text))).2 ≠ 0 := by
  obtain ⟨_, hu, hw⟩ := dataSetNormalization_ok hrun hmode
  have ht := normWrite_file hm hw
  have T := normTexts_of hN hU (normStats nan refValues procs).meanEnergy r.units.convEnergy
    r.units.convLength
  have hread := T.read hl
  refine ⟨_, ht, ?_⟩
  rw [hread]
  generalize hn1 : normLine N "mean_energy" (normStats nan refValues procs).meanEnergy = n1 at T ⊢
  generalize hn2 : normLine N "conv_energy" r.units.convEnergy = n2 at T ⊢
  generalize hn3 : normLine N "conv_length" r.units.convLength = n3 at T ⊢
  have hnone : ∀ l ∈ lines, normReplace n1 n2 n3 l = none := by
    intro l hl'
    cases hr : normReplace n1 n2 n3 l with
    | none => rfl
    | some x =>
      obtain ⟨k, hkk, hbk, _⟩ := (normReplace_iff n1 n2 n3 l x).1 hr
      exact absurd hbk (hb k hkk l hl')
  have hmap : lines.map (fun l => (normReplace n1 n2 n3 l).getD l) = lines := by
    conv_rhs => rw [← List.map_id lines]
    refine List.map_congr_left fun l hl' => ?_
    rw [hnone l hl']; rfl
  have hnl : newLines n1 n2 n3 lines = normHeader n1 n2 n3 ++ lines := by
    unfold newLines
    rw [List.filterMap_eq_nil_iff.2 hnone, hmap]
    rfl
  intro h0
  have := ((C07_no_critical_iff _).1 h0).1 kw ?_ (normKeyword_word kw hk).2.2.2.2.2.2
  · rw [count_values, range_values, List.length_map, kvList_parseLines, hnl, List.filterMap_append,
      T.header_kv, List.filter_append, List.length_append] at this
    have h1 : 1 ≤ (List.filter (fun p => p.1 == kw) [("mean_energy".toList, N.print
        (normStats nan refValues procs).meanEnergy), ("conv_energy".toList, N.print
        r.units.convEnergy), ("conv_length".toList, N.print r.units.convLength)]).length := by
      unfold normKeywords at hk
      simp only [List.mem_cons, List.not_mem_nil, or_false] at hk
      rcases hk with rfl | rfl | rfl <;> exact le_refl 1
    have h2 : 1 ≤ (List.filter (fun p => p.1 == kw) (lines.filterMap kvLine)).length := by
      obtain ⟨v, hv⟩ := (present_kv _ _).1 hin
      rw [kvList_parseLines] at hv
      exact List.length_pos_of_mem (List.mem_filter.2 ⟨hv, by simp⟩)
    exact absurd (le_trans (Nat.add_le_add h1 h2) this) (by omega)
  · have : ∀ k ∈ normKeywords, k ∈ knownSpellings := by decide +kernel
    exact this kw hk

example : ∃ r text, dataSetNormalization 0 exText false
      (parseLines (exNormLines "ref" ["conv_energy\t1"])) (exNormLines "ref" ["conv_energy\t1"])
      exNormProcs ⟨0, 1, 1, 1⟩ = .ok r ∧ r.file = some text ∧
    (sanityCheck (parseLines (readLines text))).2 ≠ 0 := by
  have hm : getValue (parseLines (exNormLines "ref" ["conv_energy\t1"]))
      "normalize_data_set".toList = .ok "ref".toList := by decide +kernel
  obtain ⟨r, hr⟩ := C90_runs 0 exText_sane (exNormLines "ref" ["conv_energy\t1"]) exNormProcs
    ⟨0, 1, 1, 1⟩ hm (.inl rfl)
  obtain ⟨text, h1, h2⟩ := C90_indented (kw := "conv_energy".toList) exText_sane exText_uncommented
    (by decide +kernel) (by
      intro k hk l hl hb
      have h := (takeWhile_beginsWith (normKeyword_word k hk).2.1).2 hb
      have key : ∀ k ∈ normKeywords, ∀ l ∈ exNormLines "ref" ["conv_energy\t1"],
          l.takeWhile (· != ' ') ≠ k := by decide +kernel
      exact key k hk l hl h) (by decide)
    ((find?_isSome_iff _ _).1 (by decide +kernel)) hr hm (by decide)
  exact ⟨r, text, hr, h1, h2⟩

/-- C90 does not hold for charges: a conversion factor in the settings file is not used in the training
that computes the normalization, but by every program that reads the file later. -/
theorem C90_charge (hN : N.Sane) (hU : N.Uncommented) (hl : ∀ l ∈ lines, '\n' ∉ l)
    (hfile : WithoutNormalization lines ∨ WithNormalization lines)
    (hrun : dataSetNormalization nan N stage1 (parseLines lines) lines procs old = .ok r) {mode v : Str}
    (hmode : getValue (parseLines lines) "normalize_data_set".toList = .ok mode)
    (hm : mode ≠ "stats-only".toList)
    (hq : getValue (parseLines lines) "conv_charge".toList = .ok v) (u : ModeUnits) :
    r.units.convCharge = old.convCharge ∧ ∃ text w, r.file = some text ∧
      setupNormalization N (parseLines (readLines text)) u = .ok (true, w) ∧
      w.convCharge = N.atof v := by
  obtain ⟨_, hu, hw⟩ := dataSetNormalization_ok hrun hmode
  refine ⟨?_, ?_⟩
  · unfold normUnits at hu
    rw [if_neg hm] at hu
    split at hu
    · simp only [Except.ok.injEq, Prod.mk.injEq] at hu; rw [← hu.2]
    split at hu
    · split at hu
      · simp only [Except.ok.injEq, Prod.mk.injEq] at hu; rw [← hu.2]
      · cases hu
    · cases hu
  · obtain ⟨text, q, h1, h2, -, h3, -⟩ := C90_settings hN hU hl hfile hrun hmode hm u
    exact ⟨text, _, h1, h2, h3 v hq⟩

example : ∃ r text w, dataSetNormalization 0 exText false
      (parseLines (exNormLines "ref" ["conv_charge 2"])) (exNormLines "ref" ["conv_charge 2"])
      exNormProcs ⟨0, 1, 1, 1⟩ = .ok r ∧ r.file = some text ∧
    setupNormalization exText (parseLines (readLines text)) ⟨0, 1, 1, 1⟩ = .ok (true, w) ∧
    r.units.convCharge = 1 ∧ w.convCharge = exText.atof "2".toList := by
  have hm : getValue (parseLines (exNormLines "ref" ["conv_charge 2"]))
      "normalize_data_set".toList = .ok "ref".toList := by decide +kernel
  obtain ⟨r, hr⟩ := C90_runs 0 exText_sane (exNormLines "ref" ["conv_charge 2"]) exNormProcs
    ⟨0, 1, 1, 1⟩ hm (.inl rfl)
  obtain ⟨h0, text, w, h1, h2, h3⟩ := C90_charge exText_sane exText_uncommented
    (by decide +kernel) (.inl (fun kw hk h => by
      unfold normKeywords at hk
      simp only [List.mem_cons, List.not_mem_nil, or_false] at hk
      rcases hk with rfl | rfl | rfl <;>
        exact absurd ((find?_isSome_iff _ _).2 h) (by decide +kernel))) hr hm (by decide)
    (v := "2".toList) (by decide +kernel) ⟨0, 1, 1, 1⟩
  exact ⟨r, text, w, hr, h1, h2, h0, h3⟩

end N2P2
