import Verif.Lemma.CabanaExample

/-! Settings with one element, a radial and a narrow angular function. -/

namespace N2P2

/-- Only the element H. -/
noncomputable def exOne : SFEnv :=
  { exEnv with numElements := 1, element := fun s => if s = ['H'] then some 0 else none }

noncomputable def exOneRad : SymFnc :=
  { SymFnc.create exOne .ExpRad with e1 := 0, eta := 1, rs := 0, rc := 3, fc := mkCutoff .HARD 3 0 }

theorem exOneRad_line (Ss : List SymFnc) :
    addSymmetryFunction exOne Ss (exRadLine ['H']) = some (Ss ++ [exOneRad]) := by
  have a : exOne.atoi ['2'] = 2 := rfl
  have b : exOne.atof ['3'] = 3 := by simp [exOne, exEnv, exDigits]
  have c : exOne.atof ['1'] = 1 := by simp [exOne, exEnv, exDigits]
  have d : exOne.atof ['0'] = 0 := by simp [exOne, exEnv, exDigits]
  have f : exOne.element ['H'] = some 0 := rfl
  unfold addSymmetryFunction
  simp [exRadLine, a, SFKind.ofNumber, SymFnc.setParameters, SymFnc.create, SFKind.number, b, c, d,
    f, SFEnv.elem, SFEnv.num, SymFnc.setEc, resetCutoff_some, CutoffFunction.init, exOneRad,
    mkCutoff, coreOfCutoff]

theorem exOneRad_final (i : ℕ) :
    (exOneRad.setIndex i).setCutoffFunction .COS 0 = some (exFinal i exOneRad) := by
  have : ((mkCutoff .HARD 3 0).setCutoffType .COS).setCutoffParameter 0 =
      some (mkCutoff .COS 3 0) := by
    unfold CutoffFunction.setCutoffParameter
    rw [if_neg (by norm_num)]
    norm_num [mkCutoff, CutoffFunction.setCutoffType, coreOfCutoff]
  simp [exOneRad, SymFnc.create, SymFnc.setCutoffFunction, SymFnc.setIndex, this, exFinal]
  rfl

/-- `H 3 H H 1 1 1 3`: narrow angular function. -/
def exOneNarLine : List Str := [['H'], ['3'], ['H'], ['H'], ['1'], ['1'], ['1'], ['3']]

noncomputable def exOneNar : SymFnc :=
  { SymFnc.create exOne .ExpAngn with
    e1 := 0, e2 := 0, eta := 1, lambda := 1, zeta := 1, zetaInt := 1, useIntegerPow := true,
    rs := 0, rc := 3, fc := mkCutoff .HARD 3 0 }

theorem exOneNar_line (Ss : List SymFnc) :
    addSymmetryFunction exOne Ss exOneNarLine = some (Ss ++ [exOneNar]) := by
  have a : exOne.atoi ['3'] = 3 := rfl
  have b : exOne.atof ['3'] = 3 := by simp [exOne, exEnv, exDigits]
  have c : exOne.atof ['1'] = 1 := by simp [exOne, exEnv, exDigits]
  have f : exOne.element ['H'] = some 0 := rfl
  have z : 0 ≤ DBL_MIN := by unfold DBL_MIN; positivity
  unfold addSymmetryFunction
  simp [exOneNarLine, a, SFKind.ofNumber, SymFnc.setParameters, SymFnc.create,
    SFKind.number, b, c, f, SFEnv.elem, SFEnv.num, SymFnc.setEc, resetCutoff_some,
    CutoffFunction.init, exOneNar, mkCutoff, coreOfCutoff, SymFnc.orderElements, SymFnc.setZetaInt,
    roundInt_one, z]

theorem exOneNar_final (i : ℕ) :
    (exOneNar.setIndex i).setCutoffFunction .COS 0 = some (exFinal i exOneNar) := by
  have : ((mkCutoff .HARD 3 0).setCutoffType .COS).setCutoffParameter 0 =
      some (mkCutoff .COS 3 0) := by
    unfold CutoffFunction.setCutoffParameter
    rw [if_neg (by norm_num)]
    norm_num [mkCutoff, CutoffFunction.setCutoffType, coreOfCutoff]
  simp [exOneNar, SymFnc.create, SymFnc.setCutoffFunction, SymFnc.setIndex, this, exFinal]
  rfl

theorem exOneNarrow_setup :
    SetupSymmetryFunctions exOne [exOneNarLine, exRadLine ['H']] none .COS 0
      [exFinal 0 (exOneRad), exFinal 1 exOneNar] := by
  refine ⟨[exOneNar, exOneRad], [exOneNar, exOneRad], _, ?_, rfl,
    ⟨[exOneRad, exOneNar], List.Perm.swap _ _ _, ?_, rfl⟩, ?_⟩
  · simp [exOneRad_line, exOneNar_line]
  · simp [SymFnc.lt, SymFnc.lexStep, exOneNar, exOneRad, SymFnc.create, SFKind.number]
  · simp [exOneRad_final, exOneNar_final]

theorem exOneNarrow_element (net : NeuralNetwork) :
    ∃ e : ElementData, SetupElement exOne [exOneNarLine, exRadLine ['H']] none .COS 0
      (.lines .scaleCenter (exShare 0) 0 1) e ∧ e.net = net ∧ e.symmetryFunctions.length = 2 ∧
      (∀ S ∈ e.symmetryFunctions, S.Sensible ∧ (S.kind = .ExpAngn → 0 ≤ S.rs ∧ S.lambda ≠ 0) ∧
        S.fc.cutoffType = .COS ∧ (S.IsAng → 1 ≤ S.zeta ∧ |S.lambda| ≤ 1)) ∧
      ∃ S ∈ e.symmetryFunctions, S.kind = .ExpAngn := by
  have hm : (setupSymmetryFunctionMemory 1 [exFinal 0 (exOneRad), exFinal 1 exOneNar]).2 =
      [{ exFinal 0 (exOneRad) with indexPerElement := [0] },
        { exFinal 1 exOneNar with indexPerElement := [1] }] := rfl
  obtain ⟨D, hD, -⟩ := setupCache_spec (E := exOne)
    (Ss := (setupSymmetryFunctionMemory 1 [exFinal 0 (exOneRad), exFinal 1 exOneNar]).2) (by
      rw [hm]
      intro k S hS
      match k with
      | 0 => obtain rfl := Option.some.inj hS; rfl
      | 1 => obtain rfl := Option.some.inj hS; rfl
      | k + 2 => simp at hS) (by
      rw [hm]
      intro S hS
      simp only [List.mem_cons, List.not_mem_nil, or_false] at hS
      rcases hS with rfl | rfl <;> rfl) (by
      rw [hm]
      intro S hS id hid
      have e : exOne.numElements = 1 := rfl
      simp only [List.mem_cons, List.not_mem_nil, or_false] at hS
      rcases hS with rfl | rfl
      · simp [SymFnc.getCacheIdentifiers, exFinal, exOneRad, SymFnc.create, SymFnc.setIndex] at hid
        rcases hid with rfl | rfl <;> simp [e]
      · simp [SymFnc.getCacheIdentifiers, exFinal, exOneNar, SymFnc.create, SymFnc.setIndex] at hid
        rcases hid with rfl | rfl | rfl | rfl <;> simp [e])
  obtain ⟨A, B, hAB, hA, hB⟩ : ∃ A B : SymFnc,
      setScaling (.lines .scaleCenter (exShare 0) 0 1) (withCaches exOne.numElements
        (setupSymmetryFunctionMemory 1 [exFinal 0 (exOneRad), exFinal 1 exOneNar]).2 D) =
        some [A, B] ∧ (A.kind = .ExpRad ∧ A.rc = 3 ∧ A.fc.cutoffType = .COS) ∧
        (B.kind = .ExpAngn ∧ B.rc = 3 ∧ B.rs = 0 ∧ B.zeta = 1 ∧ B.lambda = 1 ∧
          B.fc.cutoffType = .COS) := by
    rw [hm]
    unfold setScaling withCaches
    simp only [List.mapIdx_cons, List.mapIdx_nil, List.zipIdx_cons, List.zipIdx_nil,
      List.mapM_cons, List.mapM_nil, ScalingSetup.line, ScalingSetup.args, exShare, if_true]
    have i0 : (exFinal 0 (exOneRad)).sc.index = 0 := rfl
    have i1 : (exFinal 1 exOneNar).sc.index = 1 := rfl
    simp only [setScalingType, i0, i1, Option.bind_eq_bind, List.getElem?_cons_zero,
      List.getElem?_cons_succ, Option.bind_some]
    norm_num
    refine ⟨_, _, ⟨rfl, rfl⟩, ⟨rfl, rfl, rfl⟩, rfl, rfl, rfl, rfl, rfl, rfl⟩
  refine ⟨⟨[A, B], _, _, net⟩, ⟨_, _, exOneNarrow_setup, rfl, hD, hAB⟩, rfl, rfl, ?_, B, by simp, hB.1⟩
  intro S hS
  simp only [List.mem_cons, List.not_mem_nil, or_false] at hS
  rcases hS with rfl | rfl
  · refine ⟨⟨by rw [hA.2.1]; norm_num, fun _ h => ?_⟩, fun h => ?_, hA.2.2, fun h => ?_⟩
    · simp [SymFnc.IsAng, hA.1] at h
    · rw [hA.1] at h; cases h
    · simp [SymFnc.IsAng, hA.1] at h
  · obtain ⟨b1, b2, b3, b4, b5, b6⟩ := hB
    refine ⟨⟨by rw [b2]; norm_num, fun _ _ => ?_⟩, fun _ => ?_, b6, fun _ => ?_⟩
    · rw [b4, roundInt_one]
      norm_num
    · rw [b3, b5]
      norm_num
    · rw [b4, b5]
      norm_num

theorem exOne_names : exOne.Names [['H']] := by
  intro s k
  simp only [exOne]
  match k with
  | 0 => split_ifs with h <;> simp [h, eq_comm]
  | k + 1 => split_ifs <;> simp

theorem exOne_settings (net : NeuralNetwork) :
    ∃ e, SameSettings exOne [['H']] [exOneNarLine, exRadLine ['H']] none .COS 0 .scaleCenter
      exShare 0 1 [e] ∧ e.symmetryFunctions.length = 2 ∧
      (∀ S ∈ e.symmetryFunctions, S.Sensible ∧
        (S.kind = .ExpAngn → 0 ≤ S.rs ∧ S.lambda ≠ 0) ∧
        S.fc.cutoffType = .COS ∧ (S.IsAng → 1 ≤ S.zeta ∧ |S.lambda| ≤ 1)) ∧
      ∃ S ∈ e.symmetryFunctions, S.kind = .ExpAngn := by
  obtain ⟨e0, h1, h2, h3, h4, S, h5, h6⟩ := exOneNarrow_element net
  have hH : exOne.element ['H'] = some 0 := rfl
  refine ⟨e0, ⟨exOne_names, by simp, rfl, ?_, ?_, ?_⟩, h3, h4, S, h5, h6⟩
  · intro tok htok
    simp only [List.mem_cons, List.not_mem_nil, or_false] at htok
    rcases htok with rfl | rfl
    · exact ⟨_, rfl, .inr rfl⟩
    · exact ⟨_, rfl, .inl rfl⟩
  · intro tok htok
    simp only [List.mem_cons, List.not_mem_nil, or_false] at htok
    rcases htok with rfl | rfl <;> exact ⟨0, rfl⟩
  · intro k e he
    have hl : elementLines exOne [exOneNarLine, exRadLine ['H']] 0 =
        [exOneNarLine, exRadLine ['H']] := by
      simp [elementLines, exOneNarLine, exRadLine, hH]
    match k with
    | 0 =>
      obtain rfl := Option.some.inj he
      rw [hl]
      exact ⟨h1, by rw [h3]; simp [exShare]⟩
    | k + 1 => simp at he

/-- Three atoms, each with the others as neighbours. -/
noncomputable def exTriad : CabanaAtoms where
  x p := ![p, p * p, 0]
  type _ := 0
  nLocal := 3
  neigh i := (List.range 3).filter fun j => j ≠ i

theorem exTriad_regular (P : Potential) (u : ℝ) (hu : 0 < u) (hP : ∀ S ∈ P.functions 0,
    S.fc.cutoffType = .COS ∧ (S.IsAng → 1 ≤ S.zeta ∧ |S.lambda| ≤ 1)) :
    exTriad.Regular P u 3 1 := by
  have hpos : ∀ w : Vec3, w 0 ≠ 0 → 0 < w.norm := by
    intro w hw
    rw [norm_eq]
    refine Real.sqrt_pos.2 ?_
    unfold Vec3.norm2
    have := mul_self_pos.2 hw
    nlinarith [mul_self_nonneg (w 1), mul_self_nonneg (w 2)]
  refine ⟨le_rfl, fun _ _ => Nat.zero_lt_one, ?_, ?_, ?_⟩
  · intro i _ j hj
    have := List.mem_of_mem_filter hj
    exact List.mem_range.1 this
  · intro i _ y hy
    obtain ⟨j, hj, rfl⟩ := List.mem_map.1 hy
    have hne : j ≠ i := by simpa using (List.mem_filter.1 hj).2
    apply hpos
    have h : (i : ℝ) - j ≠ 0 := sub_ne_zero.2 (by exact_mod_cast hne.symm)
    simpa [exTriad] using ⟨hu.ne', h⟩
  · intro i _ S hS
    obtain ⟨h1, h2⟩ := hP S hS
    refine ⟨fun _ h => ?_, fun _ => ?_, fun _ ha => Or.inr (Or.inl (h2 ha))⟩
    · rw [h1] at h; cases h
    · have hn : (exTriad.neigh i).Nodup := List.Nodup.filter _ List.nodup_range
      refine List.pairwise_map.2 (List.Pairwise.imp ?_ hn)
      intro j k hjk
      apply hpos
      have h : (j : ℝ) ≠ k := by exact_mod_cast hjk
      have : (⟨exTriad.type j, fun c => u * (exTriad.x i c - exTriad.x j c)⟩ : Site).dr 0
        - (⟨exTriad.type k, fun c => u * (exTriad.x i c - exTriad.x k c)⟩ : Site).dr 0
        = u * (k - j) := by
        simp [exTriad]; ring
      simp only [Pi.sub_apply]
      rw [this]
      exact mul_ne_zero hu.ne' (sub_ne_zero.2 h.symm)

end N2P2
