import Verif.Spec.Cabana
import Verif.Lemma.ModeExample

/-! Settings which the CabanaMD interface understands: a radial and a narrow angular function of H,
given in the wrong order, and none of O. -/

namespace N2P2

/-- `H 3 H O 1 1 1 3`: narrow angular function. -/
def exNarLine : List Str := [['H'], ['3'], ['H'], ['O'], ['1'], ['1'], ['1'], ['3']]

noncomputable def exNar : SymFnc :=
  { SymFnc.create exEnv .ExpAngn with
    e1 := 0, e2 := 1, eta := 1, lambda := 1, zeta := 1, zetaInt := 1, useIntegerPow := true,
    rs := 0, rc := 3, fc := mkCutoff .HARD 3 0 }

theorem roundInt_one : roundInt 1 = 1 := by
  unfold roundInt
  rw [if_pos (by norm_num)]
  norm_num [Int.floor_eq_iff]

theorem exNar_line (Ss : List SymFnc) :
    addSymmetryFunction exEnv Ss exNarLine = some (Ss ++ [exNar]) := by
  have a : exEnv.atoi ['3'] = 3 := rfl
  have b : exEnv.atof ['3'] = 3 := by simp [exEnv, exDigits]
  have c : exEnv.atof ['1'] = 1 := by simp [exEnv, exDigits]
  have f : exEnv.element ['H'] = some 0 := rfl
  have g : exEnv.element ['O'] = some 1 := rfl
  have z : 0 ≤ DBL_MIN := by unfold DBL_MIN; positivity
  unfold addSymmetryFunction
  simp [exNarLine, a, SFKind.ofNumber, SymFnc.setParameters, SymFnc.create,
    SFKind.number, b, c, f, g, SFEnv.elem, SFEnv.num, SymFnc.setEc, resetCutoff_some,
    CutoffFunction.init, exNar, mkCutoff, coreOfCutoff, SymFnc.orderElements, SymFnc.setZetaInt,
    roundInt_one, z]

theorem exNar_final (i : ℕ) :
    (exNar.setIndex i).setCutoffFunction .COS 0 = some (exFinal i exNar) := by
  have : ((mkCutoff .HARD 3 0).setCutoffType .COS).setCutoffParameter 0 =
      some (mkCutoff .COS 3 0) := by
    unfold CutoffFunction.setCutoffParameter
    rw [if_neg (by norm_num)]
    norm_num [mkCutoff, CutoffFunction.setCutoffType, coreOfCutoff]
  simp [exNar, SymFnc.create, SymFnc.setCutoffFunction, SymFnc.setIndex, this, exFinal]
  rfl

theorem exNarrow_setup :
    SetupSymmetryFunctions exEnv [exNarLine, exRadLine ['H']] none .COS 0
      [exFinal 0 (exRad 0), exFinal 1 exNar] := by
  refine ⟨[exNar, exRad 0], [exNar, exRad 0], _, ?_, rfl,
    ⟨[exRad 0, exNar], List.Perm.swap _ _ _, ?_, rfl⟩, ?_⟩
  · simp [exRad_line _ ['H'] 0 rfl, exNar_line]
  · simp [SymFnc.lt, SymFnc.lexStep, exNar, exRad, SymFnc.create, SFKind.number]
  · simp [exFinal_eq _ _ (Or.inl ⟨_, rfl⟩), exNar_final]

/-- The lines of the scaling file for H. -/
noncomputable def exShare (k : ℕ) : List StatisticsLine :=
  if k = 0 then [⟨1, 1, 0, 4, 1, some 1⟩, ⟨1, 2, 0, 2, 1, some 1⟩] else []

theorem exNarrow_element (net : NeuralNetwork) :
    ∃ e : ElementData, SetupElement exEnv [exNarLine, exRadLine ['H']] none .COS 0
      (.lines .scaleCenter (exShare 0) 0 1) e ∧ e.net = net ∧ e.symmetryFunctions.length = 2 ∧
      (∀ S ∈ e.symmetryFunctions, S.Sensible ∧ (S.kind = .ExpAngn → 0 ≤ S.rs ∧ S.lambda ≠ 0)) ∧
      ∃ S ∈ e.symmetryFunctions, S.kind = .ExpAngn := by
  have hm : (setupSymmetryFunctionMemory 2 [exFinal 0 (exRad 0), exFinal 1 exNar]).2 =
      [{ exFinal 0 (exRad 0) with indexPerElement := [0, SIZE_MAX] },
        { exFinal 1 exNar with indexPerElement := [1, 0] }] := rfl
  obtain ⟨D, hD, -⟩ := setupCache_spec (E := exEnv)
    (Ss := (setupSymmetryFunctionMemory 2 [exFinal 0 (exRad 0), exFinal 1 exNar]).2) (by
      rw [hm]
      intro k S hS
      match k with
      | 0 => obtain rfl := Option.some.inj hS; rfl
      | 1 => obtain rfl := Option.some.inj hS; rfl
      | k + 2 => simp at hS) (by
      rw [hm]
      intro S hS
      simp only [List.mem_cons, List.not_mem_nil, or_false] at hS
      rcases hS with rfl | rfl <;> rfl) (by
      rw [hm]
      intro S hS id hid
      have e : exEnv.numElements = 2 := rfl
      simp only [List.mem_cons, List.not_mem_nil, or_false] at hS
      rcases hS with rfl | rfl
      · simp [SymFnc.getCacheIdentifiers, exFinal, exRad, SymFnc.create, SymFnc.setIndex] at hid
        rcases hid with rfl | rfl <;> simp [e]
      · simp [SymFnc.getCacheIdentifiers, exFinal, exNar, SymFnc.create, SymFnc.setIndex] at hid
        rcases hid with rfl | rfl | rfl | rfl <;> simp [e])
  obtain ⟨A, B, hAB, hA, hB⟩ : ∃ A B : SymFnc,
      setScaling (.lines .scaleCenter (exShare 0) 0 1) (withCaches exEnv.numElements
        (setupSymmetryFunctionMemory 2 [exFinal 0 (exRad 0), exFinal 1 exNar]).2 D) =
        some [A, B] ∧ (A.kind = .ExpRad ∧ A.rc = 3) ∧
        (B.kind = .ExpAngn ∧ B.rc = 3 ∧ B.rs = 0 ∧ B.zeta = 1 ∧ B.lambda = 1) := by
    rw [hm]
    unfold setScaling withCaches
    simp only [List.mapIdx_cons, List.mapIdx_nil, List.zipIdx_cons, List.zipIdx_nil,
      List.mapM_cons, List.mapM_nil, ScalingSetup.line, ScalingSetup.args, exShare, if_true]
    have i0 : (exFinal 0 (exRad 0)).sc.index = 0 := rfl
    have i1 : (exFinal 1 exNar).sc.index = 1 := rfl
    simp only [setScalingType, i0, i1, Option.bind_eq_bind, List.getElem?_cons_zero,
      List.getElem?_cons_succ, Option.bind_some]
    norm_num
    refine ⟨_, _, ⟨rfl, rfl⟩, ⟨rfl, rfl⟩, rfl, rfl, rfl, rfl, rfl⟩
  refine ⟨⟨[A, B], _, _, net⟩, ⟨_, _, exNarrow_setup, rfl, hD, hAB⟩, rfl, rfl, ?_, B, by simp, hB.1⟩
  intro S hS
  simp only [List.mem_cons, List.not_mem_nil, or_false] at hS
  rcases hS with rfl | rfl
  · refine ⟨⟨by rw [hA.2]; norm_num, fun _ h => ?_⟩, fun h => ?_⟩
    · simp [SymFnc.IsAng, hA.1] at h
    · rw [hA.1] at h; cases h
  · refine ⟨⟨by rw [hB.2.1]; norm_num, fun _ _ => ?_⟩, fun _ => ?_⟩
    · rw [hB.2.2.2.1, roundInt_one]
      norm_num
    · rw [hB.2.2.1, hB.2.2.2.2]
      norm_num

/-- An element without symmetry functions. -/
theorem exEmpty_element (net : NeuralNetwork) :
    ∃ e : ElementData, SetupElement exEnv [] none .COS 0 (.lines .scaleCenter (exShare 1) 0 1) e ∧
      e.net = net ∧ e.symmetryFunctions = [] := by
  refine ⟨⟨[], [[], []], [0, 0], net⟩, ⟨[], [], ⟨[], [], [], rfl, rfl,
    ⟨[], List.Perm.refl _, by simp, rfl⟩, rfl⟩, rfl, rfl, rfl⟩, rfl, rfl⟩

theorem exEnv_names : exEnv.Names [['H'], ['O']] := by
  intro s k
  simp only [exEnv]
  have e : ∀ t : Str, t = s ↔ s = t := fun t => eq_comm
  match k with
  | 0 => split_ifs with h h' <;> simp [e, h]
  | 1 => split_ifs with h h' <;> simp [e, h, *]
  | k + 2 => split_ifs <;> simp

theorem exCabana_settings (net : NeuralNetwork) :
    ∃ els, SameSettings exEnv [['H'], ['O']] [exNarLine, exRadLine ['H']] none .COS 0 .scaleCenter
      exShare 0 1 els ∧
      (∀ e ∈ els, ∀ S ∈ e.symmetryFunctions, S.Sensible ∧
        (S.kind = .ExpAngn → 0 ≤ S.rs ∧ S.lambda ≠ 0)) ∧
      ∃ e ∈ els, ∃ S ∈ e.symmetryFunctions, S.kind = .ExpAngn := by
  obtain ⟨e0, h1, h2, h3, h4, S, h5, h6⟩ := exNarrow_element net
  obtain ⟨e1, g1, g2, g3⟩ := exEmpty_element net
  have hH : exEnv.element ['H'] = some 0 := rfl
  refine ⟨[e0, e1], ⟨?_, by simp, rfl, ?_, ?_, ?_⟩, ?_, e0, by simp, S, h5, h6⟩
  · exact exEnv_names
  · intro tok htok
    simp only [List.mem_cons, List.not_mem_nil, or_false] at htok
    rcases htok with rfl | rfl
    · exact ⟨_, rfl, .inr rfl⟩
    · exact ⟨_, rfl, .inl rfl⟩
  · intro tok htok
    simp only [List.mem_cons, List.not_mem_nil, or_false] at htok
    rcases htok with rfl | rfl <;> exact ⟨0, rfl⟩
  · intro k e he
    have hl : ∀ k, elementLines exEnv [exNarLine, exRadLine ['H']] k =
        if k = 0 then [exNarLine, exRadLine ['H']] else [] := by
      intro k
      simp only [elementLines, exNarLine, exRadLine, List.filter_cons, List.filter_nil,
        List.getElem?_cons_zero, Option.bind_some, hH, Option.some.injEq, eq_comm (a := 0)]
      by_cases hk : k = 0 <;> simp [hk]
    match k with
    | 0 =>
      obtain rfl := Option.some.inj he
      rw [hl, if_pos rfl]
      exact ⟨h1, by rw [h3]; simp [exShare]⟩
    | 1 =>
      obtain rfl := Option.some.inj he
      rw [hl, if_neg (by omega)]
      exact ⟨g1, by rw [g3]; simp [exShare]⟩
    | k + 2 => simp at he
  · intro e he
    simp only [List.mem_cons, List.not_mem_nil, or_false] at he
    rcases he with rfl | rfl
    · exact h4
    · rw [g3]; simp

end N2P2
