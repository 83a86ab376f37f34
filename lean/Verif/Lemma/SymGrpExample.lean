import Verif.Lemma.SymGrpShift
import Verif.Lemma.ModeExample

/-! A wide angular function with any λ and any shift, for examples on groups. -/

namespace N2P2

open Classical in
/-- As `exEnv`, the parsers also understand `-1`. -/
noncomputable def exEnvNeg : SFEnv :=
  { exEnv with atof := fun s => if s = ['-', '1'] then -1 else exDigits s }

/-- `H 9 H O 1 lam 1 3 rs` -/
def exVarLine (lam rs : Str) : List Str :=
  [['H'], ['9'], ['H'], ['O'], ['1'], lam, ['1'], ['3'], rs]

/-- The function of the line after the setup. -/
noncomputable def exVar (lam rs : ℝ) : SymFnc :=
  { exFn 0 with
    lambda := lam
    rs := rs }

theorem exEnvNeg_one : exEnvNeg.atof ['1'] = 1 := by simp [exEnvNeg, exDigits]
theorem exEnvNeg_zero : exEnvNeg.atof ['0'] = 0 := by simp [exEnvNeg, exDigits]
theorem exEnvNeg_three : exEnvNeg.atof ['3'] = 3 := by simp [exEnvNeg, exDigits]
theorem exEnvNeg_neg : exEnvNeg.atof ['-', '1'] = -1 := by simp [exEnvNeg]

theorem exEnvNeg_ok : exEnvNeg.OK := by
  refine ⟨Nat.two_pos, ?_⟩
  intro s e he
  simp only [exEnvNeg, exEnv] at he
  split_ifs at he <;> cases he <;> decide

/-- The function before the setup of tables. -/
noncomputable def exVar0 (lam rs : ℝ) : SymFnc :=
  { exAng rs with lambda := lam }

theorem exVarLine_add (lam rs : Str) :
    addSymmetryFunction exEnvNeg [] (exVarLine lam rs) =
      some [exVar0 (exEnvNeg.atof lam) (exEnvNeg.atof rs)] := by
  have a : exEnvNeg.atoi ['9'] = 9 := rfl
  have f : exEnvNeg.element ['H'] = some 0 := rfl
  have g : exEnvNeg.element ['O'] = some 1 := rfl
  have r : roundInt 1 = 1 := by
    unfold roundInt
    rw [if_pos (by norm_num)]
    norm_num [Int.floor_eq_iff]
  have z : 0 ≤ DBL_MIN := by unfold DBL_MIN; positivity
  have n : exEnvNeg.numElements = exEnv.numElements := rfl
  have m : exEnvNeg.atomicNumber = exEnv.atomicNumber := rfl
  unfold addSymmetryFunction
  simp [exVarLine, a, SFKind.ofNumber, SymFnc.setParameters, SymFnc.create, exEnvNeg_one,
    SFKind.number, exEnvNeg_three, f, g, SFEnv.elem, SFEnv.num, SymFnc.setEc, resetCutoff_some,
    CutoffFunction.init, exAng, exVar0, mkCutoff, coreOfCutoff, SymFnc.orderElements,
    SymFnc.setZetaInt, r, z, n, m]

theorem exVarLine_setup (lam rs : Str) :
    SetupSymmetryFunctions exEnvNeg [exVarLine lam rs] none .COS 0
      [exFinal 0 (exVar0 (exEnvNeg.atof lam) (exEnvNeg.atof rs))] := by
  refine ⟨[exVar0 (exEnvNeg.atof lam) (exEnvNeg.atof rs)],
    [exVar0 (exEnvNeg.atof lam) (exEnvNeg.atof rs)], _, ?_, rfl,
    ⟨[exVar0 (exEnvNeg.atof lam) (exEnvNeg.atof rs)], List.Perm.refl _, ?_, rfl⟩, ?_⟩
  · simp [exVarLine_add]
  · simp
  · have : ((mkCutoff .HARD 3 0).setCutoffType .COS).setCutoffParameter 0 =
        some (mkCutoff .COS 3 0) := by
      unfold CutoffFunction.setCutoffParameter
      rw [if_neg (by norm_num)]
      norm_num [mkCutoff, CutoffFunction.setCutoffType, coreOfCutoff]
    simp [exVar0, exAng, SymFnc.create, SymFnc.setCutoffFunction, SymFnc.setIndex, exFinal, this]
    rfl

theorem exVar_setup (lam rs : Str) (net : NeuralNetwork) :
    SetupElement exEnvNeg [exVarLine lam rs] none .COS 0 .off
      ⟨[exVar (exEnvNeg.atof lam) (exEnvNeg.atof rs)], [[0], [0]], [0, 0], net⟩ := by
  generalize hl : exEnvNeg.atof lam = l
  generalize hr : exEnvNeg.atof rs = x
  have hset := exVarLine_setup lam rs
  rw [hl, hr] at hset
  refine ⟨_, [{ exFinal 0 (exVar0 l x) with indexPerElement := [0, 0] }], hset, ?_, ?_, ?_⟩
  · rfl
  · have : setupSymmetryFunctionMemory 2 [exFinal 0 (exVar0 l x)] =
      ([[0], [0]], [{ exFinal 0 (exVar0 l x) with indexPerElement := [0, 0] }]) := rfl
    show setupSymmetryFunctionCache exEnvNeg (setupSymmetryFunctionMemory 2 _).2 = _
    rw [this]
    set S : SymFnc := { exFinal 0 (exVar0 l x) with indexPerElement := [0, 0] } with hS
    have hk : S.getCacheIdentifiers exEnvNeg = [⟨0, false, S.cacheText exEnvNeg⟩,
      ⟨0, true, S.cacheText exEnvNeg⟩, ⟨1, false, S.cacheText exEnvNeg⟩,
      ⟨1, true, S.cacheText exEnvNeg⟩] := rfl
    have hc : collectCacheLists exEnvNeg [S] =
        some [[⟨0, ⟨0, false, S.cacheText exEnvNeg⟩, [0]⟩, ⟨0, ⟨0, true, S.cacheText exEnvNeg⟩, [0]⟩],
          [⟨1, ⟨1, false, S.cacheText exEnvNeg⟩, [0]⟩,
            ⟨1, ⟨1, true, S.cacheText exEnvNeg⟩, [0]⟩]] := by
      have e : exEnvNeg.numElements = 2 := rfl
      have i : S.index = 0 := rfl
      simp [collectCacheLists, hk, collectId, enterCacheList, e, i]
    unfold setupSymmetryFunctionCache
    rw [hc]
    rfl
  · simp [setScaling, ScalingSetup.line, ScalingSetup.args, setScalingType]
    rfl

theorem exVar_sensible (lam rs : ℝ) : (exVar lam rs).Sensible := by
  have r : roundInt 1 = 1 := by
    unfold roundInt
    rw [if_pos (by norm_num)]
    norm_num [Int.floor_eq_iff]
  refine ⟨show (0 : ℝ) < 3 by norm_num, fun _ _ => ⟨show (0 : ℝ) < 1 by norm_num, fun _ => ?_⟩⟩
  show (1 : ℝ) = (roundInt 1 : ℤ)
  rw [r]; norm_num

theorem exVar_prints (lam rs : ℝ) : exEnvNeg.Prints [exVar lam rs] := by
  refine ⟨fun x => by simp [exEnvNeg, exEnv], ?_, ?_⟩
  · intro S hS T hT _
    rw [List.mem_singleton.1 hS, List.mem_singleton.1 hT]
  · intro S hS T hT _
    rw [List.mem_singleton.1 hS, List.mem_singleton.1 hT]

theorem exVar_uniform (lam rs : ℝ) : UniformCaches exEnvNeg [exVar lam rs] := by
  intro S hS _ _ e e' _ _ _ _
  have : ∀ e, ¬ S.SharesCache exEnvNeg [exVar lam rs] e := by
    rintro e ⟨-, T, hT, h1, -⟩
    rw [List.mem_singleton.1 hS, List.mem_singleton.1 hT] at h1
    exact h1 rfl
  exact iff_of_false (this e) (this e')

theorem exVar_ok (lam rs : Str) (net : NeuralNetwork) : ElementData.OK 2
    ⟨[exVar (exEnvNeg.atof lam) (exEnvNeg.atof rs)], [[0], [0]], [0, 0], net⟩ := by
  refine (exVar_setup lam rs net).ok exEnvNeg_ok one_ne_zero (exVar_prints _ _) ?_
    (exVar_uniform _ _)
  intro S hS
  rw [List.mem_singleton.1 hS]
  exact exVar_sensible _ _

theorem exVar_ready {lam rs : ℝ} (hV : (exVar lam rs).Valid) :
    (exVar lam rs).Ready (exCenter [exN1 [], exN2 []]) true (fun _ => []) 3 := by
  have hns : ∀ n ∈ [exN1 [], exN2 []], ∃ e dr c, n = exNb e dr c ∧ e < 2 ∧ 0 < dr.norm := by
    intro n hn
    simp only [List.mem_cons, List.not_mem_nil, or_false] at hn
    rcases hn with rfl | rfl
    · exact ⟨0, _, _, rfl, by norm_num,
        by rw [exNorm 1 0 0 1 (by norm_num) (by norm_num)]; norm_num⟩
    · exact ⟨1, _, _, rfl, by norm_num,
        by rw [exNorm 0 2 0 2 (by norm_num) (by norm_num)]; norm_num⟩
  generalize [exN1 [], exN2 []] = ns at hns
  refine ⟨hV, ⟨?_, ?_, rfl, ?_, ?_⟩,
    ⟨Nat.zero_lt_one, fun _ => Nat.zero_lt_one, ⟨Nat.two_pos, ?_⟩, ?_⟩,
    fun he => absurd (Or.inr (Or.inr (Or.inl rfl))) he, ?_, ⟨?_, ?_⟩, le_rfl, ?_⟩
  · intro n hn
    obtain ⟨e, dr, c, rfl, -, -⟩ := hns n hn
    rfl
  · intro n hn
    obtain ⟨e, dr, c, rfl, -, h⟩ := hns n hn
    exact h
  · exact le_rfl
  · intro n hn
    have : (exCenter ns).getStoredMinNumNeighbors (exVar lam rs).rc = ns.length := rfl
    rw [this] at hn
    simp [exCenter] at hn
  · intro n hn
    obtain ⟨e, dr, c, rfl, he, -⟩ := hns n hn
    exact he
  · intro _ n hn _ _
    obtain ⟨e, dr, c, rfl, he, -⟩ := hns n hn
    refine ⟨0, ?_, Nat.zero_lt_one⟩
    change ([0, 0] : List ℕ)[e]? = some 0
    interval_cases e <;> rfl
  · intro e c hc; cases hc
  · intro e ci _ hci
    refine Or.inl ?_
    change ([[], []] : List (List ℕ))[e]? = some ci at hci
    have := List.mem_of_getElem? hci
    simpa using this
  · intro _ _ e e' ci ci' _ _ h1 h2
    have h1 := List.mem_of_getElem? (show ([[], []] : List (List ℕ))[e]? = some ci from h1)
    have h2 := List.mem_of_getElem? (show ([[], []] : List (List ℕ))[e']? = some ci' from h2)
    simp at h1 h2
    simp [h1, h2]
  · intro n _ _ c hc; cases hc

/-- The value for two neighbours at a right angle. -/
theorem exVar_formula (lam rs : ℝ) :
    (exVar lam rs).formula (exCenter [exN1 [], exN2 []]).env =
      Real.exp (-(1 - rs) ^ 2) * Real.exp (-(2 - rs) ^ 2) * (3 / 4 * (1 / 4)) := by
  change SymFnc.formula _ [⟨0, ![1, 0, 0]⟩, ⟨1, ![0, 2, 0]⟩] = _
  have hf : ∀ r : ℝ, 0 ≤ r → r < 3 →
      (mkCutoff .COS 3 0).f r = (Real.cos (Real.pi * (r / 3)) + 1) / 2 := by
    intro r h0 h3
    have hc := (mkCutoff_configured (t := .COS) (rc := 3) (α := 0) ⟨le_rfl, one_pos⟩).cfg
    unfold CutoffFunction.f
    rw [hc.rc, if_neg (not_le.2 h3), CutoffFunction.fInner, hc.type, hc.rci, hc.iw]
    dsimp only
    rw [if_neg (by linarith)]
    norm_num
    ring_nf
  have f1 : (mkCutoff .COS 3 0).f 1 = 3 / 4 := by
    rw [hf 1 (by norm_num) (by norm_num), mul_one_div, Real.cos_pi_div_three]
    norm_num
  have f2 : (mkCutoff .COS 3 0).f 2 = 1 / 4 := by
    rw [hf 2 (by norm_num) (by norm_num),
      show Real.pi * (2 / 3) = Real.pi - Real.pi / 3 by ring, Real.cos_pi_sub,
      Real.cos_pi_div_three]
    norm_num
  have n1 := exNorm 1 0 0 1 (by norm_num) (by norm_num)
  have n2 := exNorm 0 2 0 2 (by norm_num) (by norm_num)
  have hc : cosAngle ![1, 0, 0] ![0, 2, 0] = 0 := by simp [cosAngle, Vec3.dot]
  simp [SymFnc.formula, SymFnc.siteTerm, SymFnc.pairTerm, pairSum, exVar, exFn, exFinal, exAng,
    SymFnc.create, SymFnc.setIndex, n1, n2, hc, f1, f2, SymFnc.ofPair, SymFnc.angularFactor,
    SymFnc.gauss]

/-! ### λ = 0 -/

theorem bodyExp_lambda_zero {S : SymFnc} (hl : S.lambda = 0) (g : SymGrp) (m : GrpMember)
    (hm : m.factorDeriv = (SymGrp.row S.kind none S).factorDeriv) (nj nk : Neighbor)
    (pij pik : ℝ × ℝ) (e : SymGrp.ExpShift) : g.bodyExp true m nj nk pij pik e = none := by
  have hd : m.factorDeriv = none := by
    rw [hm]
    simp only [SymGrp.row, fdiv, hl, if_true, Option.bind_eq_none_iff]
    simp
  unfold SymGrp.bodyExp
  split
  · simp [SymGrp.bodyExpAngn, hd]
  · simp [SymGrp.bodyExpAngw, hd]
  · simp [SymGrp.bodyExpAngnWeighted, hd]


end N2P2
