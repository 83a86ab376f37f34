import Verif.Lemma.LengthUnit
import Verif.Lemma.ModeExample

/-! The example potential with another unit of length. -/

namespace N2P2

/-- The function of the line with `conv_length c`, before memory is assigned. -/
noncomputable def exUnit0 (c : ℝ) (ec : ℕ) : SymFnc :=
  { (exAng 0).setEc ec with
    convLength := c
    eta := 1 / (c * c)
    rc := 3 * c
    fc := mkCutoff .COS (3 * c) 0
    cutoffType := .COS
    subtype := "ct1".toList }

/-- The same after the setup. -/
noncomputable def exUnitFn (c : ℝ) (ec : ℕ) : SymFnc :=
  { exUnit0 c ec with
    sc := ⟨ec, 0, 9, .none, 0, 0, 0, 0, 0, 0, 1⟩
    indexPerElement := [0, 0] }

/-- The function right after the change of the unit. -/
noncomputable def exUnit1 (c : ℝ) (ec : ℕ) : SymFnc :=
  { (exAng 0).setEc ec with
    convLength := c
    eta := 1 / (c * c)
    rc := 3 * c
    fc := mkCutoff .HARD (3 * c) 0 }

theorem exUnit_change (c : ℝ) (ec : ℕ) : ((exAng 0).setEc ec).changeLengthUnit c = some (exUnit1 c ec) := by
  obtain ⟨U, hU⟩ : ∃ U, ((exAng 0).setEc ec).changeLengthUnit c = some U :=
    ⟨_, resetCutoff_some _ (by norm_num [exAng, SymFnc.create, SymFnc.setEc])⟩
  obtain ⟨-, eU⟩ := changeLengthUnit_exp (S := (exAng 0).setEc ec) (.inr (.inr (.inl rfl))) hU
  rw [hU, eU]
  simp only [Option.some.injEq, exUnit1, exAng, SymFnc.setEc, SymFnc.create, mkCutoff]
  simp only [mul_zero, sub_zero, zero_mul]

theorem exUnit_setup (c : ℝ) (sym : Str) (ec : ℕ) (h : exEnv.element sym = some ec) :
    SetupSymmetryFunctions exEnv [exWideLine sym] (some c) .COS 0 [exUnit0 c ec] := by
  refine ⟨[(exAng 0).setEc ec], [exUnit1 c ec], _, ?_, ?_,
    ⟨[exUnit1 c ec], List.Perm.refl _, ?_, rfl⟩, ?_⟩
  · simp [exWideLine_add sym ec h]
  · simp only [List.mapM_cons, List.mapM_nil, exUnit_change c]
    rfl
  · simp
  · have : ((mkCutoff .HARD (3 * c) 0).setCutoffType .COS).setCutoffParameter 0 =
        some (mkCutoff .COS (3 * c) 0) := by
      unfold CutoffFunction.setCutoffParameter
      rw [if_neg (by norm_num)]
      norm_num [mkCutoff, CutoffFunction.setCutoffType, coreOfCutoff]
    simp [exAng, SymFnc.create, SymFnc.setCutoffFunction, SymFnc.setIndex, exUnit0, exUnit1,
      SymFnc.setEc,
      this]
    rfl

theorem exUnit_element (c : ℝ) (sym : Str) (ec : ℕ) (h : exEnv.element sym = some ec)
    (net : NeuralNetwork) :
    SetupElement exEnv [exWideLine sym] (some c) .COS 0 .off
      ⟨[exUnitFn c ec], [[0], [0]], [0, 0], net⟩ := by
  refine ⟨_, [{ exUnit0 c ec with indexPerElement := [0, 0] }], exUnit_setup c sym ec h, ?_, ?_, ?_⟩
  · rfl
  · have : setupSymmetryFunctionMemory 2 [exUnit0 c ec] =
      ([[0], [0]], [{ exUnit0 c ec with indexPerElement := [0, 0] }]) := rfl
    show setupSymmetryFunctionCache exEnv (setupSymmetryFunctionMemory 2 _).2 = _
    rw [this]
    set S : SymFnc := { exUnit0 c ec with indexPerElement := [0, 0] } with hS
    have hk : S.getCacheIdentifiers exEnv = [⟨0, false, S.cacheText exEnv⟩,
      ⟨0, true, S.cacheText exEnv⟩, ⟨1, false, S.cacheText exEnv⟩, ⟨1, true, S.cacheText exEnv⟩] :=
      rfl
    have hc : collectCacheLists exEnv [S] =
        some [[⟨0, ⟨0, false, S.cacheText exEnv⟩, [0]⟩, ⟨0, ⟨0, true, S.cacheText exEnv⟩, [0]⟩],
          [⟨1, ⟨1, false, S.cacheText exEnv⟩, [0]⟩, ⟨1, ⟨1, true, S.cacheText exEnv⟩, [0]⟩]] := by
      have e : exEnv.numElements = 2 := rfl
      have i : S.index = 0 := rfl
      simp [collectCacheLists, hk, collectId, enterCacheList, e, i]
    unfold setupSymmetryFunctionCache
    rw [hc]
    rfl
  · simp [setScaling, ScalingSetup.line, ScalingSetup.args, setScalingType]
    rfl

/-- The example potential with `conv_length c`. -/
noncomputable def exUnitPotential (c : ℝ) : Potential := { exPotential with functions := fun e => [exUnitFn c e] }

theorem exUnit_same (c : ℝ) : exPotential.SameSettings c (exUnitPotential c) 2 := by
  intro e he
  refine ⟨rfl, rfl, ?_⟩
  obtain ⟨net, -⟩ : ∃ nn0, NeuralNetwork.create exNet.numLayers exNet.n exNet.af = some nn0 :=
    ⟨_, rfl⟩
  obtain ⟨sym, hsym⟩ : ∃ sym, exEnv.element sym = some e := by
    interval_cases e
    · exact ⟨['H'], rfl⟩
    · exact ⟨['O'], rfl⟩
  exact ⟨exEnv, _, _, _, _, _, _, exSetupElement sym e hsym net, exUnit_element c sym e hsym net,
    rfl, rfl⟩

theorem exists_exUnitMode {c : ℝ} (hc : 0 < c) : ∃ M : Mode, M.SetUp (exUnitPotential c) 2 := by
  have h0 : ∃ nn0, NeuralNetwork.create exNet.numLayers exNet.n exNet.af = some nn0 := ⟨_, rfl⟩
  obtain ⟨nn0, h0⟩ := h0
  set el : ℕ → ElementData := fun e => ⟨[exUnitFn c e], [[0], [0]], [0, 0],
    (nn0.setConnections (exPotential.weights e)).setNormalizeNeurons exNet.norm⟩ with hel
  have hget : ∀ (k : ℕ) e, [el 0, el 1][k]? = some e →
      e = el k ∧ ∃ sym, exEnv.element sym = some k := by
    intro k e hk
    match k with
    | 0 => exact ⟨(Option.some.inj hk).symm, ['H'], rfl⟩
    | 1 => exact ⟨(Option.some.inj hk).symm, ['O'], rfl⟩
    | k + 2 => cases hk
  refine ⟨⟨[el 0, el 1], _⟩, ⟨rfl, ?_, ?_, ?_, rfl⟩⟩
  · intro k e hk
    obtain ⟨rfl, sym, hsym⟩ := hget k e hk
    refine ⟨exEnv, [exWideLine sym], some c, .COS, 0, .off, ⟨Nat.two_pos, ?_⟩, rfl, hc.ne',
      exUnit_element c sym k hsym _, ⟨fun x => by simp [exEnv], ?_, ?_⟩, ?_, ?_⟩
    · intro s e he
      simp only [exEnv] at he
      split_ifs at he <;> cases he <;> decide
    · intro S hS T hT _
      rw [List.mem_singleton.1 hS, List.mem_singleton.1 hT]
    · intro S hS T hT _
      rw [List.mem_singleton.1 hS, List.mem_singleton.1 hT]
    · intro S hS _ _ e e' _ _ _ _
      have : ∀ e, ¬ S.SharesCache exEnv [exUnitFn c k] e := by
        rintro e ⟨-, T, hT, h1, -⟩
        rw [List.mem_singleton.1 hS, List.mem_singleton.1 hT] at h1
        exact h1 rfl
      exact iff_of_false (this e) (this e')
    · intro S hS
      rw [List.mem_singleton.1 hS]
      have r : roundInt 1 = 1 := by
        unfold roundInt
        rw [if_pos (by norm_num)]
        norm_num [Int.floor_eq_iff]
      refine ⟨show (0 : ℝ) < 3 * c by positivity, fun _ _ => ⟨show (0 : ℝ) < 1 by norm_num, fun _ => ?_⟩⟩
      show (1 : ℝ) = (roundInt 1 : ℤ)
      rw [r]; norm_num
  · intro k e hk
    obtain ⟨rfl, -⟩ := hget k e hk
    exact ⟨rfl, by simp [hel]⟩
  · intro k e hk
    obtain ⟨rfl, -⟩ := hget k e hk
    exact ⟨nn0, .create h0, .setNormalizeNeurons exNet.norm (.refl _), rfl⟩

/-- The example liquid in half the unit of length. -/
def exHalfLiquid : Structure :=
  exSystem true (brick 20 20 20) [(0, ![0, 0, 0]), (1, ![2, 0, 0]), (0, ![0, 2, 0])]

theorem exHalfLiquid_new : exHalfLiquid.New 2 := by
  refine exSystem_new (by simp) fun _ =>
    ⟨brick_nonSingular (by norm_num) (by norm_num) (by norm_num), ?_⟩
  intro p hp
  simp only [List.mem_cons, List.not_mem_nil, or_false] at hp
  rcases hp with rfl | rfl | rfl <;> exact brick_inBox (by norm_num) (by norm_num) (by norm_num)
    (by norm_num) (by norm_num) (by norm_num)

theorem exHalfLiquid_rescaled : exLiquid.Rescaled 2 exHalfLiquid := by
  refine ⟨rfl, fun i hi => ?_, fun i hi => ?_, rfl, fun _ k => ?_, ?_⟩
  · simp only [exLiquid, exSystem_length, List.length_cons, List.length_nil] at hi
    simp only [exLiquid, exHalfLiquid, exSystem_elementOf]
    interval_cases i <;> rfl
  · simp only [exLiquid, exSystem_length, List.length_cons, List.length_nil] at hi
    simp only [exLiquid, exHalfLiquid, exSystem_position]
    interval_cases i <;> funext k <;> fin_cases k <;> simp
  · funext j
    fin_cases k <;> fin_cases j <;> simp [exLiquid, exHalfLiquid, exSystem, brick] <;> norm_num
  · simp [exLiquid, exHalfLiquid, exSystem, Structure.init]

end N2P2
