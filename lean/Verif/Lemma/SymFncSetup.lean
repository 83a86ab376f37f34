import Verif.Spec.SymFncSetup

/-! Lemmas on the setup of symmetry functions from parameter lines. -/

namespace N2P2

/-- Core function type used by a cutoff function object which had type `t` set once. -/
def coreOfCutoff : CutoffType → CoreType
  | .POLY1 => .POLY1
  | .POLY3 => .POLY3
  | .POLY4 => .POLY4
  | .EXP => .EXP
  | _ => .POLY2

/-- The cutoff function for given type, radius and parameter. -/
noncomputable def mkCutoff (t : CutoffType) (rc alpha : ℝ) : CutoffFunction :=
  ⟨t, rc, 1 / rc, rc * alpha, alpha, 1 / (rc - rc * alpha), ⟨coreOfCutoff t, false⟩⟩

/-- The compact function for given core and support. -/
noncomputable def mkCompact (core : CoreFunction) (l r : ℝ) : CompactFunction :=
  ⟨(r + l) / 2, (r - l) / 2, l, r, 1 / ((r - l) / 2), core⟩

/-- State of a symmetry function after its parameters have been set; `c`, `t`, `α` are the length
conversion and the type and parameter of the cutoff function so far. -/
structure SymFnc.Consistent (E : SFEnv) (c : ℝ) (t : CutoffType) (α : ℝ) (S : SymFnc) : Prop where
  type : S.sc.type = S.kind.number
  conv : S.convLength = c
  cutoffType : S.IsExp → S.cutoffType = t
  cutoffAlpha : S.IsExp → S.cutoffAlpha = α
  fc : S.IsExp → S.fc = mkCutoff t S.rc α
  cr : ¬ S.IsExp → S.rl < S.rc ∧ ∃ core : CoreType × Bool,
    SymFnc.compactCore S.subtype = some core ∧ S.cr = mkCompact ⟨core.1, core.2⟩ S.rl S.rc
  ca : ¬ S.IsExp → S.IsAng → S.angleLeftRadians < S.angleRightRadians ∧
    S.ca = mkCompact ⟨S.cr.core.type, false⟩ S.angleLeftRadians S.angleRightRadians
  subtype : S.IsExp → S.subtype = "ct".toList ++ Nat.toDigits 10 t.number
  zeta : S.IsExp → S.IsAng → S.zetaInt = roundInt S.zeta ∧ |roundInt S.zeta| < 2 ^ 31 ∧
    (S.useIntegerPow = true ↔ |S.zeta - roundInt S.zeta| ≤ DBL_MIN)
  elements : (S.kind = .ExpRad ∨ S.kind = .CompRad → ∃ s, E.element s = some S.e1) ∧
    (S.kind = .ExpAngn ∨ S.kind = .ExpAngw ∨ S.kind = .CompAngn ∨ S.kind = .CompAngw →
      (∃ s, E.element s = some S.e1) ∧ ∃ s, E.element s = some S.e2)
  other : (S.kind ≠ .ExpRad ∧ S.kind ≠ .CompRad ∧ S.kind ≠ .ExpAngn ∧ S.kind ≠ .ExpAngw ∧
    S.kind ≠ .CompAngn ∧ S.kind ≠ .CompAngw → S.e1 = 0)
  index : S.indexPerElement = List.replicate E.numElements SIZE_MAX
  cache : S.cacheIndices = List.replicate E.numElements []
  scaling : S.sc.scalingType = .none ∧ S.sc.scalingFactor = 1
  atomicNumber : S.atomicNumber = E.atomicNumber
  unusedExp : S.IsExp → S.rl = 0 ∧ S.angleLeft = 0 ∧ S.angleRight = 0 ∧ S.angleLeftRadians = 0 ∧
    S.angleRightRadians = 0 ∧ S.cr = .init ∧ S.ca = .init
  unusedComp : ¬ S.IsExp → S.eta = 0 ∧ S.rs = 0 ∧ S.lambda = 0 ∧ S.zeta = 0 ∧ S.zetaInt = 0 ∧
    S.useIntegerPow = false ∧ S.cutoffType = .HARD ∧ S.cutoffAlpha = 0 ∧ S.fc = .init
  unusedRad : ¬ S.IsAng → S.lambda = 0 ∧ S.zeta = 0 ∧ S.zetaInt = 0 ∧ S.useIntegerPow = false ∧
    S.angleLeft = 0 ∧ S.angleRight = 0 ∧ S.angleLeftRadians = 0 ∧ S.angleRightRadians = 0 ∧
    S.ca = .init ∧ S.e2 = 0
  unusedWeighted : S.kind ≠ .ExpAngn ∧ S.kind ≠ .ExpAngw ∧ S.kind ≠ .CompAngn ∧
    S.kind ≠ .CompAngw → S.e2 = 0
  radians : ¬ S.IsExp → S.IsAng → S.angleLeftRadians = S.angleLeft * Real.pi / 180 ∧
    S.angleRightRadians = S.angleRight * Real.pi / 180
  unusedScaling : S.sc = ⟨S.sc.ec, S.sc.index, S.kind.number, .none, 0, 0, 0, 0, 0, 0, 1⟩

theorem ofNumber_number {n : Int} {k : SFKind} (h : SFKind.ofNumber n = some k) :
    n = k.number := by
  unfold SFKind.ofNumber at h
  repeat' split at h
  all_goals first
    | (cases h; simp_all [SFKind.number])
    | cases h

theorem setCutoffParameter_eq (c : CutoffFunction) (a : ℝ) {d : CutoffFunction}
    (h : c.setCutoffParameter a = some d) : (0 ≤ a ∧ a < 1) ∧
      d = { c with alpha := a, rci := c.rc * a, iw := 1 / (c.rc - c.rc * a) } := by
  unfold CutoffFunction.setCutoffParameter at h
  split at h
  · cases h
  · rename_i hn
    push Not at hn
    refine ⟨hn, ?_⟩
    simp only [Option.some.injEq] at h
    rw [← h]; norm_num

theorem setLeftRight_eq (c : CompactFunction) (l r : ℝ) {d : CompactFunction}
    (h : c.setLeftRight l r = some d) : l < r ∧ d = mkCompact c.core l r := by
  unfold CompactFunction.setLeftRight at h
  split at h
  · cases h
  · rename_i hn
    push Not at hn
    refine ⟨hn, ?_⟩
    simp only [Option.some.injEq] at h
    rw [← h]; norm_num [mkCompact]

theorem setLeftRight_some (c : CompactFunction) {l r : ℝ} (h : l < r) :
    c.setLeftRight l r = some (mkCompact c.core l r) := by
  unfold CompactFunction.setLeftRight
  rw [if_neg (by push Not; exact h)]
  norm_num [mkCompact]


/-! ### One line -/

namespace SymFnc

theorem isExp_cases (S : SymFnc) : S.IsExp ∨ ¬ S.IsExp := em _

end SymFnc

/-- The object made by `addSymmetryFunction` for a line. -/
def SymFnc.FromLine (E : SFEnv) (tok : List Str) (S : SymFnc) : Prop :=
  ∃ ty kind, tok[1]? = some ty ∧ SFKind.ofNumber (E.atoi ty) = some kind ∧
    (SymFnc.create E kind).setParameters E tok = some S

theorem resetCutoff_eq {S T : SymFnc} (h : S.resetCutoff = some T) :
    (0 ≤ S.cutoffAlpha ∧ S.cutoffAlpha < 1) ∧ T = { S with fc :=
      ⟨S.fc.cutoffType, S.rc, 1 / S.rc, S.rc * S.cutoffAlpha, S.cutoffAlpha,
        1 / (S.rc - S.rc * S.cutoffAlpha), S.fc.core⟩ } := by
  unfold SymFnc.resetCutoff at h
  obtain ⟨fc, h1, h2⟩ := Option.bind_eq_some_iff.1 h
  obtain ⟨h3, rfl⟩ := setCutoffParameter_eq _ _ h1
  cases h2
  exact ⟨h3, by norm_num [CutoffFunction.setCutoffRadius]⟩

theorem setCompRadial_eq {S T : SymFnc} (h0 : S.cr.core.asymmetric = false)
    (h : S.setCompRadial = some T) : S.rl < S.rc ∧ ∃ core : CoreType × Bool,
      SymFnc.compactCore S.subtype = some core ∧
      T = { S with cr := mkCompact ⟨core.1, core.2⟩ S.rl S.rc } := by
  unfold SymFnc.setCompRadial at h
  split at h
  · cases h
  · obtain ⟨U, h1, h2⟩ := Option.bind_eq_some_iff.1 h
    obtain ⟨cr, h3, h4⟩ := Option.bind_eq_some_iff.1 h2
    obtain ⟨core, h5, rfl⟩ := Option.map_eq_some_iff.1 h1
    obtain ⟨h6, rfl⟩ := setLeftRight_eq _ _ _ h3
    cases h4
    refine ⟨h6, core, h5, ?_⟩
    simp [h0]

theorem setCompAngular_eq {S T : SymFnc} (h0 : S.ca.core.asymmetric = false)
    (h : S.setCompAngular = some T) : ∃ l r, l < r ∧ T = { S with
      angleLeftRadians := l, angleRightRadians := r,
      ca := mkCompact ⟨S.cr.core.type, false⟩ l r } ∧
      l = S.angleLeft * Real.pi / 180 ∧ r = S.angleRight * Real.pi / 180 := by
  unfold SymFnc.setCompAngular at h
  simp only at h
  split at h
  · cases h
  split at h
  · cases h
  split at h
  · cases h
  obtain ⟨ca, h1, h2⟩ := Option.bind_eq_some_iff.1 h
  obtain ⟨h3, rfl⟩ := setLeftRight_eq _ _ _ h1
  cases h2
  refine ⟨_, _, h3, ?_, rfl, rfl⟩
  simp [h0]

theorem setZetaInt_eq {S T : SymFnc} (h : S.setZetaInt = some T) :
    |roundInt S.zeta| < 2 ^ 31 ∧ ∃ b : Bool, (b = true ↔ |S.zeta - roundInt S.zeta| ≤ DBL_MIN) ∧
      T = { S with zetaInt := roundInt S.zeta, useIntegerPow := b } := by
  unfold SymFnc.setZetaInt at h
  split at h
  · cases h
    exact ⟨by assumption, _, decide_eq_true_iff, rfl⟩
  · cases h

theorem orderElements_eq (S : SymFnc) : ∃ a b, a ≤ b ∧ ((a = S.e1 ∧ b = S.e2) ∨
    (a = S.e2 ∧ b = S.e1)) ∧ S.orderElements = { S with e1 := a, e2 := b } := by
  unfold SymFnc.orderElements
  split
  · exact ⟨S.e2, S.e1, le_of_lt (by assumption), Or.inr ⟨rfl, rfl⟩, rfl⟩
  · exact ⟨S.e1, S.e2, by omega, Or.inl ⟨rfl, rfl⟩, rfl⟩

theorem elem_some {E : SFEnv} {tok : List Str} {k e : ℕ} (h : E.elem tok k = some e) :
    ∃ s, E.element s = some e := by
  unfold SFEnv.elem at h
  obtain ⟨s, -, h2⟩ := Option.bind_eq_some_iff.1 h
  exact ⟨s, h2⟩

theorem FromLine.consistent' {E : SFEnv} {tok : List Str} {S : SymFnc}
    (h : SymFnc.FromLine E tok S) : S.Consistent E 1 .HARD 0 ∧ S.sc.index = 0 := by
  obtain ⟨ty, kind, h1, -, h3⟩ := h
  unfold SymFnc.setParameters at h3
  rw [h1] at h3
  replace h3 : (if E.atoi ty ≠ (SymFnc.create E kind).sc.type then none else _) = some S := h3
  split at h3
  · cases h3
  obtain ⟨ec, -, h3⟩ := Option.bind_eq_some_iff.1 h3
  cases kind
  · obtain ⟨e1, he1, h3⟩ := Option.bind_eq_some_iff.1 h3
    obtain ⟨eta, -, h3⟩ := Option.bind_eq_some_iff.1 h3
    obtain ⟨rs, -, h3⟩ := Option.bind_eq_some_iff.1 h3
    obtain ⟨rc, -, h3⟩ := Option.bind_eq_some_iff.1 h3
    obtain ⟨-, rfl⟩ := resetCutoff_eq h3
    refine ⟨?_, rfl⟩
    constructor <;> first | rfl | simp [SymFnc.create, SymFnc.IsExp, SymFnc.IsAng, SymFnc.setEc, mkCutoff,
      CutoffFunction.init, coreOfCutoff, CutoffType.number, SFKind.number, elem_some he1]
  · obtain ⟨e1, he1, h3⟩ := Option.bind_eq_some_iff.1 h3
    obtain ⟨e2, he2, h3⟩ := Option.bind_eq_some_iff.1 h3
    obtain ⟨eta, -, h3⟩ := Option.bind_eq_some_iff.1 h3
    obtain ⟨lambda, -, h3⟩ := Option.bind_eq_some_iff.1 h3
    obtain ⟨zeta, -, h3⟩ := Option.bind_eq_some_iff.1 h3
    obtain ⟨rc, -, h3⟩ := Option.bind_eq_some_iff.1 h3
    obtain ⟨U, h4, h3⟩ := Option.bind_eq_some_iff.1 h3
    obtain ⟨-, rfl⟩ := resetCutoff_eq h4
    obtain ⟨hz, b, hb, rfl⟩ := setZetaInt_eq h3
    obtain ⟨a, b', -, hab, hU⟩ := orderElements_eq _
    rw [hU] at hz hb ⊢
    have ha : (∃ s, E.element s = some a) ∧ ∃ s, E.element s = some b' := by
      rcases hab with ⟨rfl, rfl⟩ | ⟨rfl, rfl⟩
      · exact ⟨elem_some he1, elem_some he2⟩
      · exact ⟨elem_some he2, elem_some he1⟩
    clear hU hab h3 h4
    simp only at hz hb
    refine ⟨?_, rfl⟩
    constructor <;> first | rfl | simp [SymFnc.create, SymFnc.IsExp, SymFnc.IsAng, SymFnc.setEc, mkCutoff,
      CutoffFunction.init, coreOfCutoff, CutoffType.number, SFKind.number, ha, hz, hb, -Int.reducePow]
  · obtain ⟨e1, he1, h3⟩ := Option.bind_eq_some_iff.1 h3
    obtain ⟨e2, he2, h3⟩ := Option.bind_eq_some_iff.1 h3
    obtain ⟨eta, -, h3⟩ := Option.bind_eq_some_iff.1 h3
    obtain ⟨lambda, -, h3⟩ := Option.bind_eq_some_iff.1 h3
    obtain ⟨zeta, -, h3⟩ := Option.bind_eq_some_iff.1 h3
    obtain ⟨rc, -, h3⟩ := Option.bind_eq_some_iff.1 h3
    obtain ⟨U, h4, h3⟩ := Option.bind_eq_some_iff.1 h3
    obtain ⟨-, rfl⟩ := resetCutoff_eq h4
    obtain ⟨hz, b, hb, rfl⟩ := setZetaInt_eq h3
    obtain ⟨a, b', -, hab, hU⟩ := orderElements_eq _
    rw [hU] at hz hb ⊢
    have ha : (∃ s, E.element s = some a) ∧ ∃ s, E.element s = some b' := by
      rcases hab with ⟨rfl, rfl⟩ | ⟨rfl, rfl⟩
      · exact ⟨elem_some he1, elem_some he2⟩
      · exact ⟨elem_some he2, elem_some he1⟩
    clear hU hab h3 h4
    simp only at hz hb
    refine ⟨?_, rfl⟩
    constructor <;> first | rfl | simp [SymFnc.create, SymFnc.IsExp, SymFnc.IsAng, SymFnc.setEc, mkCutoff,
      CutoffFunction.init, coreOfCutoff, CutoffType.number, SFKind.number, ha, hz, hb, -Int.reducePow]
  · obtain ⟨eta, -, h3⟩ := Option.bind_eq_some_iff.1 h3
    obtain ⟨rs, -, h3⟩ := Option.bind_eq_some_iff.1 h3
    obtain ⟨rc, -, h3⟩ := Option.bind_eq_some_iff.1 h3
    obtain ⟨-, rfl⟩ := resetCutoff_eq h3
    refine ⟨?_, rfl⟩
    constructor <;> first | rfl | simp [SymFnc.create, SymFnc.IsExp, SymFnc.IsAng, SymFnc.setEc, mkCutoff,
      CutoffFunction.init, coreOfCutoff, CutoffType.number, SFKind.number]
  · obtain ⟨eta, -, h3⟩ := Option.bind_eq_some_iff.1 h3
    obtain ⟨rs, -, h3⟩ := Option.bind_eq_some_iff.1 h3
    obtain ⟨lambda, -, h3⟩ := Option.bind_eq_some_iff.1 h3
    obtain ⟨zeta, -, h3⟩ := Option.bind_eq_some_iff.1 h3
    obtain ⟨rc, -, h3⟩ := Option.bind_eq_some_iff.1 h3
    obtain ⟨U, h4, h3⟩ := Option.bind_eq_some_iff.1 h3
    obtain ⟨-, rfl⟩ := resetCutoff_eq h4
    obtain ⟨hz, b, hb, rfl⟩ := setZetaInt_eq h3
    clear h3 h4
    simp only at hz hb
    refine ⟨?_, rfl⟩
    constructor <;> first | rfl | simp [SymFnc.create, SymFnc.IsExp, SymFnc.IsAng, SymFnc.setEc, mkCutoff,
      CutoffFunction.init, coreOfCutoff, CutoffType.number, SFKind.number, hz, hb, -Int.reducePow]
  · obtain ⟨e1, he1, h3⟩ := Option.bind_eq_some_iff.1 h3
    obtain ⟨rl, -, h3⟩ := Option.bind_eq_some_iff.1 h3
    obtain ⟨rc, -, h3⟩ := Option.bind_eq_some_iff.1 h3
    obtain ⟨st, -, h3⟩ := Option.bind_eq_some_iff.1 h3
    obtain ⟨hl, core, hc, rfl⟩ := setCompRadial_eq rfl h3
    clear h3
    simp only at hl hc
    refine ⟨?_, rfl⟩
    constructor <;> first | rfl | simp [SymFnc.create, SymFnc.IsExp, SymFnc.IsAng, SymFnc.setEc, mkCutoff,
      CutoffFunction.init, coreOfCutoff, CutoffType.number, SFKind.number, elem_some he1, hl, hc]
  · obtain ⟨e1, he1, h3⟩ := Option.bind_eq_some_iff.1 h3
    obtain ⟨e2, he2, h3⟩ := Option.bind_eq_some_iff.1 h3
    obtain ⟨rl, -, h3⟩ := Option.bind_eq_some_iff.1 h3
    obtain ⟨rc, -, h3⟩ := Option.bind_eq_some_iff.1 h3
    obtain ⟨al, -, h3⟩ := Option.bind_eq_some_iff.1 h3
    obtain ⟨ar, -, h3⟩ := Option.bind_eq_some_iff.1 h3
    obtain ⟨st, -, h3⟩ := Option.bind_eq_some_iff.1 h3
    obtain ⟨U, h4, h3⟩ := Option.bind_eq_some_iff.1 h3
    obtain ⟨a, b', -, hab, hU⟩ := orderElements_eq _
    rw [hU] at h4
    obtain ⟨hl, core, hc, rfl⟩ := setCompRadial_eq rfl h4
    obtain ⟨l, r, hlr, rfl, hl1, hr1⟩ := setCompAngular_eq rfl h3
    simp only at hl1 hr1
    rw [hl1, hr1] at hlr
    have ha : (∃ s, E.element s = some a) ∧ ∃ s, E.element s = some b' := by
      rcases hab with ⟨rfl, rfl⟩ | ⟨rfl, rfl⟩
      · exact ⟨elem_some he1, elem_some he2⟩
      · exact ⟨elem_some he2, elem_some he1⟩
    clear hU hab h3 h4
    simp only at hl hc
    refine ⟨?_, rfl⟩
    constructor <;> first | rfl | simp [SymFnc.create, SymFnc.IsExp, SymFnc.IsAng, SymFnc.setEc, mkCutoff,
      CutoffFunction.init, coreOfCutoff, CutoffType.number, SFKind.number, mkCompact, ha, hl, hc, hlr, hl1, hr1, CutoffFunction.init, CompactFunction.init]
  · obtain ⟨e1, he1, h3⟩ := Option.bind_eq_some_iff.1 h3
    obtain ⟨e2, he2, h3⟩ := Option.bind_eq_some_iff.1 h3
    obtain ⟨rl, -, h3⟩ := Option.bind_eq_some_iff.1 h3
    obtain ⟨rc, -, h3⟩ := Option.bind_eq_some_iff.1 h3
    obtain ⟨al, -, h3⟩ := Option.bind_eq_some_iff.1 h3
    obtain ⟨ar, -, h3⟩ := Option.bind_eq_some_iff.1 h3
    obtain ⟨st, -, h3⟩ := Option.bind_eq_some_iff.1 h3
    obtain ⟨U, h4, h3⟩ := Option.bind_eq_some_iff.1 h3
    obtain ⟨a, b', -, hab, hU⟩ := orderElements_eq _
    rw [hU] at h4
    obtain ⟨hl, core, hc, rfl⟩ := setCompRadial_eq rfl h4
    obtain ⟨l, r, hlr, rfl, hl1, hr1⟩ := setCompAngular_eq rfl h3
    simp only at hl1 hr1
    rw [hl1, hr1] at hlr
    have ha : (∃ s, E.element s = some a) ∧ ∃ s, E.element s = some b' := by
      rcases hab with ⟨rfl, rfl⟩ | ⟨rfl, rfl⟩
      · exact ⟨elem_some he1, elem_some he2⟩
      · exact ⟨elem_some he2, elem_some he1⟩
    clear hU hab h3 h4
    simp only at hl hc
    refine ⟨?_, rfl⟩
    constructor <;> first | rfl | simp [SymFnc.create, SymFnc.IsExp, SymFnc.IsAng, SymFnc.setEc, mkCutoff,
      CutoffFunction.init, coreOfCutoff, CutoffType.number, SFKind.number, mkCompact, ha, hl, hc, hlr, hl1, hr1, CutoffFunction.init, CompactFunction.init]
  · obtain ⟨rl, -, h3⟩ := Option.bind_eq_some_iff.1 h3
    obtain ⟨rc, -, h3⟩ := Option.bind_eq_some_iff.1 h3
    obtain ⟨st, -, h3⟩ := Option.bind_eq_some_iff.1 h3
    obtain ⟨hl, core, hc, rfl⟩ := setCompRadial_eq rfl h3
    clear h3
    simp only at hl hc
    refine ⟨?_, rfl⟩
    constructor <;> first | rfl | simp [SymFnc.create, SymFnc.IsExp, SymFnc.IsAng, SymFnc.setEc, mkCutoff,
      CutoffFunction.init, coreOfCutoff, CutoffType.number, SFKind.number, hl, hc]
  · obtain ⟨rl, -, h3⟩ := Option.bind_eq_some_iff.1 h3
    obtain ⟨rc, -, h3⟩ := Option.bind_eq_some_iff.1 h3
    obtain ⟨al, -, h3⟩ := Option.bind_eq_some_iff.1 h3
    obtain ⟨ar, -, h3⟩ := Option.bind_eq_some_iff.1 h3
    obtain ⟨st, -, h3⟩ := Option.bind_eq_some_iff.1 h3
    obtain ⟨U, h4, h3⟩ := Option.bind_eq_some_iff.1 h3
    obtain ⟨hl, core, hc, rfl⟩ := setCompRadial_eq rfl h4
    obtain ⟨l, r, hlr, rfl, hl1, hr1⟩ := setCompAngular_eq rfl h3
    simp only at hl1 hr1
    rw [hl1, hr1] at hlr
    clear h3 h4
    simp only at hl hc
    refine ⟨?_, rfl⟩
    constructor <;> first | rfl | simp [SymFnc.create, SymFnc.IsExp, SymFnc.IsAng, SymFnc.setEc, mkCutoff,
      CutoffFunction.init, coreOfCutoff, CutoffType.number, SFKind.number, mkCompact, hl, hc, hlr, hl1, hr1]
  · obtain ⟨rl, -, h3⟩ := Option.bind_eq_some_iff.1 h3
    obtain ⟨rc, -, h3⟩ := Option.bind_eq_some_iff.1 h3
    obtain ⟨al, -, h3⟩ := Option.bind_eq_some_iff.1 h3
    obtain ⟨ar, -, h3⟩ := Option.bind_eq_some_iff.1 h3
    obtain ⟨st, -, h3⟩ := Option.bind_eq_some_iff.1 h3
    obtain ⟨U, h4, h3⟩ := Option.bind_eq_some_iff.1 h3
    obtain ⟨hl, core, hc, rfl⟩ := setCompRadial_eq rfl h4
    obtain ⟨l, r, hlr, rfl, hl1, hr1⟩ := setCompAngular_eq rfl h3
    simp only at hl1 hr1
    rw [hl1, hr1] at hlr
    clear h3 h4
    simp only at hl hc
    refine ⟨?_, rfl⟩
    constructor <;> first | rfl | simp [SymFnc.create, SymFnc.IsExp, SymFnc.IsAng, SymFnc.setEc, mkCutoff,
      CutoffFunction.init, coreOfCutoff, CutoffType.number, SFKind.number, mkCompact, hl, hc, hlr, hl1, hr1]

theorem FromLine.consistent {E : SFEnv} {tok : List Str} {S : SymFnc}
    (h : SymFnc.FromLine E tok S) : S.Consistent E 1 .HARD 0 := (FromLine.consistent' h).1

/-! ### Whole setup -/

theorem changeLengthUnit_exp {S T : SymFnc} (hS : S.IsExp) {c : ℝ}
    (h : S.changeLengthUnit c = some T) : (0 ≤ S.cutoffAlpha ∧ S.cutoffAlpha < 1) ∧
    T = { S with
      convLength := c, eta := S.eta / (c * c), rs := S.rs * c, rc := S.rc * c
      fc := ⟨S.fc.cutoffType, S.rc * c, 1 / (S.rc * c), S.rc * c * S.cutoffAlpha, S.cutoffAlpha,
        1 / (S.rc * c - S.rc * c * S.cutoffAlpha), S.fc.core⟩ } := by
  unfold SymFnc.changeLengthUnit at h
  rcases hS with hk | hk | hk | hk | hk <;> rw [hk] at h <;>
    simpa [hk] using resetCutoff_eq h

theorem changeLengthUnit_comp {S T : SymFnc} (hS : ¬ S.IsExp) {c : ℝ}
    (h : S.changeLengthUnit c = some T) : S.rl * c < S.rc * c ∧
    T = { S with
      convLength := c, rl := S.rl * c, rc := S.rc * c
      cr := mkCompact S.cr.core (S.rl * c) (S.rc * c) } := by
  unfold SymFnc.changeLengthUnit at h
  unfold SymFnc.IsExp at hS
  push Not at hS
  split at h
  any_goals (exfalso; simp_all; done)
  obtain ⟨cr, h1, h2⟩ := Option.bind_eq_some_iff.1 h
  obtain ⟨h3, rfl⟩ := setLeftRight_eq _ _ _ h1
  cases h2
  exact ⟨h3, rfl⟩

theorem SymFnc.Consistent.change {E : SFEnv} {c c' : ℝ} {α : ℝ} {t : CutoffType}
    {S T : SymFnc} (h : S.Consistent E c t α) (hT : S.changeLengthUnit c' = some T) :
    T.Consistent E c' t α := by
  by_cases hS : S.IsExp
  · obtain ⟨-, rfl⟩ := changeLengthUnit_exp hS hT
    have := h.fc hS
    have h3 := h.cutoffAlpha hS
    constructor
    · exact h.type
    · rfl
    · exact h.cutoffType
    · exact h.cutoffAlpha
    · intro _
      simp only [this, mkCutoff, h3]
    · intro hn; exact absurd hS hn
    · intro hn; exact absurd hS hn
    · exact h.subtype
    · exact h.zeta
    · exact h.elements
    · exact h.other
    · exact h.index
    · exact h.cache
    · exact h.scaling
    · exact h.atomicNumber
    · exact h.unusedExp
    · first | exact h.unusedComp | (intro hn; exact absurd hS hn)
    · exact h.unusedRad
    · exact h.unusedWeighted
    · exact h.radians
    · exact h.unusedScaling
  · obtain ⟨hl, rfl⟩ := changeLengthUnit_comp hS hT
    obtain ⟨-, core, h2, h3⟩ := h.cr hS
    constructor
    · exact h.type
    · rfl
    · exact h.cutoffType
    · exact h.cutoffAlpha
    · intro hn; exact absurd hn hS
    · intro _
      refine ⟨hl, core, h2, ?_⟩
      simp only [h3, mkCompact]
    · intro hn ha
      have := h.ca hn ha
      simpa [mkCompact] using this
    · intro hn; exact absurd hn hS
    · exact h.zeta
    · exact h.elements
    · exact h.other
    · exact h.index
    · exact h.cache
    · exact h.scaling
    · exact h.atomicNumber
    · first | exact h.unusedExp | (intro hn; exact absurd hn hS)
    · exact h.unusedComp
    · exact h.unusedRad
    · exact h.unusedWeighted
    · exact h.radians
    · exact h.unusedScaling

theorem SymFnc.Consistent.setIndex {E : SFEnv} {c : ℝ} {α : ℝ} {t : CutoffType}
    {S : SymFnc} (h : S.Consistent E c t α) (i : ℕ) : (S.setIndex i).Consistent E c t α :=
  ⟨h.type, h.conv, h.cutoffType, h.cutoffAlpha, h.fc, h.cr, h.ca, h.subtype, h.zeta, h.elements,
    h.other, h.index, h.cache, h.scaling, h.atomicNumber, h.unusedExp, h.unusedComp, h.unusedRad,
    h.unusedWeighted, h.radians, by
      have := h.unusedScaling
      unfold SymFnc.setIndex
      simp only
      rw [this]⟩

theorem setCutoffFunction_exp {S T : SymFnc} (hS : S.IsExp) {t : CutoffType} {α : ℝ}
    (h : S.setCutoffFunction t α = some T) : (0 ≤ α ∧ α < 1) ∧
    T = { S with
      cutoffType := t, cutoffAlpha := α
      fc := { S.fc.setCutoffType t with
        alpha := α, rci := S.fc.rc * α, iw := 1 / (S.fc.rc - S.fc.rc * α) }
      subtype := "ct".toList ++ (Nat.toDigits 10 t.number) } := by
  unfold SymFnc.setCutoffFunction at h
  rcases hS with hk | hk | hk | hk | hk <;> rw [hk] at h <;>
  · obtain ⟨fc, h1, h2⟩ := Option.bind_eq_some_iff.1 h
    obtain ⟨h3, rfl⟩ := setCutoffParameter_eq _ _ h1
    cases h2
    exact ⟨h3, by simp [CutoffFunction.setCutoffType, hk]⟩

theorem setCutoffFunction_comp {S T : SymFnc} (hS : ¬ S.IsExp) {t : CutoffType} {α : ℝ}
    (h : S.setCutoffFunction t α = some T) : T = S := by
  unfold SymFnc.setCutoffFunction at h
  unfold SymFnc.IsExp at hS
  push Not at hS
  split at h
  any_goals (exfalso; simp_all; done)
  cases h; rfl

theorem SymFnc.Consistent.cutoff {E : SFEnv} {c : ℝ} {α : ℝ} {t : CutoffType}
    {S T : SymFnc} (h : S.Consistent E c .HARD 0) (hT : S.setCutoffFunction t α = some T) :
    T.Consistent E c t α ∧ (T.IsExp → 0 ≤ α ∧ α < 1) := by
  by_cases hS : S.IsExp
  · obtain ⟨h3, rfl⟩ := setCutoffFunction_exp hS hT
    have := h.fc hS
    refine ⟨?_, fun _ => h3⟩
    constructor
    · exact h.type
    · exact h.conv
    · intro _; rfl
    · intro _; rfl
    · intro _
      simp only [this, mkCutoff, CutoffFunction.setCutoffType, coreOfCutoff]
      cases t <;> rfl
    · intro hn; exact absurd hS hn
    · intro hn; exact absurd hS hn
    · intro _; rfl
    · exact h.zeta
    · exact h.elements
    · exact h.other
    · exact h.index
    · exact h.cache
    · exact h.scaling
    · exact h.atomicNumber
    · exact h.unusedExp
    · first | exact h.unusedComp | (intro hn; exact absurd hS hn)
    · exact h.unusedRad
    · exact h.unusedWeighted
    · exact h.radians
    · exact h.unusedScaling
  · rw [setCutoffFunction_comp hS hT]
    refine ⟨?_, fun hn => absurd hn hS⟩
    exact ⟨h.type, h.conv, fun hn => absurd hn hS, fun hn => absurd hn hS, fun hn => absurd hn hS,
      h.cr, h.ca, fun hn => absurd hn hS, h.zeta, h.elements, h.other, h.index, h.cache, h.scaling,
      h.atomicNumber, h.unusedExp, h.unusedComp, h.unusedRad, h.unusedWeighted, h.radians,
      h.unusedScaling⟩

theorem mapM_forall2 {α β : Type} {f : α → Option β} : ∀ {l : List α} {l' : List β},
    l.mapM f = some l' → List.Forall₂ (fun a b => f a = some b) l l'
  | [], l', h => by simp at h; subst h; exact .nil
  | a :: l, l', h => by
    rw [List.mapM_cons] at h
    obtain ⟨b, h1, h⟩ := Option.bind_eq_some_iff.1 h
    obtain ⟨bs, h2, h⟩ := Option.bind_eq_some_iff.1 h
    cases h
    exact .cons h1 (mapM_forall2 h2)

theorem addSymmetryFunction_forall2 {E : SFEnv} : ∀ {lines : List (List Str)} {Ss Ts : List SymFnc},
    lines.foldlM (addSymmetryFunction E) Ss = some Ts →
    ∃ Us, Ts = Ss ++ Us ∧ List.Forall₂ (SymFnc.FromLine E) lines Us
  | [], Ss, Ts, h => by simp at h; subst h; exact ⟨[], by simp, .nil⟩
  | l :: lines, Ss, Ts, h => by
    rw [List.foldlM_cons] at h
    obtain ⟨Ss', h1, h⟩ := Option.bind_eq_some_iff.1 h
    obtain ⟨Us, rfl, h2⟩ := addSymmetryFunction_forall2 h
    unfold addSymmetryFunction at h1
    obtain ⟨ty, h3, h1⟩ := Option.bind_eq_some_iff.1 h1
    obtain ⟨kind, h4, h1⟩ := Option.bind_eq_some_iff.1 h1
    obtain ⟨S, h5, h1⟩ := Option.bind_eq_some_iff.1 h1
    cases h1
    exact ⟨S :: Us, by simp, .cons ⟨ty, kind, h3, h4, h5⟩ h2⟩

/-- The function obtained from a line by the whole setup, with a given index. -/
def SymFnc.SetUpFrom (E : SFEnv) (conv : Option ℝ) (t : CutoffType) (α : ℝ) (tok : List Str)
    (i : ℕ) (T : SymFnc) : Prop :=
  ∃ S U : SymFnc, SymFnc.FromLine E tok S ∧
    (match conv with
      | some c => S.changeLengthUnit c
      | none => some S) = some U ∧
    (U.setIndex i).setCutoffFunction t α = some T

theorem setupSymmetryFunctions_iff {E : SFEnv} {lines : List (List Str)} {conv : Option ℝ}
    {t : CutoffType} {α : ℝ} {Ts : List SymFnc} (h : SetupSymmetryFunctions E lines conv t α Ts) :
    ∃ ls : List (List Str), ls.Perm lines ∧ ls.length = Ts.length ∧
      ∀ i T, Ts[i]? = some T → ∃ tok, ls[i]? = some tok ∧
        SymFnc.SetUpFrom E conv t α tok i T := by
  obtain ⟨Ss, Us, Vs, h1, h2, ⟨l, hl, -, rfl⟩, h4⟩ := h
  have hadd : List.Forall₂ (SymFnc.FromLine E) lines Ss := by
    obtain ⟨Ss', e, h1⟩ := addSymmetryFunction_forall2 h1
    rw [e]; exact h1
  clear h1
  have h12 : List.Forall₂ (fun tok U => ∃ S, SymFnc.FromLine E tok S ∧
      (match conv with
        | some c => S.changeLengthUnit c
        | none => some S) = some U) lines Us := by
    cases conv with
    | none =>
      cases h2
      exact hadd.imp fun a b hab => ⟨b, hab, rfl⟩
    | some c =>
      have := mapM_forall2 h2
      clear h2 h4 hl
      induction hadd generalizing Us with
      | nil => cases this; exact .nil
      | cons ha _ ih =>
        cases this with
        | cons hb hc => exact .cons ⟨_, ha, hb⟩ (ih _ hc)
  obtain ⟨ls, hp, h5⟩ : ∃ ls : List (List Str), ls.Perm lines ∧
      List.Forall₂ (fun tok U => ∃ S, SymFnc.FromLine E tok S ∧
      (match conv with
        | some c => S.changeLengthUnit c
        | none => some S) = some U) ls l := by
    obtain ⟨k, hk1, hk2⟩ := (List.forall₂_comp_perm_eq_perm_comp_forall₂ ..).le lines l
      ⟨Us, h12, hl.symm⟩
    exact ⟨k, hk1.symm, hk2⟩
  have h6 := mapM_forall2 h4
  have hlen : ls.length = Ts.length := by
    rw [h5.length_eq, ← h6.length_eq]; simp
  refine ⟨ls, hp, hlen, fun i T hT => ?_⟩
  have hi : i < Ts.length := (List.getElem?_eq_some_iff.1 hT).1
  have h7 := (List.forall₂_iff_get.1 h5).2 i (by omega) (by rw [← h5.length_eq]; omega)
  have h8 := (List.forall₂_iff_get.1 h6).2 i (by rw [h6.length_eq]; omega) hi
  obtain ⟨S, h9, h10⟩ := h7
  refine ⟨ls[i], by simp [hlen, hi], S, _, h9, h10, ?_⟩
  obtain ⟨_, e⟩ := List.getElem?_eq_some_iff.1 hT
  simp only [List.get_eq_getElem, List.getElem_mapIdx] at h8 ⊢
  rw [h8, e]

theorem SymFnc.SetUpFrom.consistent {E : SFEnv} {conv : Option ℝ} {t : CutoffType} {α : ℝ}
    {tok : List Str} {i : ℕ} {T : SymFnc} (h : SymFnc.SetUpFrom E conv t α tok i T) :
    T.Consistent E (conv.getD 1) t α ∧ (T.IsExp → 0 ≤ α ∧ α < 1) ∧ T.index = i := by
  obtain ⟨S, U, h1, h2, h3⟩ := h
  have hU : U.Consistent E (conv.getD 1) .HARD 0 := by
    cases conv with
    | none => cases h2; exact FromLine.consistent h1
    | some c => exact (FromLine.consistent h1).change h2
  obtain ⟨h4, h5⟩ := (hU.setIndex i).cutoff h3
  refine ⟨h4, h5, ?_⟩
  by_cases hS : (U.setIndex i).IsExp
  · obtain ⟨-, rfl⟩ := setCutoffFunction_exp hS h3; rfl
  · rw [setCutoffFunction_comp hS h3]; rfl

end N2P2
