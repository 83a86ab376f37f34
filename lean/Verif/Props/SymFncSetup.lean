import Verif.Lemma.SymFncLine
import Verif.Lemma.SymFncOrder
import Verif.Lemma.SymFncUnits
import Verif.Lemma.SymFncMemory
import Verif.Lemma.SymFncCache
import Verif.Props.SymFnc

/-! Properties of the setup of symmetry functions. -/

namespace N2P2

/-! ### Concrete settings -/

/-- Value of a text of digits. -/
def exDigits (s : Str) : ℕ := s.foldl (fun n c => 10 * n + (c.toNat - 48)) 0

open Classical in
/-- Two elements H and O; the parsers understand texts of digits. -/
noncomputable def exEnv : SFEnv where
  numElements := 2
  element s := if s = ['H'] then some 0 else if s = ['O'] then some 1 else none
  atomicNumber e := if e = 0 then 1 else 8
  atoi s := exDigits s
  atof s := exDigits s
  fmt x := List.replicate 15 ' ' ++ [if x = 0 then '0' else '1']

/-- `H 2 e 1 0 3`: radial function for neighbours of element `e`. -/
def exRadLine (e : Str) : List Str := [['H'], ['2'], e, ['1'], ['0'], ['3']]

/-- `H 9 H O 1 1 1 3`: wide angular function. -/
def exAngLine : List Str := [['H'], ['9'], ['H'], ['O'], ['1'], ['1'], ['1'], ['3']]

/-- `H 9 H O 1 1 1 3 2`: wide angular function with shift. -/
def exAngLine2 : List Str := [['H'], ['9'], ['H'], ['O'], ['1'], ['1'], ['1'], ['3'], ['2']]

noncomputable def exRad (e : ℕ) : SymFnc :=
  { SymFnc.create exEnv .ExpRad with e1 := e, eta := 1, rs := 0, rc := 3, fc := mkCutoff .HARD 3 0 }

noncomputable def exAng (rs : ℝ) : SymFnc :=
  { SymFnc.create exEnv .ExpAngw with
    e1 := 0, e2 := 1, eta := 1, lambda := 1, zeta := 1, zetaInt := 1, useIntegerPow := true,
    rs := rs, rc := 3, fc := mkCutoff .HARD 3 0 }

theorem resetCutoff_some (S : SymFnc) (h : 0 ≤ S.cutoffAlpha ∧ S.cutoffAlpha < 1) :
    S.resetCutoff = some { S with fc :=
      ⟨S.fc.cutoffType, S.rc, 1 / S.rc, S.rc * S.cutoffAlpha, S.cutoffAlpha,
        1 / (S.rc - S.rc * S.cutoffAlpha), S.fc.core⟩ } := by
  unfold SymFnc.resetCutoff CutoffFunction.setCutoffParameter
  rw [if_neg (by push Not; exact h)]
  norm_num [CutoffFunction.setCutoffRadius]

theorem exRad_line (Ss : List SymFnc) (s : Str) (e : ℕ) (h : exEnv.element s = some e) :
    addSymmetryFunction exEnv Ss (exRadLine s) = some (Ss ++ [exRad e]) := by
  have a : exEnv.atoi ['2'] = 2 := rfl
  have b : exEnv.atof ['3'] = 3 := by simp [exEnv, exDigits]
  have c : exEnv.atof ['1'] = 1 := by simp [exEnv, exDigits]
  have d : exEnv.atof ['0'] = 0 := by simp [exEnv, exDigits]
  have f : exEnv.element ['H'] = some 0 := rfl
  unfold addSymmetryFunction
  simp [exRadLine, a, SFKind.ofNumber, SymFnc.setParameters, SymFnc.create, SFKind.number, b, c, d,
    f, h, SFEnv.elem, SFEnv.num, SymFnc.setEc, resetCutoff_some, CutoffFunction.init, exRad,
    mkCutoff, coreOfCutoff]

theorem exAng_line (Ss : List SymFnc) :
    addSymmetryFunction exEnv Ss exAngLine = some (Ss ++ [exAng 0]) ∧
    addSymmetryFunction exEnv Ss exAngLine2 = some (Ss ++ [exAng 2]) := by
  have a : exEnv.atoi ['9'] = 9 := rfl
  have b : exEnv.atof ['3'] = 3 := by simp [exEnv, exDigits]
  have c : exEnv.atof ['1'] = 1 := by simp [exEnv, exDigits]
  have d : exEnv.atof ['2'] = 2 := by simp [exEnv, exDigits]
  have f : exEnv.element ['H'] = some 0 := rfl
  have g : exEnv.element ['O'] = some 1 := rfl
  have r : roundInt 1 = 1 := by
    unfold roundInt
    rw [if_pos (by norm_num)]
    norm_num [Int.floor_eq_iff]
  have z : 0 ≤ DBL_MIN := by unfold DBL_MIN; positivity
  unfold addSymmetryFunction
  constructor <;>
  simp [exAngLine, exAngLine2, a, SFKind.ofNumber, SymFnc.setParameters, SymFnc.create,
    SFKind.number, b, c, d, f, g, SFEnv.elem, SFEnv.num, SymFnc.setEc, resetCutoff_some,
    CutoffFunction.init, exAng, mkCutoff, coreOfCutoff, SymFnc.orderElements, SymFnc.setZetaInt,
    r, z]

/-- A function given index `i` and the cosine cutoff function. -/
noncomputable def exFinal (i : ℕ) (S : SymFnc) : SymFnc :=
  { S.setIndex i with cutoffType := .COS, fc := mkCutoff .COS 3 0, subtype := "ct1".toList }

theorem exFinal_eq (i : ℕ) (S : SymFnc) (h : (∃ e, S = exRad e) ∨ ∃ rs, S = exAng rs) :
    (S.setIndex i).setCutoffFunction .COS 0 = some (exFinal i S) := by
  have : ∀ c : CutoffFunction, c = mkCutoff .HARD 3 0 →
      (c.setCutoffType .COS).setCutoffParameter 0 = some (mkCutoff .COS 3 0) := by
    rintro c rfl
    unfold CutoffFunction.setCutoffParameter
    rw [if_neg (by norm_num)]
    norm_num [mkCutoff, CutoffFunction.setCutoffType, coreOfCutoff]
  rcases h with ⟨e, rfl⟩ | ⟨rs, rfl⟩
  · simp [exRad, SymFnc.create, SymFnc.setCutoffFunction, SymFnc.setIndex, this, exFinal]
    rfl
  · simp [exAng, SymFnc.create, SymFnc.setCutoffFunction, SymFnc.setIndex, this, exFinal]
    rfl

theorem exRad_lt (e : ℕ) (rs : ℝ) : ¬ (exAng rs).lt (exRad e) := by
  simp [SymFnc.lt, SymFnc.lexStep, exAng, exRad, SymFnc.create, SFKind.number]

theorem exRad_lt' : ¬ (exRad 1).lt (exRad 0) := by
  simp [SymFnc.lt, SymFnc.lexStep, exRad, SymFnc.create, SFKind.number]

/-- The setup of two lines. -/
theorem exSetup2 : SetupSymmetryFunctions exEnv [exRadLine ['H'], exAngLine] none .COS 0
    [exFinal 0 (exRad 0), exFinal 1 (exAng 0)] := by
  refine ⟨[exRad 0, exAng 0], [exRad 0, exAng 0], _, ?_, rfl,
    ⟨[exRad 0, exAng 0], List.Perm.refl _, ?_, rfl⟩, ?_⟩
  · simp [exRad_line _ ['H'] 0 rfl, exAng_line]
  · simp [exRad_lt]
  · simp [exFinal_eq _ _ (Or.inl ⟨_, rfl⟩), exFinal_eq _ _ (Or.inr ⟨_, rfl⟩)]

/-- The setup of three lines, given in another order. -/
theorem exSetup3 : SetupSymmetryFunctions exEnv [exAngLine, exRadLine ['O'], exRadLine ['H']] none
    .COS 0 [exFinal 0 (exRad 0), exFinal 1 (exRad 1), exFinal 2 (exAng 0)] := by
  refine ⟨[exAng 0, exRad 1, exRad 0], [exAng 0, exRad 1, exRad 0], _, ?_, rfl,
    ⟨[exRad 0, exRad 1, exAng 0], ?_, ?_, rfl⟩, ?_⟩
  · simp [exRad_line _ ['H'] 0 rfl, exRad_line _ ['O'] 1 rfl, exAng_line]
  · exact (List.reverse_perm [exAng 0, exRad 1, exRad 0])
  · simp [exRad_lt, exRad_lt']
  · simp [exFinal_eq _ _ (Or.inl ⟨_, rfl⟩), exFinal_eq _ _ (Or.inr ⟨_, rfl⟩)]

/-! ### C55 -/

/-- C55: the comparison of symmetry functions is a strict weak order. (The type number is set by the
constructors and never changed.) -/
theorem C55_strict_weak_order (S T U : SymFnc) (hS : S.sc.type = S.kind.number)
    (hT : T.sc.type = T.kind.number) (hU : U.sc.type = U.kind.number) :
    (¬ S.lt S) ∧ (S.lt T → ¬ T.lt S) ∧ (S.lt T → T.lt U → S.lt U) ∧
    ((¬ S.lt T ∧ ¬ T.lt S) → (¬ T.lt U ∧ ¬ U.lt T) → ¬ S.lt U ∧ ¬ U.lt S) := by
  have h := SymFnc.lt_weakOn
  refine ⟨fun h1 => h.asymm S S hS hS h1 h1, h.asymm S T hS hT, fun h1 h2 => ?_, fun h1 h2 => ?_⟩
  · by_contra h3
    exact h.neg S U T hS hU hT h3 (h.asymm T U hT hU h2) h1
  · exact ⟨h.neg S T U hS hT hU h1.1 h2.1, h.neg U T S hU hT hS h2.2 h1.2⟩

example : (exRad 0).lt (exRad 1) ∧ (exRad 1).lt (exAng 0) ∧ (exRad 0).sc.type = (exRad 0).kind.number ∧
    (exRad 1).sc.type = (exRad 1).kind.number ∧ (exAng 0).sc.type = (exAng 0).kind.number := by
  simp [SymFnc.lt, SymFnc.lexStep, exRad, exAng, SymFnc.create, SFKind.number]

/-- C55 (partial): functions neither of which precedes the other are exactly those reported equal.
Missing: for the types 3 and 9 `operator==` does not compare the shift (`C55_shift_ignored`), so
that equal shifts have to be assumed. -/
theorem C55_equal_iff_incomparable_partial (S T : SymFnc) (hS : S.sc.type = S.kind.number)
    (hT : T.sc.type = T.kind.number)
    (hrs : S.kind = .ExpAngn ∨ S.kind = .ExpAngw → S.rs = T.rs) :
    (¬ S.lt T ∧ ¬ T.lt S) ↔ S.eq T := by
  rw [SymFnc.incomparable_iff hS hT]
  exact ⟨fun h => h.1, fun h => ⟨h, hrs⟩⟩

example : (exFinal 1 (exRad 0)).eq (exFinal 2 (exRad 0)) ∧
    ¬ (exFinal 1 (exRad 0)).eq (exFinal 2 (exRad 1)) := by
  simp [SymFnc.eq, exFinal, exRad, SymFnc.create, SymFnc.setIndex]

/-- C55 is false for the angular types: two lines which differ in the shift only give functions
which are reported equal, although one precedes the other. -/
theorem C55_shift_ignored : ∃ (E : SFEnv) (l l' : List Str) (S T : SymFnc),
    addSymmetryFunction E [] l = some [S] ∧ addSymmetryFunction E [] l' = some [T] ∧
    S.rs ≠ T.rs ∧ S.eq T ∧ S.lt T := by
  refine ⟨exEnv, exAngLine, exAngLine2, exAng 0, exAng 2, (exAng_line []).1, (exAng_line []).2,
    ?_, ?_, ?_⟩
  · simp [exAng, SymFnc.create]
  · simp [SymFnc.eq, exAng, SymFnc.create]
  · simp [SymFnc.lt, SymFnc.lexStep, exAng, SymFnc.create, SFKind.number]

/-- C55: the functions of an element do not depend on the order of the lines in the settings file
nor on the way `std::sort` arranges equal entries. -/
theorem C55_line_order (E : SFEnv) (lines lines' : List (List Str)) (conv : Option ℝ)
    (t : CutoffType) (α : ℝ) (Ts Ts' : List SymFnc)
    (h : SetupSymmetryFunctions E lines conv t α Ts) (hp : lines.Perm lines')
    (h' : SetupSymmetryFunctions E lines' conv t α Ts') : Ts = Ts' :=
  setupSymmetryFunctions_unique h hp h'

example (Ts : List SymFnc)
    (h : SetupSymmetryFunctions exEnv [exRadLine ['H'], exRadLine ['O'], exAngLine] none .COS 0 Ts) :
    Ts = [exFinal 0 (exRad 0), exFinal 1 (exRad 1), exFinal 2 (exAng 0)] :=
  C55_line_order _ _ _ _ _ _ _ _ h
    (List.reverse_perm [exAngLine, exRadLine ['O'], exRadLine ['H']]) exSetup3

/-! ### C72 -/

/-- C72: each line of the settings file gives one function, whose parameters are the documented
columns of the line. -/
theorem C72_documented_columns (E : SFEnv) (lines : List (List Str)) (conv : Option ℝ)
    (t : CutoffType) (α : ℝ) (Ts : List SymFnc) (h : SetupSymmetryFunctions E lines conv t α Ts) :
    ∃ ls : List (List Str), ls.Perm lines ∧
      List.Forall₂ (fun tok T => SymFnc.Documented E (conv.getD 1) tok T) ls Ts := by
  obtain ⟨ls, h1, h2, h3⟩ := setupSymmetryFunctions_iff h
  refine ⟨ls, h1, List.forall₂_iff_get.2 ⟨h2, fun i hi hi' => ?_⟩⟩
  obtain ⟨tok, h4, h5⟩ := h3 i _ (List.getElem?_eq_getElem hi')
  have : ls.get ⟨i, hi⟩ = tok := by
    rw [List.getElem?_eq_getElem hi] at h4
    exact Option.some.inj h4
  rw [this]
  exact h5.documented

/-- C72: the functions after the setup are usable: they are numbered in order, cutoff and compact
functions are configured with the chosen type and the radii and angles of the function, and
everything `calculate` needs to know about the parameters holds. -/
theorem C72_usable (E : SFEnv) (lines : List (List Str)) (conv : Option ℝ) (t : CutoffType) (α : ℝ)
    (Ts : List SymFnc) (h : SetupSymmetryFunctions E lines conv t α Ts) (i : ℕ) (T : SymFnc)
    (hT : Ts[i]? = some T) :
    T.index = i ∧ (T.IsExp → T.fc.Configured t T.rc α) ∧
    (∀ x ∈ documentedSubtypes, ¬ T.IsExp → T.subtype = x.1.toList →
      T.cr.Configured x.2.1 x.2.2 T.rl T.rc ∧
      (T.IsAng → T.ca.Configured x.2.1 false T.angleLeftRadians T.angleRightRadians)) ∧
    (0 < T.rc → (T.IsExp → T.IsAng → 0 < T.zeta ∧
      (|T.zeta - roundInt T.zeta| ≤ DBL_MIN → T.zeta = roundInt T.zeta)) → T.Valid) := by
  obtain ⟨ls, h1, h2, h3⟩ := setupSymmetryFunctions_iff h
  obtain ⟨tok, h4, h5⟩ := h3 i T hT
  obtain ⟨h6, h7, h8⟩ := h5.consistent
  refine ⟨h8, fun hx => by rw [h6.fc hx]; exact mkCutoff_configured (h7 hx), ?_,
    fun hrc hz => h6.valid h7 hrc hz⟩
  intro x hx hn hs
  obtain ⟨k1, core, k2, k3⟩ := h6.cr hn
  have hc : SymFnc.compactCore x.1.toList = some x.2 := by
    clear hs
    revert x
    decide +kernel
  rw [hs, hc, Option.some.injEq] at k2
  subst k2
  refine ⟨by rw [k3]; exact mkCompact_configured k1, fun ha => ?_⟩
  obtain ⟨k4, k5⟩ := h6.ca hn ha
  rw [k5, k3]
  exact mkCompact_configured k4

example : ∃ T : SymFnc, T.kind = .ExpAngw ∧ T.rc = 3 ∧ T.Valid := by
  refine ⟨exFinal 1 (exAng 0), rfl, rfl, ?_⟩
  refine (C72_usable _ _ _ _ _ _ exSetup2 1 _ rfl).2.2.2 ?_ fun _ _ => ?_
  · show (0 : ℝ) < 3
    norm_num
  · have r : roundInt 1 = 1 := by
      unfold roundInt
      rw [if_pos (by norm_num)]
      norm_num [Int.floor_eq_iff]
    show (0 : ℝ) < 1 ∧ (_ → (1 : ℝ) = roundInt 1)
    rw [r]
    norm_num

/-! ### C73 -/

/-- C73: switching on the conversion of the length unit gives the same functions in the same order,
acting on environments measured in the new unit. -/
theorem C73_length_unit (E : SFEnv) (lines : List (List Str)) (c : ℝ) (hc : 0 < c) (t : CutoffType)
    (α : ℝ) (Ts Ts' : List SymFnc) (h : SetupSymmetryFunctions E lines none t α Ts)
    (h' : SetupSymmetryFunctions E lines (some c) t α Ts') :
    List.Forall₂ (fun T T' => T'.kind = T.kind ∧ T'.rc = T.rc * c ∧
      ∀ env, T'.formula (scaleEnv c env) = T.formula env) Ts Ts' :=
  (setupSymmetryFunctions_units hc h h').imp fun _ _ hu => ⟨hu.kind, hu.rc, fun env => hu.formula hc env⟩

/-- One radial line, in the original units and in half of them. -/
example : ∃ T T' : SymFnc, T.rc = 3 ∧ T'.rc = 3 * 2 ∧
    ∀ env, T'.formula (scaleEnv 2 env) = T.formula env := by
  have h1 : SetupSymmetryFunctions exEnv [exRadLine ['H']] none .COS 0 [exFinal 0 (exRad 0)] := by
    refine ⟨[exRad 0], [exRad 0], _, ?_, rfl, ⟨[exRad 0], List.Perm.refl _, ?_, rfl⟩, ?_⟩
    · simp [exRad_line _ ['H'] 0 rfl]
    · simp
    · simp [exFinal_eq _ _ (Or.inl ⟨_, rfl⟩)]
  obtain ⟨U, hU⟩ : ∃ U, (exRad 0).changeLengthUnit 2 = some U :=
    ⟨_, resetCutoff_some _ (by norm_num [exRad, SymFnc.create])⟩
  obtain ⟨-, eU⟩ := changeLengthUnit_exp (S := exRad 0) (Or.inl rfl) hU
  have kU : U.kind = .ExpRad := by rw [eU]; rfl
  obtain ⟨T', hT'⟩ : ∃ T', (U.setIndex 0).setCutoffFunction .COS 0 = some T' := by
    unfold SymFnc.setCutoffFunction
    simp only [SymFnc.setIndex, kU, CutoffFunction.setCutoffParameter]
    rw [if_neg (by norm_num)]
    exact ⟨_, rfl⟩
  have h2 : SetupSymmetryFunctions exEnv [exRadLine ['H']] (some 2) .COS 0 [T'] := by
    refine ⟨[exRad 0], [U], _, ?_, ?_, ⟨[U], List.Perm.refl _, ?_, rfl⟩, ?_⟩
    · simp [exRad_line _ ['H'] 0 rfl]
    · simp only [List.mapM_cons, List.mapM_nil, hU]
      rfl
    · simp
    · simp [hT']
  have h3 := C73_length_unit _ _ 2 two_pos _ _ _ _ h1 h2
  obtain ⟨⟨-, h4, h5⟩, -⟩ := List.forall₂_cons.1 h3
  exact ⟨_, T', rfl, h4, h5⟩

end N2P2
