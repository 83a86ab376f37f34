import Verif.Lemma.ShapeFile
import Verif.Props.SymFnc
import Verif.Props.Sensitivity

/-! Property C111: files of nnp-symfunc with the shape of the symmetry functions. -/

namespace N2P2

open SymFnc

/-- C111: the documented formula of every symmetry function is made of the radial and the angular part. -/
theorem C111_parts (S : SymFnc) (env : List Site) :
    S.formula env = S.fromParts S.radialPart S.angularPart env :=
  formula_parts S env

/-- C111: nnp-symfunc writes a file for every symmetry function of every element, and nothing else. Its table samples
distances from 0 to the largest cutoff radius of all functions and angles from 0 to π in equal steps, with the radial
and the angular part of the function there. Missing: the radial part is the third power for narrow weighted
functions, and compact functions are not cut off outside of their support. -/
theorem C111_files_partial {F : FloatText} (hF : F.Data) {els : List ShapeElement} (h : ShapeSetup els) {n : ℕ} (hn : n ≠ 0)
    {M : ℝ} (hM : IsGreatest {r | ∃ e ∈ els, ∃ S ∈ e.functions, S.rc = r} M) (fs : Files) :
    ∃ fs', writeSymmetryFunctionShape F n els fs = some fs' ∧
      (∀ e ∈ els, ∀ (j : ℕ) (S : SymFnc), e.functions[j]? = some S →
        ∃ text, fs' (shapeFile e.Z (j + 1)) = some text ∧ (fileTable text).length = n + 1 ∧
          (∀ (k : ℕ) (row : List Str), (fileTable text)[k]? = some row →
            ShapeRow F S (k * (M / n)) (k * (Real.pi / n)) row) ∧
          ∀ l ∈ e.info S.index, "#SFINFO ".toList ++ l ∈ readLines text) ∧
      ∀ x, (∀ e ∈ els, ∀ j < e.functions.length, x ≠ shapeFile e.Z (j + 1)) → fs' x = fs x := by
  let L : List (ShapeElement × SymFnc × ℕ) := els.flatMap fun e => e.functions.zipIdx.map fun p => (e, p)
  let step : Files → ShapeElement × SymFnc × ℕ → Option Files := fun fs p => writeShape F (shapeCutoff els) n p.1 fs p.2
  have htool : writeSymmetryFunctionShape F n els fs = L.foldlM step fs := by
    unfold writeSymmetryFunctionShape
    rw [foldlM_flatMap]
    congr 1
    funext fs e
    rw [List.foldlM_map]
  have hcut : shapeCutoff els = M := shapeCutoff_eq (fun e he S hS => (h.valid e he S hS).1.rc_pos) hM
  have hL : ∀ p, p ∈ L ↔ p.1 ∈ els ∧ p.1.functions[p.2.2]? = some p.2.1 := by
    rintro ⟨e, S, j⟩
    constructor
    · intro hp
      obtain ⟨e', he, hp⟩ := List.mem_flatMap.1 hp
      obtain ⟨q, hq, hqp⟩ := List.mem_map.1 hp
      obtain ⟨rfl, rfl⟩ := Prod.mk.inj hqp
      exact ⟨he, List.mem_zipIdx_iff_getElem?.1 hq⟩
    · rintro ⟨he, hj⟩
      exact List.mem_flatMap.2 ⟨e, he, List.mem_map.2 ⟨(S, j), List.mem_zipIdx_iff_getElem?.2 hj, rfl⟩⟩
  have hstep : ∀ p ∈ L, ∃ text, (∀ fs, step fs p = some (fs.write (shapeFile p.1.Z (p.2.2 + 1)) text)) ∧
      fileTable text = ((List.range (n + 1)).map fun k : ℕ =>
        shapeWords F p.2.1 (k * (M / n)) (k * (Real.pi / n))) ∧
      ∀ l ∈ p.1.info p.2.1.index, "#SFINFO ".toList ++ l ∈ readLines text := by
    intro p hp
    obtain ⟨he, hj⟩ := (hL p).1 hp
    obtain ⟨h1, h2⟩ := h.number p.1 he
    have h3 := (List.getElem?_eq_some_iff.1 hj).1
    rw [← hcut]
    exact writeShape_ok hF _ hn h1 (h.info p.1 he) (by omega)
  choose! out ho1 ho2 ho3 using hstep
  have hpw : L.Pairwise fun a b => shapeFile a.1.Z (a.2.2 + 1) ≠ shapeFile b.1.Z (b.2.2 + 1) := by
    refine List.pairwise_flatMap.2 ⟨fun e _ => ?_, ?_⟩
    · rw [List.pairwise_map, List.pairwise_iff_getElem]
      intro i j hi hj hij hx
      have := (shapeFile_inj hx).2
      simp only [List.getElem_zipIdx] at this
      omega
    · refine h.distinct.imp ?_
      intro a b hab x hx y hy hxy
      obtain ⟨p, -, rfl⟩ := List.mem_map.1 hx
      obtain ⟨q, -, rfl⟩ := List.mem_map.1 hy
      exact hab (shapeFile_inj hxy).1
  obtain ⟨fs', e, h3, h4⟩ := fold_writes step (fun p => shapeFile p.1.Z (p.2.2 + 1)) (fun p => some (out p)) L fs
    (fun p hp fs => ho1 p hp fs) hpw
  refine ⟨fs', htool.trans e, ?_, ?_⟩
  · intro e he j S hS
    have hp := (hL (e, S, j)).2 ⟨he, hS⟩
    refine ⟨out (e, S, j), h3 _ hp _ rfl, ?_, ?_, ho3 _ hp⟩
    · rw [ho2 _ hp]
      simp
    · intro k row hrow
      rw [ho2 _ hp, List.getElem?_map] at hrow
      obtain ⟨k', hk', rfl⟩ := Option.map_eq_some_iff.1 hrow
      obtain ⟨hlt, hk''⟩ := List.getElem?_eq_some_iff.1 hk'
      rw [List.getElem_range] at hk''
      subst hk''
      obtain ⟨hv, hc⟩ := h.valid e he S (List.mem_of_getElem? hS)
      exact shapeWords_row hv hc _ _
  · intro x hx
    refine h4 x fun p hp _ => ?_
    obtain ⟨he, hj⟩ := (hL p).1 hp
    exact hx p.1 he _ (List.getElem?_eq_some_iff.1 hj).1

/-- C111 does not hold for narrow weighted functions: the third power of the radial part is written. -/
theorem C111_weighted_cubed (S : SymFnc) (hk : S.kind = .ExpAngnWeighted) (hc : S.convLength = 1) (r : ℝ) :
    S.calculateRadialPart r = some (S.radialPart r ^ 3) := by
  have hg : Real.exp (-S.eta * (r - S.rs) * (r - S.rs)) = S.gauss r := by
    unfold gauss
    congr 1
    ring
  have he : S.IsExp := by simp [IsExp, hk]
  unfold calculateRadialPart radialPart
  simp only [hc, mul_one, hg, hk]
  rw [if_pos he]
  congr 1
  ring

/-- C111 does not hold outside of the support of compact functions (with the second polynomial): the documented part is zero
there, but a negative number is written. -/
theorem C111_outside_support (S : SymFnc) (he : ¬ S.IsExp) (hc : S.convLength = 1)
    (hcr : S.cr.Configured .POLY2 false S.rl S.rc) (r : ℝ) (hr : S.rc < r ∨ r < S.rl) :
    S.radialPart r = 0 ∧ ∃ v < 0, S.calculateRadialPart r = some v := by
  obtain ⟨hlr, h1, h2, -, -⟩ := hcr.cfg
  have hw : 0 < (S.rc - S.rl) / 2 := by linarith
  have hx : 1 < |(r - S.cr.center) * S.cr.scale| := by
    rw [h1, h2, mul_one_div, lt_abs]
    rcases hr with hr | hr
    · left
      rw [one_lt_div hw]
      linarith
    · right
      rw [← neg_div, one_lt_div hw]
      linarith
  refine ⟨?_, S.cr.f r, ?_, ?_⟩
  · unfold radialPart radial compact
    rw [if_neg he, if_neg]
    rintro ⟨h3, h4⟩
    rcases hr with hr | hr <;> linarith
  · unfold CompactFunction.f CoreFunction.f
    rw [hcr.1]
    simp only [Bool.false_eq_true, if_false, CoreType.f]
    generalize |(r - S.cr.center) * S.cr.scale| = x at hx
    have e : ((15.0 - 6.0 * x) * x - 10.0) * x * x * x + 1.0 = -((x - 1) ^ 3 * (6 * x ^ 2 + 3 * x + 1)) := by
      norm_num
      ring
    rw [e]
    have : 0 < x - 1 := by linarith
    have : 0 < x := by linarith
    exact neg_neg_of_pos (by positivity)
  · have hfin : S.cr.finite r = some (S.cr.f r) := by
      refine if_pos ?_
      intro h
      rw [hcr.1] at h
      cases h
    unfold calculateRadialPart
    simp only [hc, mul_one]
    unfold IsExp at he
    generalize S.kind = k at *
    cases k <;> simp_all

/-- The third column is announced in degrees, although it has radians (the last line of the table has angle π). -/
theorem C111_header : ∃ h, shapeHeader = some h ∧ ∃ l ∈ h, "Angle in degrees.\n".toList <:+ l := by
  refine ⟨_, rfl, ?_⟩
  decide +kernel

/-! ### Examples -/

/-- Elements hydrogen and oxygen. -/
noncomputable def exShape (fc : CutoffFunction) (cr ca : CompactFunction) : List ShapeElement :=
  [⟨1, fun _ => ["lambda 1".toList], [exSym .ExpAngw fc cr ca [[], []]]⟩,
    ⟨8, fun _ => [], [exSym .ExpRad fc cr ca [[], []], exSym .CompRad fc cr ca [[], []]]⟩]

theorem exShape_setup {fc : CutoffFunction} {cr ca : CompactFunction} (hfc : ∃ t α, fc.Configured t 3 α)
    (hcr : ∃ t as, cr.Configured t as 0 3) (hca : ∃ t as, ca.Configured t as (-(Real.pi / 2)) (Real.pi / 2)) :
    ShapeSetup (exShape fc cr ca) ∧
      IsGreatest {r | ∃ e ∈ exShape fc cr ca, ∃ S ∈ e.functions, S.rc = r} 3 := by
  have hv : ∀ kind, (exSym kind fc cr ca [[], []]).Valid := fun kind =>
    (exSym_ready kind fc cr ca hfc hcr hca [] (by simp) (fun _ _ => List.Pairwise.nil)).valid
  refine ⟨⟨by simp [exShape], ?_, ?_, ?_⟩, ⟨⟨_, List.mem_cons_self, _, List.mem_cons_self, rfl⟩, ?_⟩⟩
  · intro e he
    simp only [exShape, List.mem_cons, List.not_mem_nil, or_false] at he
    rcases he with rfl | rfl <;> simp
  · intro e he i l hl
    simp only [exShape, List.mem_cons, List.not_mem_nil, or_false] at he
    rcases he with rfl | rfl
    · rw [List.mem_singleton.1 hl]
      decide
    · cases hl
  · intro e he S hS
    simp only [exShape, List.mem_cons, List.not_mem_nil, or_false] at he
    rcases he with rfl | rfl
    · rw [List.mem_singleton.1 hS]
      exact ⟨hv _, rfl⟩
    · simp only [List.mem_cons, List.not_mem_nil, or_false] at hS
      rcases hS with rfl | rfl
      · exact ⟨hv _, rfl⟩
      · exact ⟨hv _, rfl⟩
  · rintro r ⟨e, he, S, hS, rfl⟩
    simp only [exShape, List.mem_cons, List.not_mem_nil, or_false] at he
    rcases he with rfl | rfl
    · rw [List.mem_singleton.1 hS]
      exact le_rfl
    · simp only [List.mem_cons, List.not_mem_nil, or_false] at hS
      rcases hS with rfl | rfl <;> exact le_rfl

/-- Files with four lines for two elements. In the second line of the compact function the distance is 1, inside of the
support. -/
example : ∃ fc cr ca fs' text row, writeSymmetryFunctionShape exFloat 3 (exShape fc cr ca) (fun _ => none) = some fs' ∧
    fs' "sf.008.0002.out".toList = some text ∧ (fileTable text)[1]? = some row ∧
    row[0]? = some (exFloat.print (some 1)) ∧ row[1]? = some (exFloat.print (some (compact cr 0 3 1))) := by
  obtain ⟨fc, cr, ca, h1, h2, h3⟩ := exFunctions
  obtain ⟨hs, hM⟩ := exShape_setup ⟨_, _, h1⟩ h2 h3
  obtain ⟨fs', e, hf, -⟩ := C111_files_partial exFloat_data hs (n := 3) (by norm_num) hM (fun _ => none)
  obtain ⟨text, ht, hlen, hrow, -⟩ := hf _ (by simp [exShape]; right; rfl) 1 (exSym .CompRad fc cr ca [[], []]) rfl
  obtain ⟨u, v, hr, hu, -⟩ := hrow 1 _ (List.getElem?_eq_getElem (by omega))
  have hd : ((1 : ℕ) : ℝ) * (3 / (3 : ℕ)) = 1 := by norm_num
  rw [hd] at hr hu
  refine ⟨fc, cr, ca, fs', text, _, e, ?_, List.getElem?_eq_getElem (by omega), ?_, ?_⟩
  · rw [← ht]
    exact congrArg fs' (show "sf.008.0002.out".toList = shapeFile 8 2 by decide +kernel)
  · rw [hr]; rfl
  · rw [hr]
    have he : ¬ (exSym .CompRad fc cr ca [[], []]).IsExp := by simp [IsExp, exSym]
    rw [List.getElem?_cons_succ, List.getElem?_cons_zero, hu ⟨by simp [exSym], fun _ => ⟨by simp [exSym], by norm_num [exSym]⟩⟩]
    unfold radialPart
    rw [if_neg he]
    rfl

/-- The third power makes a difference. -/
example : ∃ fc cr ca, (exSym .ExpAngnWeighted fc cr ca [[], []]).Valid ∧
    (exSym .ExpAngnWeighted fc cr ca [[], []]).calculateRadialPart 1 ≠
      some ((exSym .ExpAngnWeighted fc cr ca [[], []]).radialPart 1) := by
  obtain ⟨-, cr, ca, -, h2, h3⟩ := exFunctions
  obtain ⟨fc, hfc⟩ := configured_exists .COS 3 (1 / 2) (by norm_num) (by norm_num)
  refine ⟨fc, cr, ca, (exSym_ready _ fc cr ca ⟨_, _, hfc⟩ h2 h3 [] (by simp) (fun _ _ => List.Pairwise.nil)).valid, ?_⟩
  rw [C111_weighted_cubed _ rfl rfl]
  have hf : fc.f 1 = 1 := C13_inner_region fc .COS 3 (1 / 2) 1 hfc (by norm_num) (by simp [CutoffType.HasInner])
    (by norm_num)
  have hR : (exSym .ExpAngnWeighted fc cr ca [[], []]).radialPart 1 = Real.exp (-(1 / 2)) := by
    have he : (exSym .ExpAngnWeighted fc cr ca [[], []]).IsExp := by simp [IsExp, exSym]
    unfold radialPart
    rw [if_pos he]
    change Real.exp _ * fc.f 1 = _
    rw [hf, mul_one]
    congr 1
    norm_num [exSym]
  rw [hR]
  intro h
  have h1 := Option.some.inj h
  have h4 := Real.exp_pos (-(1 / 2 : ℝ))
  have h5 : Real.exp (-(1 / 2 : ℝ)) < 1 := by
    rw [← Real.exp_zero]
    exact Real.exp_lt_exp.2 (by norm_num)
  nlinarith [mul_pos h4 h4]

/-- A compact function with cutoff radius 3, shown at distance 6 if another function has this cutoff radius. -/
example : ∃ fc cr ca, (exSym .CompRad fc cr ca [[], []]).Valid ∧
    (exSym .CompRad fc cr ca [[], []]).radialPart 6 = 0 ∧
    ∃ v < 0, (exSym .CompRad fc cr ca [[], []]).calculateRadialPart 6 = some v := by
  obtain ⟨fc, -, ca, h1, -, h3⟩ := exFunctions
  obtain ⟨cr, hc, hcore⟩ : ∃ c, CompactFunction.init.setLeftRight 0 3 = some c ∧ c.core = ⟨.POLY2, false⟩ := by
    unfold CompactFunction.setLeftRight
    rw [if_neg (by norm_num)]
    exact ⟨_, rfl, rfl⟩
  have hcr : cr.Configured .POLY2 false 0 3 := ⟨hcore, Or.inl ⟨_, hc⟩⟩
  exact ⟨fc, cr, ca, (exSym_ready _ fc cr ca ⟨_, _, h1⟩ ⟨_, _, hcr⟩ h3 [] (by simp) (fun _ _ => List.Pairwise.nil)).valid,
    C111_outside_support _ (by simp [IsExp, exSym]) rfl hcr 6 (Or.inl (by norm_num [exSym]))⟩

/-- A function of two neighbours at distances 1 and 2, at a right angle. -/
example (fc : CutoffFunction) (cr ca : CompactFunction) :
    let S := exSym .ExpAngw fc cr ca [[], []]
    S.formula [⟨0, ![1, 0, 0]⟩, ⟨1, ![0, 2, 0]⟩] =
      S.angularPart (Real.pi / 2) * (S.radialPart 1 * S.radialPart 2) := by
  intro S
  have h1 : Vec3.norm ![1, 0, 0] = 1 := exNorm 1 0 0 1 (by norm_num) (by norm_num)
  have h2 : Vec3.norm ![0, 2, 0] = 2 := exNorm 0 2 0 2 (by norm_num) (by norm_num)
  have ha : angleOf ⟨0, ![1, 0, 0]⟩ ⟨1, ![0, 2, 0]⟩ = Real.pi / 2 := by
    unfold angleOf cosAngle
    simp [Vec3.dot]
  rw [C111_parts]
  change pairSum _ _ = _
  simp only [pairSum, List.map_cons, List.map_nil, List.sum_cons, List.sum_nil, add_zero, ha, h1, h2]
  simp [ofPair, S, exSym]

end N2P2
