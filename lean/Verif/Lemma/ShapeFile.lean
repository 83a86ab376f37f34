import Verif.Spec.ShapeFile
import Verif.Lemma.NeuronFile
import Verif.Lemma.CutoffConfig
import Verif.Lemma.CurveDeriv

/-! Shape of symmetry functions. -/

namespace N2P2

open SymFnc

/-! ### Parts -/

theorem compact_finite {c : CompactFunction} {t : CoreType} {as : Bool} {l r x : ℝ} (h : c.Configured t as l r)
    (h1 : l < x) (h2 : x < r) : c.finite x = some (compact c l r x) := by
  obtain ⟨-, h3⟩ := compact_arg h x h1 h2
  have h0 := abs_nonneg ((x - c.center) * c.scale)
  unfold CompactFunction.finite compact
  rw [if_pos, if_pos ⟨h1, h2⟩]
  intro _
  unfold CoreFunction.arg
  generalize |(x - c.center) * c.scale| = y at *
  split_ifs
  · norm_num
    have h4 : 0 ≤ (2 - y) * y := mul_nonneg (by linarith) h0
    have h5 : (2 - y) * y < 1 := by nlinarith
    nlinarith
  · nlinarith

theorem radialPart_eq {S : SymFnc} (hv : S.Valid) (hc : S.convLength = 1) {r : ℝ} (h : S.RadialShown r) :
    S.calculateRadialPart r = some (S.radialPart r) := by
  have hg : Real.exp (-S.eta * (r - S.rs) * (r - S.rs)) = S.gauss r := by
    unfold gauss
    congr 1
    ring
  unfold calculateRadialPart radialPart
  simp only [hc, mul_one, hg]
  by_cases he : S.IsExp
  · rw [if_pos he]
    have h1 := h.1
    unfold IsExp at he
    generalize S.kind = k at *
    cases k <;> simp_all
  · rw [if_neg he]
    obtain ⟨h1, h2⟩ := h.2 he
    obtain ⟨t, as, hcr⟩ := hv.cr he
    have := compact_finite hcr h1 h2
    unfold radial
    unfold IsExp at he
    generalize S.kind = k at *
    cases k <;> simp_all

theorem anglePower_eq {S : SymFnc} (hz : 0 < S.zeta) (hl : |S.lambda| ≤ 1) (θ : ℝ) :
    (cPow ((1.0 + S.lambda * Real.cos θ) / 2.0) S.zeta).map (2.0 * ·) = some (S.angularFactor (Real.cos θ)) := by
  have hb : 0 ≤ 1 + S.lambda * Real.cos θ := by
    have h1 : |S.lambda * Real.cos θ| ≤ 1 := by
      rw [abs_mul]
      exact mul_le_one₀ hl (abs_nonneg _) (Real.abs_cos_le_one θ)
    linarith [(abs_le.1 h1).1]
  have e1 : (1.0 + S.lambda * Real.cos θ) / 2.0 = (1 + S.lambda * Real.cos θ) / 2 := by norm_num
  have e2 : (2.0 : ℝ) = 2 := by norm_num
  unfold cPow angularFactor
  rw [e1, e2, if_neg, Option.map_some, max_eq_right hb, Real.div_rpow hb (by norm_num), Real.rpow_sub (by norm_num),
    Real.rpow_one]
  · congr 1
    ring
  · rintro (⟨h1, -⟩ | ⟨-, h1⟩)
    · linarith [h1]
    · linarith

theorem angularPart_eq {S : SymFnc} (hv : S.Valid) {θ : ℝ} (h : S.AngularShown θ) :
    S.calculateAngularPart θ = some (S.angularPart θ) := by
  unfold calculateAngularPart angularPart
  by_cases ha : S.IsAng
  · rw [if_neg (by simpa using ha)]
    by_cases he : S.IsExp
    · rw [if_pos he]
      have := anglePower_eq (hv.zeta he ha) (h.1 he ha) θ
      simp only [this]
      unfold IsExp at he
      unfold IsAng at ha
      generalize S.kind = k at *
      cases k <;> simp_all
    · rw [if_neg he]
      obtain ⟨h1, h2⟩ := h.2 he ha
      obtain ⟨t, as, hca⟩ := hv.ca he ha
      have := compact_finite hca h1 h2
      unfold IsExp at he
      unfold IsAng at ha
      generalize S.kind = k at *
      cases k <;> simp_all
  · rw [if_pos ha]
    unfold IsAng at ha
    generalize S.kind = k at *
    cases k <;> simp_all <;> norm_num

theorem pairSum_none {α : Type} (l : List α) : pairSum (fun _ _ => (0 : ℝ)) l = 0 := by
  induction l with
  | nil => rfl
  | cons x xs ih => simp [pairSum, ih]

theorem formula_parts (S : SymFnc) (env : List Site) : S.formula env = S.fromParts S.radialPart S.angularPart env := by
  have hsum : ∀ f : Site → ℝ, (∀ x, f x = 0) → (env.map f).sum = 0 := by
    intro f hf
    rw [show f = fun _ => 0 from funext hf]
    simp
  have hcos : ∀ x y : Site, Real.cos (angleOf x y) = cosAngle x.dr y.dr := by
    intro x y
    have h := abs_le.1 (abs_cosAngle_le' x.dr y.dr)
    exact Real.cos_arccos h.1 h.2
  have hp : pairSum (fun _ _ : Site => (0 : ℝ)) env = 0 := pairSum_none env
  unfold formula
  rcases hk : S.kind with _ | _ | _ | _ | _ | _ | _ | _ | _ | _ | _
  all_goals
    unfold fromParts
    simp only [hk]
    simp only [radialPart, angularPart, IsExp, IsAng, hk, hcos, reduceCtorEq, not_false_eq_true, not_true_eq_false,
      and_self, or_false, or_true, if_true, if_false, ne_eq]
    first
    | have h2 : S.pairTerm = fun _ _ => 0 := by funext x y; simp only [pairTerm, hk]
      rw [h2, hp, add_zero]
      congr 2
      funext x
      simp only [siteTerm, hk]
      try ring
    | rw [hsum S.siteTerm (fun x => by simp only [siteTerm, hk]), zero_add]
      congr 1
      funext x y
      simp only [pairTerm, hk, angular, angleOf]
      try ring

/-! ### Files -/

theorem shapeFile_inj {Z i Z' i' : ℕ} (h : shapeFile Z i = shapeFile Z' i') : Z = Z' ∧ i = i' := by
  unfold shapeFile at h
  have h1 := List.append_cancel_right h
  rw [List.append_assoc, List.append_assoc, List.append_assoc, List.append_assoc] at h1
  have h2 := List.append_cancel_left h1
  have h3 := (List.append_cons_inj_of_notMem (dot_zeroPadded 3 Z) (dot_zeroPadded 4 i)).1 h2
  exact ⟨zeroPad_inj h3.1, zeroPad_inj h3.2.2⟩

theorem shapeName_eq {Z i : ℕ} (hZ : Z < 2 ^ 64) (hi : i < 2 ^ 64) : shapeName Z i = some (shapeFile Z i) := by
  have h1 := zeroPadded_length (w := 3) (by omega) hZ
  have h2 := zeroPadded_length (w := 4) (by omega) hi
  have e1 : ("sf.".toList).length = 3 := by decide
  have e2 : (".out".toList).length = 4 := by decide
  unfold shapeName strpr shapeFile
  refine if_pos ?_
  simp only [List.length_append, List.length_cons, List.length_nil, e1, e2]
  omega

theorem shapeHeader_ok : ∃ h, shapeHeader = some h ∧ ∀ l ∈ h, IsCommentLine '#' l := by
  obtain ⟨h, hh⟩ : ∃ h, shapeHeader = some h := ⟨_, rfl⟩
  exact ⟨h, hh, header_comment (by decide) (by decide) (by decide) (by decide) ⟨16, by decide, by decide⟩ hh⟩

/-- Words of a line. -/
noncomputable def shapeWords (F : FloatText) (S : SymFnc) (r θ : ℝ) : List Str :=
  [F.print (some r), F.print (S.calculateRadialPart r), F.print (some θ), F.print (S.calculateAngularPart θ)]

theorem shapeWords_row {F : FloatText} {S : SymFnc} (hv : S.Valid) (hc : S.convLength = 1) (r θ : ℝ) :
    ShapeRow F S r θ (shapeWords F S r θ) :=
  ⟨_, _, rfl, fun h => by rw [radialPart_eq hv hc h], fun h => by rw [angularPart_eq hv h]⟩

theorem shapeLine_rows {F : FloatText} (hF : F.Data) (S : SymFnc) {rc : ℝ} {n : ℕ} (hn : n ≠ 0) (k : ℕ) :
    Rows (shapeLine F S (shapeStep rc n) (shapeStep Real.pi n) k)
      [shapeWords F S (k * (rc / n)) (k * (Real.pi / n))] := by
  unfold shapeLine shapeStep shapeWords
  rw [if_neg hn, if_neg hn]
  simp only [Option.map_some, Option.bind_some]
  refine row_line' 16 (hF.word _).1 (hF.word _).2.1 (hF.word _).2.2
    [(16, F.print (S.calculateRadialPart (k * (rc / n)))), (16, F.print (some (k * (Real.pi / n)))),
      (16, F.print (S.calculateAngularPart (k * (Real.pi / n))))] ?_
  intro f hf
  simp only [List.mem_cons, List.not_mem_nil, or_false] at hf
  rcases hf with rfl | rfl | rfl
  all_goals exact ⟨(hF.word _).1, (hF.word _).2.1⟩

theorem writeShape_ok {F : FloatText} (hF : F.Data) (rc : ℝ) {n : ℕ} (hn : n ≠ 0) {e : ShapeElement} (hZ : e.Z < 2 ^ 64)
    (hi : ∀ i, ∀ l ∈ e.info i, '\n' ∉ l) {p : SymFnc × ℕ} (hp : p.2 + 1 < 2 ^ 64) :
    ∃ text, (∀ fs, writeShape F rc n e fs p = some (fs.write (shapeFile e.Z (p.2 + 1)) text)) ∧
      fileTable text = ((List.range (n + 1)).map fun k : ℕ =>
        shapeWords F p.1 (k * (rc / n)) (k * (Real.pi / n))) ∧
      ∀ l ∈ e.info p.1.index, "#SFINFO ".toList ++ l ∈ readLines text := by
  obtain ⟨hd, e1, hc⟩ := shapeHeader_ok
  obtain ⟨hs, e2, hb⟩ := header_bodies hc
  have e3 : ((e.info p.1.index).map fun l => "#SFINFO ".toList ++ l ++ ['\n']).flatten =
      ((e.info p.1.index).map ("#SFINFO ".toList ++ ·)).flatMap (· ++ ['\n']) := by
    rw [List.flatMap_def, List.map_map]
    rfl
  have hib : ∀ l ∈ (e.info p.1.index).map ("#SFINFO ".toList ++ ·), '\n' ∉ l ∧ ∃ t, l = '#' :: t := by
    intro l hl
    obtain ⟨x, hx, rfl⟩ := List.mem_map.1 hl
    refine ⟨?_, ⟨"SFINFO ".toList ++ x, rfl⟩⟩
    rw [List.mem_append]
    rintro (h | h)
    · exact absurd h (by decide)
    · exact hi _ x hx h
  refine ⟨((e.info p.1.index).map ("#SFINFO ".toList ++ ·)).flatMap (· ++ ['\n']) ++ hs.flatMap (· ++ ['\n']) ++
      ((List.range (n + 1)).map (shapeLine F p.1 (shapeStep rc n) (shapeStep Real.pi n))).flatten, fun fs => ?_, ?_, ?_⟩
  · unfold writeShape
    rw [shapeName_eq hZ hp, e1, e3, ← e2]
    rfl
  · refine Tabled.table ⟨(e.info p.1.index).map ("#SFINFO ".toList ++ ·) ++ hs, _, by rw [List.flatMap_append], ?_, ?_⟩
    · intro l hl
      rcases List.mem_append.1 hl with h | h
      · exact hib l h
      · exact hb l h
    · have := rows_of_texts (l := List.range (n + 1))
        (t := shapeLine F p.1 (shapeStep rc n) (shapeStep Real.pi n))
        (w := fun k : ℕ => [shapeWords F p.1 (k * (rc / n)) (k * (Real.pi / n))]) fun k _ => shapeLine_rows hF p.1 hn k
      rwa [← List.map_eq_flatMap] at this
  · intro l hl
    rw [List.append_assoc, readLines_append _ fun l h => (hib l h).1]
    exact List.mem_append_left _ (List.mem_map.2 ⟨l, hl, rfl⟩)

theorem foldl_max_greatest {α : Type} (f : α → ℝ) (l : List α) : ∀ m : ℝ,
    m ≤ l.foldl (fun m a => max (f a) m) m ∧ (∀ a ∈ l, f a ≤ l.foldl (fun m a => max (f a) m) m) ∧
      (l.foldl (fun m a => max (f a) m) m = m ∨ ∃ a ∈ l, l.foldl (fun m a => max (f a) m) m = f a) := by
  induction l with
  | nil => intro m; simp
  | cons a l ih =>
    intro m
    obtain ⟨h1, h2, h3⟩ := ih (max (f a) m)
    rw [List.foldl_cons]
    refine ⟨le_trans (le_max_right _ _) h1, ?_, ?_⟩
    · intro b hb
      rcases List.mem_cons.1 hb with rfl | hb
      · exact le_trans (le_max_left _ _) h1
      · exact h2 b hb
    · rcases h3 with h3 | ⟨b, hb, h3⟩
      · rcases le_total (f a) m with h | h
        · left; rw [h3, max_eq_right h]
        · right; exact ⟨a, by simp, by rw [h3, max_eq_left h]⟩
      · right; exact ⟨b, by simp [hb], h3⟩

theorem shapeCutoff_eq {els : List ShapeElement} (hv : ∀ e ∈ els, ∀ S ∈ e.functions, 0 < S.rc) {M : ℝ}
    (h : IsGreatest {r | ∃ e ∈ els, ∃ S ∈ e.functions, S.rc = r} M) : shapeCutoff els = M := by
  obtain ⟨h1, h2, h3⟩ := foldl_max_greatest (fun e : ShapeElement => e.functions.foldl (fun m S => max S.rc m) 0) els 0
  change 0 ≤ shapeCutoff els at h1
  change ∀ e ∈ els, _ ≤ shapeCutoff els at h2
  change shapeCutoff els = 0 ∨ ∃ e ∈ els, shapeCutoff els = _ at h3
  obtain ⟨e, he, S, hS, hM⟩ := h.1
  have hle : M ≤ shapeCutoff els := by
    rw [← hM]
    exact le_trans ((foldl_max_greatest SymFnc.rc e.functions 0).2.1 S hS) (h2 e he)
  refine le_antisymm ?_ hle
  have hpos : 0 < M := by rw [← hM]; exact hv e he S hS
  rcases h3 with h3 | ⟨e', he', h3⟩
  · linarith
  · rcases (foldl_max_greatest SymFnc.rc e'.functions 0).2.2 with h4 | ⟨S', hS', h4⟩
    · rw [h3, h4]; exact hpos.le
    · rw [h3, h4]; exact h.2 ⟨e', he', S', hS', rfl⟩

end N2P2
