import Verif.Lemma.Sensitivity
import Verif.Props.Settings
import Verif.Props.ScalingFile

/-! Property C108: analysis of sensitivities and pruning. -/

namespace N2P2

variable {F : FloatText} {U : ModeUnits} {normalize : Bool} {els : List SensElement}
  {structures : List (List Structure)}

/-- C108: for every data set, distributed in any way over processes, nnp-dataset writes a file for each element. Its table
has a line for each symmetry function with the root mean square and the largest absolute value of the derivatives
of the energies of all atoms of the element, both as shares in percent and in units of energy. Other files are kept. -/
theorem C108_files (hF : F.Data) (U : ModeUnits) (normalize : Bool) (he : SensElements els)
    (hd : SensData els structures) (fs : Files) :
    ∃ fs', sensitivityAnalysis F U normalize els structures fs = some fs' ∧
      (∀ k e, els[k]? = some e → ∃ text, fs' (sensitivityFile e.Z) = some text ∧
        fileTable text = sensTable F (if normalize then [U.convEnergy, 1] else [1])
          (sensValues structures k) e.n) ∧
      ∀ x, (∀ e ∈ els, x ≠ sensitivityFile e.Z) → fs' x = fs x := by
  obtain ⟨fs', h1, h2, h3⟩ := sensitivity_files hF U normalize he hd fs
  refine ⟨fs', h1, fun k e hk => ?_, h3⟩
  obtain ⟨text, h4, h5⟩ := h2 k e hk
  exact ⟨text, h4, h5.table⟩

theorem rmsOf_nonneg (vs : List ℝ) : 0 ≤ rmsOf vs := Real.sqrt_nonneg _

theorem rmsOf_eq_zero {vs : List ℝ} : rmsOf vs = 0 ↔ ∀ v ∈ vs, v = 0 := by
  have h0 : ∀ x ∈ vs.map fun v => v ^ 2, 0 ≤ x := by
    intro x hx
    obtain ⟨v, -, rfl⟩ := List.mem_map.1 hx
    positivity
  unfold rmsOf
  rw [Real.sqrt_eq_zero (div_nonneg (List.sum_nonneg h0) (by positivity)), div_eq_zero_iff]
  constructor
  · rintro (h | h) v hv
    · have h1 := List.single_le_sum h0 (v ^ 2) (List.mem_map.2 ⟨v, hv, rfl⟩)
      rw [h] at h1
      nlinarith [sq_nonneg v, pow_eq_zero_iff (two_ne_zero) |>.1 (le_antisymm h1 (sq_nonneg v))]
    · have : vs = [] := List.length_eq_zero_iff.1 (by exact_mod_cast h)
      rw [this] at hv; cases hv
  · intro h
    left
    refine List.sum_eq_zero fun x hx => ?_
    obtain ⟨v, hv, rfl⟩ := List.mem_map.1 hx
    simp [h v hv]

/-- The largest absolute value is what its name says. -/
theorem largestAbs_spec {vs : List ℝ} (h : vs ≠ []) :
    IsGreatest {x | ∃ v ∈ vs, |v| = x} (largestAbs vs) := by
  have key : ∀ (ws : List ℝ) (m : ℝ), (∀ x ∈ ws, x ≤ ws.foldl max m) ∧ m ≤ ws.foldl max m ∧
      (ws.foldl max m = m ∨ ws.foldl max m ∈ ws) := by
    intro ws
    induction ws with
    | nil => intro m; exact ⟨by simp, le_rfl, Or.inl rfl⟩
    | cons a l ih =>
      intro m
      obtain ⟨h1, h2, h3⟩ := ih (max m a)
      rw [List.foldl_cons]
      refine ⟨fun x hx => ?_, (le_max_left _ _).trans h2, ?_⟩
      · rcases List.mem_cons.1 hx with rfl | hx
        · exact (le_max_right _ _).trans h2
        · exact h1 x hx
      · rcases h3 with h3 | h3
        · rcases max_choice m a with h4 | h4
          · left; rw [h3, h4]
          · right; rw [h3, h4]; simp
        · right; exact List.mem_cons_of_mem _ h3
  obtain ⟨h1, h2, h3⟩ := key (vs.map fun v => |v|) 0
  refine ⟨?_, ?_⟩
  · rcases h3 with h3 | h3
    · obtain ⟨v, hv⟩ := List.exists_mem_of_ne_nil _ h
      refine ⟨v, hv, le_antisymm (h1 _ (List.mem_map.2 ⟨v, hv, rfl⟩)) ?_⟩
      unfold largestAbs
      rw [h3]
      exact abs_nonneg v
    · obtain ⟨v, hv, e⟩ := List.mem_map.1 h3
      exact ⟨v, hv, e⟩
  · rintro x ⟨v, hv, rfl⟩
    exact h1 _ (List.mem_map.2 ⟨v, hv, rfl⟩)

theorem largestAbs_nonneg (vs : List ℝ) : 0 ≤ largestAbs vs := by
  by_cases h : vs = []
  · subst h; exact le_rfl
  · obtain ⟨v, -, e⟩ := (largestAbs_spec h).1
    rw [← e]
    exact abs_nonneg v

theorem largestAbs_eq_zero {vs : List ℝ} : largestAbs vs = 0 ↔ ∀ v ∈ vs, v = 0 := by
  by_cases h : vs = []
  · subst h; simp [largestAbs]
  · obtain ⟨⟨v, hv, e⟩, h2⟩ := largestAbs_spec h
    constructor
    · intro h0 w hw
      have := h2 ⟨w, hw, rfl⟩
      rw [h0] at this
      exact abs_eq_zero.1 (le_antisymm this (abs_nonneg w))
    · intro h0
      rw [← e, h0 v hv, abs_zero]

theorem measure_props {mode : Str} {measure : List ℝ → ℝ} (h : Measures mode measure) :
    (∀ vs, 0 ≤ measure vs) ∧ ∀ vs, measure vs = 0 ↔ ∀ v ∈ vs, v = 0 := by
  cases h with
  | msa => exact ⟨rmsOf_nonneg, fun _ => rmsOf_eq_zero⟩
  | max => exact ⟨largestAbs_nonneg, fun _ => largestAbs_eq_zero⟩

/-- C108: the largest sensitivity in the file is the maximum of the absolute values. -/
theorem C108_largest {k j : ℕ} (h : sensValues structures k j ≠ []) :
    IsGreatest {x | ∃ v ∈ sensValues structures k j, |v| = x} (largestAbs (sensValues structures k j)) :=
  largestAbs_spec h

/-- C108: if some derivative is not zero, there is a share for each function, shares are not negative and their sum is
100 percent, with both measures. -/
theorem C108_shares {mode : Str} {measure : List ℝ → ℝ} (hm : Measures mode measure) {v : ℕ → List ℝ}
    {n j : ℕ} (hj : j < n) {x : ℝ} (hx : x ∈ v j) (h0 : x ≠ 0) :
    ∃ y : ℕ → ℝ, (∀ i, share (fun i => measure (v i)) n i = some (y i) ∧ 0 ≤ y i) ∧
      ∑ i ∈ Finset.range n, y i = 100 := by
  obtain ⟨h1, h2⟩ := measure_props hm
  have hpos : 0 < ∑ i ∈ Finset.range n, measure (v i) := by
    refine Finset.sum_pos' (fun i _ => h1 _) ⟨j, Finset.mem_range.2 hj, lt_of_le_of_ne (h1 _) fun h => ?_⟩
    exact h0 ((h2 _).1 h.symm x hx)
  refine ⟨fun i => measure (v i) / (∑ i ∈ Finset.range n, measure (v i)) * 100, fun i => ⟨if_neg hpos.ne', ?_⟩, ?_⟩
  · exact mul_nonneg (div_nonneg (h1 _) hpos.le) (by norm_num)
  · rw [← Finset.sum_mul, ← Finset.sum_div, div_self hpos.ne', one_mul]

/-! ### Pruning -/

theorem disables_of {selected : Set ℕ} {prune : List ℕ} (h : ∀ l, l ∈ prune ↔ l ∈ selected) {settings : List Str}
    (hn : ∀ l ∈ settings, '\n' ∉ l) : Disables selected settings (writePruned prune settings) := by
  obtain ⟨h1, h2⟩ := C09_pruned_lines prune settings hn
  refine ⟨h1, fun i hi => ?_, fun i hi => ?_, fun e => ?_⟩
  · rw [h2 i]
    simp only [if_pos ((h i).2 hi)]
  · rw [h2 i]
    simp only [if_neg fun hc => hi ((h i).1 hc), Option.map_id_fun', id_eq]
  · rw [C09_pruned_contents prune settings hn, List.mem_filter]
    simp [h]

/-- C108: after nnp-dataset, nnp-prune in mode "sensitivity" writes settings in which exactly those symmetry functions are
commented out whose share (as printed with nine digits) is less than the threshold, in percent. -/
theorem C108_prune (hF : F.Data) (U : ModeUnits) (normalize : Bool) (he : SensElements els)
    (hd : SensData els structures) (fs : Files) {pels : List PruneElement} (hp : SameFunctions els pels)
    {mode : Str} {measure : List ℝ → ℝ} (hm : Measures mode measure) (threshold : ℝ) {settings : List Str}
    (hs : ∀ l ∈ settings, '\n' ∉ l) :
    ∃ fs' text, (sensitivityAnalysis F U normalize els structures fs).bind
        (pruneSensitivity F threshold mode pels settings) =
        some (Files.write fs' "output-prune-sensitivity.nn".toList text) ∧
      sensitivityAnalysis F U normalize els structures fs = some fs' ∧
      Disables (insensitiveLines F measure threshold structures pels) settings text := by
  obtain ⟨fs', h1, h2, -⟩ := sensitivity_files hF U normalize he hd fs
  have hcol : ∃ column, sensColumn mode = some column ∧ ∀ (units : List ℝ) (v : ℕ → List ℝ) (n : ℕ), ∀ j < n,
        ((sensTable F units v n).getD j [])[column]? =
          some (F.print (share (fun i => measure (v i)) n j)) := by
    have hrow : ∀ (units : List ℝ) (v : ℕ → List ℝ) (n : ℕ), ∀ j < n, (sensTable F units v n).getD j [] =
        natText (j + 1) :: ([share (fun i => rmsOf (v i)) n j, share (fun i => largestAbs (v i)) n j] ++
          units.flatMap fun u => [(msaOf (v j)).map (· / u), some (largestAbs (v j) / u)]).map F.print := by
      intro units v n j hj
      unfold sensTable
      rw [List.getD_eq_getElem _ _ (by simpa using hj)]
      simp
    cases hm with
    | msa => exact ⟨1, by decide, fun units v n j hj => by rw [hrow units v n j hj]; rfl⟩
    | max => exact ⟨2, by decide, fun units v n j hj => by rw [hrow units v n j hj]; rfl⟩
  obtain ⟨column, hc, hg⟩ := hcol
  have hlen : els.length = pels.length := hp.length_eq
  have h3 : ∀ k p, pels[k]? = some p → readSensitivity F column fs' p =
      some ((List.range p.lines.length).map fun j =>
        F.rounded (share (fun i => measure (sensValues structures k i)) p.lines.length j)) := by
    intro k p hk
    obtain ⟨hkl, -⟩ := List.getElem?_eq_some_iff.1 hk
    have hke : els[k]? = some els[k] := List.getElem?_eq_getElem (by omega)
    obtain ⟨hZ, hl⟩ : p.Z = els[k].Z ∧ p.lines.length = els[k].n := by
      have := (List.forall₂_iff_get.1 hp).2 k (by omega) hkl
      have e := (List.getElem?_eq_some_iff.1 hk).2
      simp only [List.get_eq_getElem, e] at this
      exact this
    obtain ⟨text, h4, h5⟩ := h2 k _ hke
    rw [← hZ] at h4
    rw [← hl] at h5
    exact readSensitivity_eq (by rw [hZ]; exact he.number _ (List.getElem_mem _)) h4 h5 rfl
      (fun j hj => hg _ _ _ j hj)
  have h4 : pels.mapM (readSensitivity F column fs') = some (pels.zipIdx.map fun q =>
      (List.range q.1.lines.length).map fun j =>
        F.rounded (share (fun i => measure (sensValues structures q.2 i)) q.1.lines.length j)) := by
    have := mapM_pure_some (f := fun q : PruneElement × ℕ => readSensitivity F column fs' q.1) pels.zipIdx
      fun q hq => h3 q.2 q.1 (List.mem_zipIdx_iff_getElem?.1 hq)
    rw [← this]
    conv_lhs => rw [← List.zipIdx_map_fst 0 pels, List.mapM_map]
    rfl
  refine ⟨fs', writePruned ((pels.zip (pels.zipIdx.map fun q => (List.range q.1.lines.length).map fun j =>
      F.rounded (share (fun i => measure (sensValues structures q.2 i)) q.1.lines.length j))).flatMap
      fun p => prunedOf threshold p.1.lines p.2) settings, ?_, h1, ?_⟩
  · rw [h1, Option.bind_some]
    unfold pruneSensitivity
    rw [hc]
    simp only [Option.bind_eq_bind, Option.bind_some, h4]
  · refine disables_of (fun l => ?_) hs
    rw [List.mem_flatMap]
    constructor
    · rintro ⟨⟨p, values⟩, hq, hl⟩
      obtain ⟨k, hk⟩ := List.mem_iff_getElem?.1 hq
      rw [List.getElem?_zip_eq_some, List.getElem?_map] at hk
      obtain ⟨hk1, hk2⟩ := hk
      have hz : pels.zipIdx[k]? = some (p, k) := by
        dsimp only at hk1
        rw [List.getElem?_zipIdx, hk1]
        simp
      rw [hz] at hk2
      obtain rfl : _ = values := Option.some.inj hk2
      obtain ⟨j, x, h5, h6, h7⟩ := mem_prunedOf.1 hl
      refine ⟨k, j, p, x, hk1, h5, ?_, h7⟩
      have hj : j < p.lines.length := (List.getElem?_eq_some_iff.1 h5).1
      rw [List.getElem?_map, List.getElem?_range hj] at h6
      exact Option.some.inj h6
    · rintro ⟨k, j, p, x, hk, h5, h6, h7⟩
      have hj : j < p.lines.length := (List.getElem?_eq_some_iff.1 h5).1
      have hz : pels.zipIdx[k]? = some (p, k) := by
        rw [List.getElem?_zipIdx, hk]
        simp
      refine ⟨(p, (List.range p.lines.length).map fun j =>
          F.rounded (share (fun i => measure (sensValues structures k i)) p.lines.length j)),
        List.mem_iff_getElem?.2 ⟨k, List.getElem?_zip_eq_some.2 ⟨hk, ?_⟩⟩, mem_prunedOf.2 ⟨j, x, h5, ?_, h7⟩⟩
      · rw [List.getElem?_map, hz]
        rfl
      · rw [List.getElem?_map, List.getElem?_range hj]
        exact congrArg some h6

/-- C108: functions of an element whose atoms are not sensitive at all, for instance because the data set has none of them,
are never commented out, whatever the threshold: their share is not a number. -/
theorem C108_kept (hF : F.Data) (U : ModeUnits) (normalize : Bool) (he : SensElements els)
    (hd : SensData els structures) (fs : Files) {pels : List PruneElement} (hp : SameFunctions els pels)
    {mode : Str} {measure : List ℝ → ℝ} (hm : Measures mode measure) (threshold : ℝ) {settings : List Str}
    (hs : ∀ l ∈ settings, '\n' ∉ l) {l : ℕ}
    (h0 : ∀ (k j : ℕ) (p : PruneElement), pels[k]? = some p → p.lines[j]? = some l →
      ∀ i < p.lines.length, ∀ v ∈ sensValues structures k i, v = 0) :
    ∃ fs' text, (sensitivityAnalysis F U normalize els structures fs).bind
        (pruneSensitivity F threshold mode pels settings) = some fs' ∧
      fs' "output-prune-sensitivity.nn".toList = some text ∧ (readLines text)[l]? = settings[l]? := by
  obtain ⟨fs', text, h1, -, -, -, h2, -⟩ := C108_prune hF U normalize he hd fs hp hm threshold hs
  refine ⟨_, text, h1, Function.update_self .., h2 l ?_⟩
  rintro ⟨k, j, p, x, hk, hj, hx, -⟩
  have e : share (fun i => measure (sensValues structures k i)) p.lines.length j = none := by
    refine if_pos (Finset.sum_eq_zero fun i hi => ?_)
    exact ((measure_props hm).2 _).2 (h0 k j p hk hj i (Finset.mem_range.1 hi))
  rw [e] at hx
  exact absurd (hF.nan.symm.trans hx) (by simp)

/-- C108: after nnp-scaling, nnp-prune in mode "range" writes settings in which exactly those symmetry functions are
commented out whose largest and smallest value in the data set differ by less than the threshold. -/
theorem C108_range {N : NumberText} (hN : N.Data) (nan dblMax eps : ℝ)
    {fs fs' : List (List SymFncScaling)} (hfs : InOrder fs) (hfs' : InOrder fs')
    (hsame : fs'.map List.length = fs.map List.length) (hfew : FewFunctions fs)
    {data : List (ℕ → List StatAtom)} (hd : GoodData fs data) (c : Contents)
    (hv : ∀ k f, fs'[k]? = some f → ∀ i < f.length, dataValues data k i ≠ [] ∧
      ∀ v ∈ dataValues data k i, |v| ≤ dblMax)
    {numbers : List (List ℕ)} (hnum : numbers.map List.length = fs'.map List.length) (threshold : ℝ)
    {settings : List Str} (hs : ∀ l ∈ settings, '\n' ∉ l) (files : Files) :
    ∃ text out, scalingTool dblMax eps N nan fs data = some text ∧
      pruneRange N threshold c fs' numbers settings (files.write "scaling.data".toList text) =
        some ((files.write "scaling.data".toList text).write "output-prune-range.nn".toList out) ∧
      Disables (narrowLines N threshold data numbers) settings out := by
  obtain ⟨text, t, Smin, Smax, fs'', h1, h2, h3, h4, h5, h6⟩ :=
    C88_file hN nan dblMax eps hfs hfs' hsame hfew hd c
  refine ⟨text, writePruned ((numbers.zip fs'').flatMap fun p =>
    prunedOf threshold p.1 (p.2.map fun f => some |f.Gmax - f.Gmin|)) settings, h1, ?_, ?_⟩
  · unfold pruneRange
    have e : files.write "scaling.data".toList text "scaling.data".toList = some text := Function.update_self ..
    rw [e, h4]
    rfl
  · have hlens : ∀ (k : ℕ) (ls : List ℕ), numbers[k]? = some ls →
        ∃ f' f'', fs'[k]? = some f' ∧ fs''[k]? = some f'' ∧ f'.length = ls.length ∧ f''.length = ls.length := by
      intro k ls hk
      have e1 := congrArg (·[k]?) hnum
      have e2 := congrArg (·[k]?) h5
      simp only [List.getElem?_map, hk, Option.map_some] at e1 e2
      cases e3 : fs'[k]? with
      | none => rw [e3] at e1; cases e1
      | some f' =>
        rw [e3] at e1 e2
        cases e4 : fs''[k]? with
        | none => rw [e4] at e2; cases e2
        | some f'' =>
          rw [e4] at e2
          have := Option.some.inj e1
          have := Option.some.inj e2
          exact ⟨f', f'', rfl, rfl, by omega, by omega⟩
    have key : ∀ (k j : ℕ) (ls : List ℕ) (f'' : List SymFncScaling) (sf : SymFncScaling), numbers[k]? = some ls →
        fs''[k]? = some f'' → f''[j]? = some sf → ∃ lo hi, IsLeast {v | v ∈ dataValues data k j} lo ∧
          IsGreatest {v | v ∈ dataValues data k j} hi ∧ sf.Gmin = N.rounded lo ∧ sf.Gmax = N.rounded hi := by
      intro k j ls f'' sf hk hk'' hj
      obtain ⟨f', g, e1, e2, e3, e4⟩ := hlens k ls hk
      rw [hk''] at e2
      obtain rfl := Option.some.inj e2
      have hjl : j < f'.length := by
        have := (List.getElem?_eq_some_iff.1 hj).1
        omega
      obtain ⟨h7, h8⟩ := hv k f' e1 j hjl
      exact (h6 k j f' f'' f'[j] sf e1 hk'' (List.getElem?_eq_getElem hjl) hj).range h7 h8
    refine disables_of (fun l => ?_) hs
    rw [List.mem_flatMap]
    constructor
    · rintro ⟨⟨ls, f''⟩, hq, hl⟩
      obtain ⟨k, hk⟩ := List.mem_iff_getElem?.1 hq
      rw [List.getElem?_zip_eq_some] at hk
      obtain ⟨j, x, h7, h8, h9⟩ := mem_prunedOf.1 hl
      rw [List.getElem?_map, Option.map_eq_some_iff] at h8
      obtain ⟨sf, h8, e⟩ := h8
      obtain ⟨lo, hi, a1, a2, a3, a4⟩ := key k j ls f'' sf hk.1 hk.2 h8
      rw [a3, a4] at e
      obtain rfl := Option.some.inj e
      exact ⟨k, j, ls, lo, hi, hk.1, h7, a1, a2, h9⟩
    · rintro ⟨k, j, ls, lo, hi, hk, hj, a1, a2, h9⟩
      obtain ⟨f', f'', e1, e2, e3, e4⟩ := hlens k ls hk
      have hjl : j < f''.length := by
        have := (List.getElem?_eq_some_iff.1 hj).1
        omega
      obtain ⟨lo', hi', b1, b2, b3, b4⟩ := key k j ls f'' f''[j] hk e2 (List.getElem?_eq_getElem hjl)
      rw [a1.unique b1, a2.unique b2, ← b3, ← b4] at h9
      refine ⟨(ls, f''), List.mem_iff_getElem?.2 ⟨k, List.getElem?_zip_eq_some.2 ⟨hk, e2⟩⟩,
        mem_prunedOf.2 ⟨j, _, hj, ?_, h9⟩⟩
      rw [List.getElem?_map, List.getElem?_eq_getElem hjl]
      rfl

/-! ### Examples -/

/-- Digits, or "nan". -/
noncomputable def exFloat : FloatText where
  print x := match x with
    | none => "nan".toList
    | some x => exText.print x
  atof w := if w = "nan".toList then none else some (exText.atof w)

theorem exFloat_data : exFloat.Data := by
  have hnan : exFloat.atof "nan".toList = none := by simp [exFloat]
  refine ⟨fun x => ?_, hnan⟩
  cases x with
  | none => exact ⟨⟨by decide, by decide⟩, by decide, by decide⟩
  | some x => exact ⟨(exText_sane x).1, (exText_sane x).2.1, exText_data.2 x⟩

theorem exFloat_rounded (x : ℝ) : exFloat.rounded (some x) = some (exText.rounded x) := by
  refine if_neg fun h => ?_
  have := congrArg List.length h
  simp [exFloat, exText] at this

/-- Hydrogen with two symmetry functions and oxygen with one. -/
def exSensElements : List SensElement := [⟨1, "H".toList, 2⟩, ⟨8, "O".toList, 1⟩]

/-- One hydrogen atom on each of two processes. -/
noncomputable def exSensStructures : List (List Structure) :=
  [[{ Structure.init with atoms := [{ Atom.init with element := 0, dEdG := [99, 1] }] }],
    [{ Structure.init with atoms := [{ Atom.init with element := 0, dEdG := [-99, 1] }] }]]

theorem exSens_elements : SensElements exSensElements := by
  refine ⟨?_, ?_, ?_, ?_⟩ <;> decide

theorem exSens_data : SensData exSensElements exSensStructures := by
  refine ⟨by simp [exSensStructures], ?_⟩
  intro a ha
  simp only [allAtoms, exSensStructures, List.flatten_cons, List.flatten_nil, List.append_nil, List.cons_append,
    List.nil_append, List.flatMap_cons, List.flatMap_nil, List.mem_cons, List.not_mem_nil, or_false] at ha
  rcases ha with rfl | rfl <;> exact ⟨⟨1, "H".toList, 2⟩, rfl, le_rfl⟩

theorem exSens_values (j : ℕ) : sensValues exSensStructures 0 j = [[99, 1].getD j 0, [-99, 1].getD j 0] ∧
    sensValues exSensStructures 1 j = [] := by
  constructor <;> simp [sensValues, allAtoms, exSensStructures]

theorem exSens_share (j : ℕ) (hj : j < 2) :
    share (fun i => largestAbs (sensValues exSensStructures 0 i)) 2 j = some (if j = 0 then 99 else 1) := by
  have h0 : largestAbs (sensValues exSensStructures 0 0) = 99 := by
    rw [(exSens_values 0).1]; simp [largestAbs]
  have h1 : largestAbs (sensValues exSensStructures 0 1) = 1 := by
    rw [(exSens_values 1).1]; simp [largestAbs]
  unfold share
  rw [Finset.sum_range_succ, Finset.sum_range_one, h0, h1, if_neg (by norm_num)]
  match j, hj with
  | 0, _ => simp only [h0]; norm_num
  | 1, _ => simp only [h1]; norm_num

example : ∃ fs' text, sensitivityAnalysis exFloat ⟨0, 1, 1, 1⟩ false exSensElements exSensStructures (fun _ => none) =
      some fs' ∧ fs' "sensitivity.001.out".toList = some text ∧ (fileTable text).length = 2 ∧
      (fileTable text)[1]? = some (["2", "1", "1", "1", "1"].map String.toList) := by
  obtain ⟨fs', h1, h2, -⟩ := C108_files exFloat_data ⟨0, 1, 1, 1⟩ false exSens_elements exSens_data (fun _ => none)
  obtain ⟨text, h3, h4⟩ := h2 0 _ rfl
  refine ⟨fs', text, h1, h3, by rw [h4]; rfl, ?_⟩
  have r0 : rmsOf (sensValues exSensStructures 0 0) = 99 := by
    rw [(exSens_values 0).1]
    norm_num [rmsOf]
    rw [show (9801 : ℝ) = 99 ^ 2 by norm_num, Real.sqrt_sq (by norm_num)]
  have r1 : rmsOf (sensValues exSensStructures 0 1) = 1 := by
    rw [(exSens_values 1).1]; norm_num [rmsOf]
  have s1 : share (fun i => rmsOf (sensValues exSensStructures 0 i)) 2 1 = some 1 := by
    unfold share
    rw [Finset.sum_range_succ, Finset.sum_range_one, r0, r1, if_neg (by norm_num)]
    simp only [r1]
    norm_num
  have l1 : largestAbs (sensValues exSensStructures 0 1) = 1 := by
    rw [(exSens_values 1).1]; simp [largestAbs]
  have m1 : msaOf (sensValues exSensStructures 0 1) = some 1 := by
    unfold msaOf
    rw [r1, if_neg (by rw [(exSens_values 1).1]; simp)]
  have p1 : exFloat.print (some 1) = "1".toList := by
    show [Char.ofNat (48 + min 9 ⌊(1 : ℝ)⌋₊)] = _
    rw [Nat.floor_one]
    rfl
  rw [h4]
  have : (sensTable exFloat [1] (sensValues exSensStructures 0) 2)[1]? = some (natText (1 + 1) ::
    ([share (fun i => rmsOf (sensValues exSensStructures 0 i)) 2 1,
      share (fun i => largestAbs (sensValues exSensStructures 0 i)) 2 1] ++ [(1 : ℝ)].flatMap fun u =>
        [(msaOf (sensValues exSensStructures 0 1)).map (· / u),
          some (largestAbs (sensValues exSensStructures 0 1) / u)]).map exFloat.print) := rfl
  refine this.trans ?_
  rw [s1, exSens_share 1 (by norm_num), m1, l1]
  simp only [List.flatMap_cons, List.flatMap_nil, List.append_nil, Option.map_some, div_one, one_ne_zero, if_false,
    List.cons_append, List.nil_append, List.map_cons, List.map_nil, p1]
  rfl

/-- The settings of the example. -/
def exSensSettings : List Str := ["symfunction_short O".toList, "symfunction_short H 1".toList,
  "symfunction_short H 2".toList]

example : ∃ fs' text, (sensitivityAnalysis exFloat ⟨0, 1, 1, 1⟩ false exSensElements exSensStructures
      (fun _ => none)).bind (pruneSensitivity exFloat 5 "max".toList [⟨1, [1, 2]⟩, ⟨8, [0]⟩] exSensSettings) =
        some fs' ∧ fs' "output-prune-sensitivity.nn".toList = some text ∧
    readLines text = ["symfunction_short O".toList, "symfunction_short H 1".toList,
      "# symfunction_short H 2".toList] := by
  obtain ⟨fs', text, h1, -, h2, h3, h4, -⟩ := C108_prune exFloat_data ⟨0, 1, 1, 1⟩ false exSens_elements exSens_data
    (fun _ => none) (pels := [⟨1, [1, 2]⟩, ⟨8, [0]⟩])
    (.cons ⟨rfl, rfl⟩ (.cons ⟨rfl, rfl⟩ .nil)) .max 5 (settings := exSensSettings) (by decide)
  refine ⟨_, text, h1, Function.update_self .., ?_⟩
  have r2 : (2 : ℕ) ∈ insensitiveLines exFloat largestAbs 5 exSensStructures [⟨1, [1, 2]⟩, ⟨8, [0]⟩] := by
    refine ⟨0, 1, _, 1, rfl, rfl, ?_, by norm_num⟩
    refine (congrArg exFloat.rounded (exSens_share 1 (by norm_num))).trans ?_
    rw [if_neg (by norm_num), exFloat_rounded, exText_num 1 1 (by norm_num) (by norm_num)]
  have r : ∀ l < 2, l ∉ insensitiveLines exFloat largestAbs 5 exSensStructures [⟨1, [1, 2]⟩, ⟨8, [0]⟩] := by
    rintro l hl ⟨k, j, p, x, hk, hj, hx, hlt⟩
    match k, hk with
    | 0, hk =>
      obtain rfl := Option.some.inj hk
      match j, hj with
      | 0, _ =>
        have e := (congrArg exFloat.rounded (exSens_share 0 (by norm_num))).symm.trans hx
        rw [if_pos rfl, exFloat_rounded] at e
        have e := Option.some.inj e
        have e9 : exText.rounded 99 = 9 := by
          have h9 : ⌊(99 : ℝ)⌋₊ = 99 := by exact_mod_cast Nat.floor_natCast 99
          simp only [NumberText.rounded, exText, h9]
          norm_num [show (Char.ofNat 57).toNat = 57 by decide]
        rw [e9] at e
        linarith
      | 1, hj => simp at hj; omega
      | j + 2, hj => simp at hj
    | 1, hk =>
      obtain rfl := Option.some.inj hk
      have e : share (fun i => largestAbs (sensValues exSensStructures 1 i)) 1 j = none := by
        refine if_pos ?_
        simp [(exSens_values 0).2, largestAbs]
      have hx' : exFloat.rounded (share (fun i => largestAbs (sensValues exSensStructures 1 i)) 1 j) = some x := hx
      rw [e] at hx'
      exact absurd (exFloat_data.nan.symm.trans hx') (by simp)
    | k + 2, hk => simp at hk
  refine List.ext_getElem? fun i => ?_
  match i with
  | 0 => rw [h4 0 (r 0 (by norm_num))]; rfl
  | 1 => rw [h4 1 (r 1 (by norm_num))]; rfl
  | 2 => rw [h3 2 r2]; rfl
  | i + 3 =>
    rw [List.getElem?_eq_none (by rw [h2]; simp [exSensSettings])]
    rfl

example : ∃ text out, scalingTool 100 0 exText 0 exScalingFunctions exScalingData = some text ∧
    pruneRange exText 7 [] exScalingFunctions [[1]] exSensSettings
      (Files.write (fun _ => none) "scaling.data".toList text) =
        some (((Files.write (fun _ => none) "scaling.data".toList text)).write "output-prune-range.nn".toList out) ∧
    (readLines out)[1]? = some "# symfunction_short H 1".toList := by
  obtain ⟨text, out, h1, h2, -, h3, -⟩ := C108_range exText_data 0 100 0 exScaling_inOrder exScaling_inOrder rfl
    ⟨by decide, by simp [exScalingFunctions]⟩ exScaling_data [] (by
      intro k f hk i hi
      match k, hk with
      | 0, hk =>
        obtain rfl := Option.some.inj hk
        match i, hi with
        | 0, _ => rw [exScaling_values]; exact ⟨by simp, by simp; norm_num⟩
      | k + 1, hk => simp [exScalingFunctions] at hk) (numbers := [[1]]) rfl 7 (settings := exSensSettings)
    (by decide) (fun _ => none)
  refine ⟨text, out, h1, h2, (h3 1 ?_).trans rfl⟩
  refine ⟨0, 0, [1], 0, 6, rfl, rfl, ?_, ?_, ?_⟩
  · rw [exScaling_values]
    refine ⟨by simp, ?_⟩
    rintro v hv
    simp only [List.mem_cons, List.not_mem_nil, or_false, Set.mem_ofPred_eq] at hv
    rcases hv with rfl | rfl | rfl <;> norm_num
  · rw [exScaling_values]
    refine ⟨by simp, ?_⟩
    rintro v hv
    simp only [List.mem_cons, List.not_mem_nil, or_false, Set.mem_ofPred_eq] at hv
    rcases hv with rfl | rfl | rfl <;> norm_num
  · rw [exText_num 6 6 (by norm_num) (by norm_num), exText_num 0 0 (by norm_num) (by norm_num)]
    norm_num

example : ∃ fs' text, (sensitivityAnalysis exFloat ⟨0, 1, 1, 1⟩ false exSensElements exSensStructures
      (fun _ => none)).bind (pruneSensitivity exFloat 1000 "msa".toList [⟨1, [1, 2]⟩, ⟨8, [0]⟩] exSensSettings) =
        some fs' ∧ fs' "output-prune-sensitivity.nn".toList = some text ∧
      (readLines text)[0]? = some "symfunction_short O".toList := by
  refine C108_kept exFloat_data ⟨0, 1, 1, 1⟩ false exSens_elements exSens_data (fun _ => none)
    (pels := [⟨1, [1, 2]⟩, ⟨8, [0]⟩]) (.cons ⟨rfl, rfl⟩ (.cons ⟨rfl, rfl⟩ .nil)) .msa 1000
    (settings := exSensSettings) (by decide) (l := 0) ?_
  intro k j p hk hj i _ v hv
  match k, hk with
  | 0, hk =>
    obtain rfl := Option.some.inj hk
    match j, hj with
    | 0, hj => simp at hj
    | 1, hj => simp at hj
    | j + 2, hj => simp at hj
  | 1, _ => rw [(exSens_values i).2] at hv; cases hv
  | k + 2, hk => simp at hk

example : ∃ y : ℕ → ℝ, (∀ i, share (fun i => rmsOf (sensValues exSensStructures 0 i)) 2 i = some (y i) ∧ 0 ≤ y i) ∧
    ∑ i ∈ Finset.range 2, y i = 100 :=
  C108_shares .msa (j := 1) (x := 1) (by norm_num) (by rw [(exSens_values 1).1]; simp) (by norm_num)

example : IsGreatest {x | ∃ v ∈ sensValues exSensStructures 0 0, |v| = x} 99 := by
  have h := C108_largest (structures := exSensStructures) (k := 0) (j := 0) (by rw [(exSens_values 0).1]; simp)
  have e : largestAbs (sensValues exSensStructures 0 0) = 99 := by
    rw [(exSens_values 0).1]; simp [largestAbs]
  rwa [e] at h

/-- Lines which are no comments, as counted by the code and by the specification. -/
theorem statisticsLines_length {ls out : List Str} (h : statisticsLines ls = some out) :
    out = ls.filter fun l => decide (l.head? ≠ some '#') := by
  induction ls generalizing out with
  | nil => simpa [statisticsLines] using h.symm
  | cons l ls ih =>
    cases l with
    | nil => simp [statisticsLines] at h
    | cons c t =>
      obtain ⟨o, ho⟩ : ∃ o, statisticsLines ls = some o := by
        cases e : statisticsLines ls with
        | none => simp [statisticsLines, e] at h
        | some o => exact ⟨o, rfl⟩
      simp only [statisticsLines, ho, Option.bind_eq_bind, Option.bind_some, Option.some.injEq] at h
      rw [← h, ih ho]
      by_cases hc : c = '#' <;> simp [hc]

/-- C108: pruning stops, without writing a file, if for some element the table of sensitivities has not as many lines as
the element has symmetry functions, for whatever reason. -/
theorem C108_mismatch (threshold : ℝ) (mode : Str) (pels : List PruneElement) (settings : List Str) (fs : Files)
    {p : PruneElement} (hp : p ∈ pels)
    (h : (fileTable ((fs (sensitivityFile p.Z)).getD [])).length ≠ p.lines.length) :
    pruneSensitivity F threshold mode pels settings fs = none := by
  unfold pruneSensitivity
  cases sensColumn mode with
  | none => rfl
  | some column =>
    have hr : readSensitivity F column fs p = none := by
      unfold readSensitivity
      cases hn : sensName p.Z with
      | none => rfl
      | some name =>
        obtain rfl : name = sensitivityFile p.Z := by
          unfold sensName strpr at hn
          split at hn
          · exact (Option.some.inj hn).symm
          · exact absurd hn (by simp)
        simp only [Option.bind_eq_bind, Option.bind_some]
        cases hl : statisticsLines (readLines ((fs (sensitivityFile p.Z)).getD [])) with
        | none => rfl
        | some ls =>
          have e := congrArg List.length (statisticsLines_length hl)
          rw [fileTable, List.length_map, ← e] at h
          simp only [Option.bind_some, if_pos h]
    have hm : pels.mapM (readSensitivity F column fs) = none := by
      clear h
      induction pels with
      | nil => simp at hp
      | cons a l ih =>
        rw [List.mapM_cons]
        rcases List.mem_cons.1 hp with rfl | hp
        · rw [hr]; rfl
        · rw [ih hp]; cases readSensitivity F column fs a <;> rfl
    simp only [Option.bind_eq_bind, Option.bind_some, hm, Option.bind_none]

example (fs : Files) : pruneSensitivity exFloat 0.1 "max".toList [⟨8, [0]⟩, ⟨1, [1, 2]⟩] exSensSettings
    (fs.write (sensitivityFile 1) "# header\n1 2 3\n2 4 5\n3 6 7\n".toList) = none := by
  refine C108_mismatch 0.1 _ _ _ _ (p := ⟨1, [1, 2]⟩) (by simp) ?_
  have : fs.write (sensitivityFile 1) "# header\n1 2 3\n2 4 5\n3 6 7\n".toList (sensitivityFile 1) =
      some "# header\n1 2 3\n2 4 5\n3 6 7\n".toList := Function.update_self ..
  rw [this]
  decide +kernel

end N2P2
