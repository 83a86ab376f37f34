import Verif.Spec.Histogram
import Verif.Lemma.ComparisonFile
import Verif.Lemma.ScalingFile
import Verif.Lemma.Convert
import Mathlib.Tactic.Linarith
import Mathlib.Tactic.FieldSimp
import Mathlib.Tactic.Ring

/-! Histograms. -/

namespace N2P2

/-! ### Counting -/

/-- Limits of the histogram are in order. -/
def GslHistogram.Ordered (h : GslHistogram) : Prop := StrictMono h.range

theorem increment_eq {h : GslHistogram} (hr : h.Ordered) (x : ℝ) :
    (h.increment x).n = h.n ∧ (h.increment x).range = h.range ∧
      ∀ j < h.n, (h.increment x).bin j = h.bin j + countBetween [x] (h.range j) (h.range (j + 1)) := by
  classical
  unfold GslHistogram.increment
  cases hf : (List.range h.n).find? (fun i => decide (h.range i ≤ x ∧ x < h.range (i + 1))) with
  | none =>
    refine ⟨rfl, rfl, fun j hj => ?_⟩
    have := List.find?_eq_none.1 hf j (List.mem_range.2 hj)
    have h0 : countBetween [x] (h.range j) (h.range (j + 1)) = 0 := by
      unfold countBetween
      rw [List.countP_eq_zero]
      intro v hv
      rw [List.mem_singleton] at hv
      subst hv
      exact this
    rw [h0]
    simp
  | some i =>
    refine ⟨rfl, rfl, fun j hj => ?_⟩
    have hi := List.find?_some hf
    rw [decide_eq_true_iff] at hi
    show Function.update h.bin i (h.bin i + 1) j = _
    by_cases hij : j = i
    · subst hij
      rw [Function.update_self]
      have h1 : countBetween [x] (h.range j) (h.range (j + 1)) = 1 := by
        unfold countBetween
        rw [List.countP_cons_of_pos (by simpa using hi)]
        rfl
      rw [h1]
      simp
    · rw [Function.update_of_ne hij]
      have h0 : countBetween [x] (h.range j) (h.range (j + 1)) = 0 := by
        unfold countBetween
        rw [List.countP_eq_zero]
        intro v hv
        rw [List.mem_singleton] at hv
        subst hv
        rw [decide_eq_true_iff]
        rintro ⟨h1, h2⟩
        rcases Nat.lt_or_gt_of_ne hij with h3 | h3
        · have := hr.monotone (show j + 1 ≤ i by omega)
          linarith [hi.1]
        · have := hr.monotone (show i + 1 ≤ j by omega)
          linarith [hi.2]
      rw [h0]
      simp

theorem countBetween_append (vs ws : List ℝ) (a b : ℝ) :
    countBetween (vs ++ ws) a b = countBetween vs a b + countBetween ws a b := List.countP_append

theorem increments_eq (vs : List ℝ) : ∀ {h : GslHistogram}, h.Ordered →
    (vs.foldl GslHistogram.increment h).n = h.n ∧
    (vs.foldl GslHistogram.increment h).range = h.range ∧
      ∀ j < h.n, (vs.foldl GslHistogram.increment h).bin j =
        h.bin j + countBetween vs (h.range j) (h.range (j + 1)) := by
  induction vs with
  | nil => intro h _; exact ⟨rfl, rfl, fun j _ => by simp [countBetween]⟩
  | cons v vs ih =>
    intro h hr
    obtain ⟨h1, h2, h3⟩ := increment_eq hr v
    obtain ⟨g1, g2, g3⟩ := ih (h := h.increment v) (by
      unfold GslHistogram.Ordered
      rw [h2]
      exact hr)
    rw [List.foldl_cons]
    refine ⟨g1.trans h1, g2.trans h2, fun j hj => ?_⟩
    rw [g3 j (by rw [h1]; exact hj), h2, h3 j hj, show v :: vs = [v] ++ vs from rfl,
      countBetween_append]
    push_cast
    ring

/-- Histogram collected from several processes. -/
theorem histogram_collect {h : GslHistogram} (hr : h.Ordered) (h0 : ∀ j, h.bin j = 0) (vss : List (List ℝ)) :
    ∀ j < h.n, (GslHistogram.collect (vss.map fun vs => vs.foldl GslHistogram.increment h) h).bin j =
      countBetween vss.flatten (h.range j) (h.range (j + 1)) := by
  intro j hj
  show ((vss.map fun vs => vs.foldl GslHistogram.increment h).map fun h => h.bin j).sum = _
  induction vss with
  | nil => simp [countBetween]
  | cons vs vss ih =>
    rw [List.map_cons, List.map_cons, List.sum_cons, ih, (increments_eq vs hr).2.2 j hj, h0,
      List.flatten_cons, countBetween_append]
    push_cast
    ring

theorem uniform_eq {n : ℕ} (hn : n ≠ 0) {a b : ℝ} (hab : a < b) :
    ∃ h, GslHistogram.uniform n a b = some h ∧ h.n = n ∧ h.Ordered ∧ (∀ j, h.bin j = 0) ∧
      ∀ j, h.range j = a + j * ((b - a) / n) := by
  have hn' : (0 : ℝ) < n := by exact_mod_cast Nat.pos_of_ne_zero hn
  have hr : ∀ j : ℕ, ((n : ℝ) - j) / n * a + (j : ℝ) / n * b = a + j * ((b - a) / n) := by
    intro j
    field_simp
    ring
  refine ⟨_, if_neg (by
    rintro (h | h)
    · exact hn h
    · linarith), rfl, ?_, fun _ => rfl, hr⟩
  intro i j hij
  show ((n : ℝ) - i) / n * a + (i : ℝ) / n * b < ((n : ℝ) - j) / n * a + (j : ℝ) / n * b
  rw [hr, hr]
  have h1 : (i : ℝ) < j := by exact_mod_cast hij
  have h2 : 0 < (b - a) / n := div_pos (by linarith) hn'
  nlinarith

/-! ### Tables -/

theorem fileTable_eq {hs : List Str} (hh : ∀ l ∈ hs, '\n' ∉ l ∧ ∃ t, l = '#' :: t) {t : Str}
    {words : List (List Str)} (hr : Rows t words) :
    fileTable (hs.flatMap (· ++ ['\n']) ++ t) = words := by
  obtain ⟨ls, rfl, h1, rfl⟩ := hr
  unfold fileTable
  rw [readLines_append hs (fun l h => (hh l h).1), readLines_write ls fun l hl => (h1 l hl).1,
    List.filter_append]
  have e1 : hs.filter (fun l => decide (l.head? ≠ some '#')) = [] := by
    rw [List.filter_eq_nil_iff]
    intro l hl
    obtain ⟨t, rfl⟩ := (hh l hl).2
    simp
  have e2 : ls.filter (fun l => decide (l.head? ≠ some '#')) = ls := by
    rw [List.filter_eq_self]
    intro l hl
    simpa using (h1 l hl).2.2
  rw [e1, e2, List.nil_append]

theorem row_line' (n : ℕ) {w : Str} (hw : IsWord w) (hn : '\n' ∉ w) (h0 : w.head? ≠ some '#')
    (fs : List (ℕ × Str)) (h : ∀ f ∈ fs, IsWord f.2 ∧ '\n' ∉ f.2) :
    Rows (fieldLine (padLeft n w) (fs.map fun f => padLeft f.1 f.2)) [w :: fs.map Prod.snd] := by
  have hhead : ∀ (k : ℕ) (t : Str), (List.replicate k ' ' ++ w ++ t) ≠ [] ∧
      (List.replicate k ' ' ++ w ++ t).head? ≠ some '#' := by
    intro k t
    cases k with
    | zero =>
      cases e : w with
      | nil => exact absurd e hw.1
      | cons c cs =>
        rw [e] at h0
        exact ⟨by simp, by simpa using h0⟩
    | succ k => exact ⟨by simp [List.replicate_succ], by simp [List.replicate_succ]⟩
  refine ⟨[List.replicate (n - w.length) ' ' ++ w ++
      spaced (fs.map fun f => (f.1 - f.2.length, f.2))], ?_, ?_, ?_⟩
  · rw [fieldLine_body]; simp
  · intro l hl
    rw [List.mem_singleton.1 hl]
    refine ⟨?_, (hhead _ _).1, (hhead _ _).2⟩
    intro hc
    rcases List.mem_append.1 hc with hc | hc
    · rcases List.mem_append.1 hc with hc | hc
      · exact absurd (List.eq_of_mem_replicate hc) (by decide)
      · exact hn hc
    · refine newline_spaced ?_ hc
      intro f hf
      obtain ⟨g, hg, rfl⟩ := List.mem_map.1 hf
      exact (h g hg).2
  · rw [List.map_singleton]
    have := tokens_lead (n - w.length) w hw
      (fs.map fun f => (f.1 - f.2.length, f.2)) (by
        intro f hf
        obtain ⟨g, hg, rfl⟩ := List.mem_map.1 hf
        exact (h g hg).1)
    rw [(C01_tokens_are_words _ _).2 this, List.map_map]
    rfl

theorem rows_flatten {α : Type} (f : α → Str) (w : α → List Str) : ∀ l : List α,
    (∀ a ∈ l, Rows (f a) [w a]) → Rows (l.map f).flatten (l.map w) := by
  intro l
  induction l with
  | nil => intro _; exact rows_nil
  | cons a l ih =>
    intro h
    exact rows_append (h a (by simp)) (ih fun x hx => h x (by simp [hx]))

theorem text_rows {R N : NumberText} (hR : R.Data) (hN : N.Data) (width : ℕ) (h : GslHistogram) :
    Rows (h.text R N width) ((List.range h.n).map fun j =>
      [R.print (h.range j), R.print (h.range (j + 1)), N.print (h.bin j)]) := by
  unfold GslHistogram.text
  refine rows_flatten _ _ _ fun j _ => ?_
  obtain ⟨w1, n1, -⟩ := hR.1 (h.range j)
  obtain ⟨w2, n2, -⟩ := hR.1 (h.range (j + 1))
  obtain ⟨w3, n3, -⟩ := hN.1 (h.bin j)
  exact row_line' width w1 n1 (hR.2 _) [(width, R.print (h.range (j + 1))), (16, N.print (h.bin j))]
    (by
      intro f hf
      simp only [List.mem_cons, List.not_mem_nil, or_false] at hf
      rcases hf with rfl | rfl
      · exact ⟨w2, n2⟩
      · exact ⟨w3, n3⟩)

/-! ### Names -/

theorem digits_zeroPadded {w n : ℕ} {c : Char} (hc : c ∈ zeroPadded w n) : c.isDigit = true := by
  rcases List.mem_append.1 hc with h | h
  · rw [List.eq_of_mem_replicate h]
    decide
  · exact natText_digit h

theorem dot_zeroPadded (w n : ℕ) : '.' ∉ zeroPadded w n := fun h =>
  absurd (digits_zeroPadded h) (by decide)

theorem histogramFile_inj {Z i Z' i' : ℕ} (h : histogramFile Z i = histogramFile Z' i') :
    Z = Z' ∧ i = i' := by
  unfold histogramFile at h
  have h1 := List.append_cancel_right h
  rw [List.append_assoc, List.append_assoc, List.append_assoc, List.append_assoc] at h1
  have h2 := List.append_cancel_left h1
  have h3 := (List.append_cons_inj_of_notMem (dot_zeroPadded 3 Z) (dot_zeroPadded 4 i)).1 h2
  exact ⟨zeroPad_inj h3.1, zeroPad_inj h3.2.2⟩

theorem zeroPadded_length {w n : ℕ} (hw : w ≤ 20) (hn : n < 2 ^ 64) : (zeroPadded w n).length ≤ 20 := by
  have := natText_size hn
  unfold zeroPadded
  rw [List.length_append, List.length_replicate]
  omega

theorem histoName_eq {Z i : ℕ} (hZ : Z < 2 ^ 64) (hi : i < 2 ^ 64) :
    histoName Z i = some (histogramFile Z i) := by
  have h1 := zeroPadded_length (w := 3) (by omega) hZ
  have h2 := zeroPadded_length (w := 4) (by omega) hi
  have e1 : ("sf.".toList).length = 3 := by decide
  have e2 : (".histo".toList).length = 6 := by decide
  unfold histoName strpr histogramFile
  refine if_pos ?_
  simp only [List.length_append, List.length_cons, List.length_nil, e1, e2]
  omega

/-! ### Files -/

theorem foldlM_flatMap {α β σ : Type} (g : α → List β) (step : σ → β → Option σ) : ∀ (l : List α) (s : σ),
    (l.flatMap g).foldlM step s = l.foldlM (fun s a => (g a).foldlM step s) s := by
  intro l
  induction l with
  | nil => intro s; rfl
  | cons a l ih =>
    intro s
    rw [List.flatMap_cons, List.foldlM_append, List.foldlM_cons]
    exact bind_congr fun s' => ih s'

/-- Files with different names are written one after the other. -/
theorem fold_writes {β : Type} (step : Files → β → Option Files) (name : β → Str)
    (out : β → Option Str) : ∀ (l : List β) (fs : Files),
    (∀ b ∈ l, ∀ fs, step fs b = some (match out b with
      | none => fs
      | some t => fs.write (name b) t)) →
    l.Pairwise (fun a b => name a ≠ name b) →
    ∃ fs', l.foldlM step fs = some fs' ∧ (∀ b ∈ l, ∀ t, out b = some t → fs' (name b) = some t) ∧
      ∀ x, (∀ b ∈ l, out b ≠ none → x ≠ name b) → fs' x = fs x := by
  intro l
  induction l with
  | nil => intro fs _ _; exact ⟨fs, rfl, by simp, fun _ _ => rfl⟩
  | cons b l ih =>
    intro fs hs hp
    rw [List.pairwise_cons] at hp
    obtain ⟨hp, hp'⟩ := hp
    have hb := hs b (by simp) fs
    obtain ⟨fs', e, h1, h2⟩ := ih (match out b with
      | none => fs
      | some t => fs.write (name b) t) (fun c hc => hs c (by simp [hc])) hp'
    refine ⟨fs', by rw [List.foldlM_cons, hb]; exact e, ?_, ?_⟩
    · intro c hc t ht
      rcases List.mem_cons.1 hc with rfl | hc
      · rw [h2 (name c) fun d hd _ => hp d hd, ht]
        exact Function.update_self ..
      · exact h1 c hc t ht
    · intro x hx
      rw [h2 x fun c hc => hx c (by simp [hc])]
      cases ho : out b with
      | none => rfl
      | some t => exact Function.update_of_ne (hx b (by simp) (by rw [ho]; simp)) ..

/-! ### Symmetry functions -/

theorem collected_empty {M : ℝ} {α : Type} {data : List α} (hd : data ≠ []) (stat : α → StatData)
    (i : ℕ) (h : ∀ p ∈ data, ∃ ws, Absorbed (StatContainer.init M) ((stat p).at M i) [] ws) :
    (collected M (data.map stat) ((data.map stat).headD []) i).min = M ∧
      (collected M (data.map stat) ((data.map stat).headD []) i).max = -M := by
  obtain ⟨p0, hp0, e0⟩ : ∃ p ∈ data, (data.map stat).headD [] = stat p := by
    cases data with
    | nil => exact absurd rfl hd
    | cons p l => exact ⟨p, by simp, rfl⟩
  rw [e0]
  have h1 : ∀ p ∈ data, ((stat p).at M i).min = M := fun p hp => by
    obtain ⟨ws, ha⟩ := h p hp; exact ha.min
  have h2 : ∀ p ∈ data, ((stat p).at M i).max = -M := fun p hp => by
    obtain ⟨ws, ha⟩ := h p hp; exact ha.max
  constructor
  · have := (foldl_min_of_mem (l := (data.map stat).map fun p : StatData => (p.at M i).min)
      (x := ((stat p0).at M i).min) (by
        rw [List.map_map]; exact List.mem_map.2 ⟨p0, hp0, rfl⟩)).1
    rw [List.map_map] at this
    obtain ⟨p, hp, e⟩ := List.mem_map.1 this
    show ((data.map stat).map fun p => (p.at M i).min).foldl Min.min ((stat p0).at M i).min = M
    rw [List.map_map, ← e]
    exact h1 p hp
  · have := (foldl_max_of_mem (l := (data.map stat).map fun p : StatData => (p.at M i).max)
      (x := ((stat p0).at M i).max) (by
        rw [List.map_map]; exact List.mem_map.2 ⟨p0, hp0, rfl⟩)).1
    rw [List.map_map] at this
    obtain ⟨p, hp, e⟩ := List.mem_map.1 this
    show ((data.map stat).map fun p => (p.at M i).max).foldl Max.max ((stat p0).at M i).max = -M
    rw [List.map_map, ← e]
    exact h2 p hp

theorem countValues_eq {i n : ℕ} (hi : i < n) : ∀ (atoms : List StatAtom), (∀ a ∈ atoms, a.G.length = n) →
    ∀ h, countValues i atoms h = (atoms.map fun a => a.G.getD i 0).foldl GslHistogram.increment h := by
  intro atoms
  induction atoms with
  | nil => intro _ h; rfl
  | cons a atoms ih =>
    intro ha h
    have e : a.G[i]? = some (a.G.getD i 0) := by
      rw [List.getD_eq_getElem?_getD, List.getElem?_eq_getElem (by rw [ha a (by simp)]; exact hi)]
      rfl
    have := ih (fun b hb => ha b (by simp [hb])) (h.increment (a.G.getD i 0))
    rw [List.map_cons, List.foldl_cons, ← this]
    show List.foldl _ (match a.G[i]? with
      | some v => h.increment v
      | none => h) atoms = _
    rw [e]
    rfl

theorem sfHistogram_eq {numBins : ℕ} (h2 : 2 ≤ numBins) (hn : numBins < 2 ^ 64) {c : StatContainer}
    (hc : c.min < c.max) : ∃ h, sfHistogram numBins c = some (some h) ∧ h.n = numBins ∧ h.Ordered ∧
      (∀ j, h.bin j = 0) ∧ ∀ j, h.range j = c.min + j * ((c.max - c.min) / (numBins - 1)) := by
  have e1 : sizePred numBins = numBins - 1 := by unfold sizePred; omega
  have e2 : (numBins - 1 + 1) % 2 ^ 64 = numBins := by omega
  have e3 : ((numBins - 1 : ℕ) : ℝ) = (numBins : ℝ) - 1 := by
    rw [Nat.cast_sub (by omega)]; simp
  have hp : (0 : ℝ) < (numBins : ℝ) - 1 := by
    have : (2 : ℝ) ≤ numBins := by exact_mod_cast h2
    linarith
  have hw : 0 < (c.max - c.min) / ((numBins : ℝ) - 1) := div_pos (by linarith) hp
  obtain ⟨h, h1, h3, h4, h5, h6⟩ := uniform_eq (n := numBins) (by omega)
    (a := c.min) (b := c.max + (c.max - c.min) / ((numBins : ℝ) - 1)) (by linarith)
  refine ⟨h, ?_, h3, h4, h5, fun j => ?_⟩
  · unfold sfHistogram
    rw [if_pos hc, e1, if_neg (by omega), e2, e3, h1, Option.map_some]
  · have h0 : (numBins : ℝ) ≠ 0 := by linarith
    have e4 : (c.max + (c.max - c.min) / ((numBins : ℝ) - 1) - c.min) / numBins =
        (c.max - c.min) / ((numBins : ℝ) - 1) := by
      have := hp.ne'
      field_simp
      ring
    rw [h6 j, e4]

theorem sfHistogramHeader_comment :
    ∃ h, sfHistogramHeader = some h ∧ ∀ l ∈ h, IsCommentLine '#' l := by
  obtain ⟨h, hh⟩ : ∃ h, sfHistogramHeader = some h := ⟨_, rfl⟩
  exact ⟨h, hh, header_comment (by decide) (by decide) (by decide) (by decide)
    ⟨16, by decide, by decide⟩ hh⟩

/-- Lines of `sfInfoLines`. -/
noncomputable def infoBodies (N : NumberText) (nan : ℝ) (info : List Str) (c : StatContainer) : List Str :=
  info.map ("#SFINFO ".toList ++ ·) ++ [infoLine N "min         " c.min, infoLine N "max         " c.max,
    infoLine N "mean        " (c.mean nan), infoLine N "sigma       " (c.sigma nan)]

theorem sfInfoLines_eq (N : NumberText) (nan : ℝ) (info : List Str) (c : StatContainer) :
    sfInfoLines N nan info c = (infoBodies N nan info c).flatMap (· ++ ['\n']) := by
  have e : ∀ l : List Str, (l.map fun l => "#SFINFO ".toList ++ l ++ ['\n']).flatten =
      (l.map ("#SFINFO ".toList ++ ·)).flatMap (· ++ ['\n']) := by
    intro l
    rw [List.flatMap_def, List.map_map]
    rfl
  have t1 : "#SFINFO min         ".toList = "#SFINFO ".toList ++ "min         ".toList := by
    decide +kernel
  have t2 : "#SFINFO max         ".toList = "#SFINFO ".toList ++ "max         ".toList := by
    decide +kernel
  have t3 : "#SFINFO mean        ".toList = "#SFINFO ".toList ++ "mean        ".toList := by
    decide +kernel
  have t4 : "#SFINFO sigma       ".toList = "#SFINFO ".toList ++ "sigma       ".toList := by
    decide +kernel
  unfold sfInfoLines infoBodies infoLine
  rw [e, List.flatMap_append, t1, t2, t3, t4]
  simp only [List.flatMap_cons, List.flatMap_nil, List.append_nil, List.append_assoc]

theorem infoBodies_comment {N : NumberText} (hN : N.Data) (nan : ℝ) {info : List Str}
    (hi : ∀ l ∈ info, '\n' ∉ l) (c : StatContainer) :
    ∀ l ∈ infoBodies N nan info c, '\n' ∉ l ∧ ∃ t, l = '#' :: t := by
  have h0 : '\n' ∉ "#SFINFO ".toList := by decide
  have hl : ∀ (s : String) x, '\n' ∉ s.toList → '\n' ∉ infoLine N s x ∧ ∃ t, infoLine N s x = '#' :: t := by
    intro s x hs
    refine ⟨?_, _, rfl⟩
    unfold infoLine padLeft
    rw [List.mem_append, List.mem_append, List.mem_append]
    rintro ((h | h) | h | h)
    · exact h0 h
    · exact hs h
    · exact absurd (List.eq_of_mem_replicate h) (by decide)
    · exact (hN.1 x).2.1 h
  intro l hm
  rcases List.mem_append.1 hm with hm | hm
  · obtain ⟨t, ht, rfl⟩ := List.mem_map.1 hm
    refine ⟨?_, _, rfl⟩
    rw [List.mem_append]
    rintro (h | h)
    · exact h0 h
    · exact hi t ht h
  · simp only [List.mem_cons, List.not_mem_nil, or_false] at hm
    rcases hm with rfl | rfl | rfl | rfl <;> exact hl _ _ (by decide)

/-- Text of a file. -/
structure HistoText (N : NumberText) (nan : ℝ) (numBins : ℕ) (info : List Str) (vs : List ℝ)
    (c : StatContainer) (text : Str) : Prop where
  table : fileTable text = histogramTable N vs c.min c.max numBins
  info : ∀ l ∈ infoBodies N nan info c, l ∈ readLines text

theorem writeHistogram_eq {N : NumberText} (hN : N.Data) (nan : ℝ) {numBins : ℕ} (h2 : 2 ≤ numBins)
    (hn : numBins < 2 ^ 64) (data : List (List StatAtom)) {e : HistoElement} (hZ : e.Z < 2 ^ 64) {i n : ℕ}
    (hin : i < n) (hi : i + 1 < 2 ^ 64) (hinfo : ∀ l ∈ e.info i, '\n' ∉ l)
    (hG : ∀ atoms ∈ data, ∀ a ∈ atoms, a.G.length = n) {c : StatContainer}
    (hc : e.scaling.statistics.find? i = some c) :
    ∃ out : Option Str, (∀ fs, writeHistogram N nan numBins data e fs i = some (match out with
      | none => fs
      | some t => fs.write (histogramFile e.Z (i + 1)) t)) ∧
      (c.min < c.max → ∃ t, out = some t ∧ HistoText N nan numBins (e.info i)
        (data.flatMap fun atoms => atoms.map fun a => a.G.getD i 0) c t) ∧
      (¬ c.min < c.max → out = none) := by
  by_cases hlt : c.min < c.max
  · obtain ⟨h, e1, h3, h4, h5, h6⟩ := sfHistogram_eq h2 hn hlt
    obtain ⟨header, e2, hh⟩ := sfHistogramHeader_comment
    obtain ⟨hs, e3, hb⟩ := header_bodies hh
    have e4 : (data.map fun atoms => countValues i atoms h) =
        (data.map fun atoms => atoms.map fun a => a.G.getD i 0).map
          fun vs => vs.foldl GslHistogram.increment h := by
      rw [List.map_map]
      exact List.map_congr_left fun atoms ha => countValues_eq hin atoms (hG atoms ha) h
    have hib := infoBodies_comment hN nan hinfo c
    have hcom : ∀ l ∈ infoBodies N nan (e.info i) c ++ hs, '\n' ∉ l ∧ ∃ t, l = '#' :: t := by
      intro l hl
      rcases List.mem_append.1 hl with hl | hl
      · exact hib l hl
      · exact hb l hl
    refine ⟨some (sfInfoLines N nan (e.info i) c ++ header.flatten ++
        (GslHistogram.collect (data.map fun atoms => countValues i atoms h) h).text N N 16),
      fun fs => ?_, fun _ => ⟨_, rfl, ?_, ?_⟩, fun h => absurd hlt h⟩
    · unfold writeHistogram
      rw [hc]
      simp only [Option.bind_eq_bind, Option.bind_some, e1, histoName_eq hZ hi, e2]
    · rw [sfInfoLines_eq, e3, ← List.flatMap_append, fileTable_eq hcom (text_rows hN hN 16 _)]
      unfold histogramTable
      rw [show (GslHistogram.collect (data.map fun atoms => countValues i atoms h) h).n = numBins
        from h3]
      refine List.map_congr_left fun j hj => ?_
      have hj' : j < h.n := by rw [h3]; exact List.mem_range.1 hj
      rw [e4, histogram_collect h4 h5 _ j hj']
      show [N.print (h.range j), N.print (h.range (j + 1)), _] = _
      rw [h6, h6, List.flatMap_def]
      push_cast
      rfl
    · intro l hl
      rw [sfInfoLines_eq, List.append_assoc, readLines_append _ fun l h => (hib l h).1]
      exact List.mem_append_left _ hl
  · refine ⟨none, fun fs => ?_, fun h => absurd h hlt, fun _ => rfl⟩
    unfold writeHistogram
    rw [hc]
    simp only [Option.bind_eq_bind, Option.bind_some, sfHistogram, if_neg hlt]

/-! ### Neighbours -/

theorem countBetween_split (vs : List ℝ) (r : ℕ → ℝ) (hr : StrictMono r) : ∀ n,
    ((List.range n).map fun j => countBetween vs (r j) (r (j + 1))).sum =
      countBetween vs (r 0) (r n) := by
  classical
  intro n
  induction n with
  | zero =>
    unfold countBetween
    rw [List.range_zero, List.map_nil, List.sum_nil, eq_comm, List.countP_eq_zero]
    intro v _
    rw [decide_eq_true_iff]
    rintro ⟨h1, h2⟩
    linarith
  | succ n ih =>
    rw [List.range_succ, List.map_append, List.sum_append, ih, List.map_singleton, List.sum_singleton]
    unfold countBetween
    clear ih
    have h1 := hr.monotone (Nat.zero_le n)
    have h2 := hr (Nat.lt_succ_self n)
    induction vs with
    | nil => rfl
    | cons v vs ih =>
      simp only [List.countP_cons]
      have : (if (decide (r 0 ≤ v ∧ v < r n)) = true then 1 else 0) +
          (if (decide (r n ≤ v ∧ v < r (n + 1))) = true then 1 else 0) =
          if (decide (r 0 ≤ v ∧ v < r (n + 1))) = true then 1 else 0 := by
        simp only [decide_eq_true_eq]
        by_cases c1 : r 0 ≤ v
        · by_cases c2 : v < r n
          · rw [if_pos ⟨c1, c2⟩, if_neg (by rintro ⟨h, -⟩; linarith), if_pos ⟨c1, by linarith⟩]
          · rw [if_neg (by rintro ⟨-, h⟩; exact c2 h), Nat.zero_add]
            push Not at c2
            by_cases c3 : v < r (n + 1)
            · rw [if_pos ⟨c2, c3⟩, if_pos ⟨c1, c3⟩]
            · rw [if_neg (by rintro ⟨-, h⟩; exact c3 h), if_neg (by rintro ⟨-, h⟩; exact c3 h)]
        · rw [if_neg (by rintro ⟨h, -⟩; exact c1 h), if_neg (by rintro ⟨h, -⟩; linarith),
            if_neg (by rintro ⟨h, -⟩; exact c1 h)]
      omega

theorem neighborStats_eq (atoms : List Atom) : ∀ (lo hi : ℕ) (sum : ℝ),
    atoms.foldl (fun (r : ℕ × ℕ × ℝ) a => (min r.1 a.numNeighbors, max r.2.1 a.numNeighbors,
      r.2.2 + (a.numNeighbors : ℝ))) (lo, hi, sum) = ((atoms.map Atom.numNeighbors).foldl min lo,
        (atoms.map Atom.numNeighbors).foldl max hi,
        sum + (atoms.map fun a => (a.numNeighbors : ℝ)).sum) := by
  induction atoms with
  | nil => intro lo hi sum; simp
  | cons a atoms ih =>
    intro lo hi sum
    rw [List.foldl_cons, ih]
    simp only [List.map_cons, List.foldl_cons, List.sum_cons]
    rw [add_assoc]

theorem nat_foldl_max (l : List ℕ) : ∀ m, m ≤ l.foldl max m ∧ (∀ x ∈ l, x ≤ l.foldl max m) ∧
    (l.foldl max m = m ∨ l.foldl max m ∈ l) := by
  induction l with
  | nil => intro m; simp
  | cons a l ih =>
    intro m
    obtain ⟨h1, h2, h3⟩ := ih (max m a)
    rw [List.foldl_cons]
    refine ⟨by omega, ?_, ?_⟩
    · intro x hx
      rcases List.mem_cons.1 hx with rfl | hx
      · omega
      · exact h2 x hx
    · rcases h3 with h3 | h3
      · rcases le_total m a with h | h
        · right; rw [h3, max_eq_right h]; simp
        · left; rw [h3, max_eq_left h]
      · right; simp [h3]

theorem nat_foldl_min (l : List ℕ) : ∀ m, l.foldl min m ≤ m ∧ (∀ x ∈ l, l.foldl min m ≤ x) ∧
    (l.foldl min m = m ∨ l.foldl min m ∈ l) := by
  induction l with
  | nil => intro m; simp
  | cons a l ih =>
    intro m
    obtain ⟨h1, h2, h3⟩ := ih (min m a)
    rw [List.foldl_cons]
    refine ⟨by omega, ?_, ?_⟩
    · intro x hx
      rcases List.mem_cons.1 hx with rfl | hx
      · omega
      · exact h2 x hx
    · rcases h3 with h3 | h3
      · rcases le_total m a with h | h
        · left; rw [h3, min_eq_left h]
        · right; rw [h3, min_eq_right h]; simp
      · right; simp [h3]

theorem neighborLine_ok {N : NumberText} (hN : N.Data) (nan : ℝ) {s : Structure} (hs : GoodStructure s) :
    ∃ t row, neighborLine N nan s = some t ∧ Rows t [row] ∧ NeighborRow N s row := by
  obtain ⟨ha, hna, hix, hsz, hnb⟩ := hs
  have hst : neighborStats s = ((s.atoms.map Atom.numNeighbors).foldl min sizeMax,
      (s.atoms.map Atom.numNeighbors).foldl max 0,
      0 + (s.atoms.map fun a => (a.numNeighbors : ℝ)).sum) := neighborStats_eq _ _ _ _
  obtain ⟨m1, m2, m3⟩ := nat_foldl_min (s.atoms.map Atom.numNeighbors) sizeMax
  obtain ⟨M1, M2, M3⟩ := nat_foldl_max (s.atoms.map Atom.numNeighbors) 0
  obtain ⟨a0, ha0⟩ := List.exists_mem_of_ne_nil _ ha
  have ha0' : a0.numNeighbors ∈ s.atoms.map Atom.numNeighbors := List.mem_map.2 ⟨a0, ha0, rfl⟩
  generalize hlo : (s.atoms.map Atom.numNeighbors).foldl min sizeMax = lo at hst m1 m2 m3
  generalize hhi : (s.atoms.map Atom.numNeighbors).foldl max 0 = hi at hst M1 M2 M3
  have hlo' : lo ∈ s.atoms.map Atom.numNeighbors := by
    rcases m3 with h | h
    · have h1 := m2 _ ha0'
      have h2 := hnb a0 ha0
      have : lo = a0.numNeighbors := by unfold sizeMax at h; omega
      rw [this]; exact ha0'
    · exact h
  have hhi' : hi ∈ s.atoms.map Atom.numNeighbors := by
    rcases M3 with h | h
    · have h1 := M2 _ ha0'
      have : hi = a0.numNeighbors := by omega
      rw [this]; exact ha0'
    · exact h
  have hset : ∀ n, n ∈ s.atoms.map Atom.numNeighbors → ∃ a ∈ s.atoms, a.numNeighbors = n := fun n h => by
    obtain ⟨a, h1, h2⟩ := List.mem_map.1 h; exact ⟨a, h1, h2⟩
  have blo : lo < 2 ^ 64 := by obtain ⟨a, h1, h2⟩ := hset lo hlo'; rw [← h2]; exact hnb a h1
  have bhi : hi < 2 ^ 64 := by obtain ⟨a, h1, h2⟩ := hset hi hhi'; rw [← h2]; exact hnb a h1
  generalize hx : (s.atoms.map fun a => (a.numNeighbors : ℝ)).sum / s.atoms.length = x
  have l1 := natText_size hix
  have l2 := natText_size hsz
  have l3 := natText_size blo
  have l4 := natText_size bhi
  obtain ⟨w5, n5, l5⟩ := hN.1 x
  have hr := row_line 10 (s.index + 1) [(10, natText s.atoms.length), (10, natText lo), (10, natText hi),
    (16, N.print x)] (by
      intro f hf
      simp only [List.mem_cons, List.not_mem_nil, or_false] at hf
      rcases hf with rfl | rfl | rfl | rfl
      · exact ⟨natText_word _, fun h => absurd (natText_digit h) (by decide)⟩
      · exact ⟨natText_word _, fun h => absurd (natText_digit h) (by decide)⟩
      · exact ⟨natText_word _, fun h => absurd (natText_digit h) (by decide)⟩
      · exact ⟨w5, n5⟩)
  refine ⟨_, _, ?_, hr, lo, hi, ⟨hset lo hlo', ?_⟩, ⟨hset hi hhi', ?_⟩, ?_⟩
  · unfold neighborLine
    rw [hst, hna, if_neg (by simpa using ha)]
    dsimp only
    rw [zero_add, hx]
    refine if_pos ?_
    simp only [fieldLine, padLeft, List.flatMap_cons, List.flatMap_nil, List.length_append,
      List.length_cons, List.length_nil, List.length_replicate]
    omega
  · rintro n ⟨a, h1, rfl⟩
    exact m2 _ (List.mem_map.2 ⟨a, h1, rfl⟩)
  · rintro n ⟨a, h1, rfl⟩
    exact M2 _ (List.mem_map.2 ⟨a, h1, rfl⟩)
  · rw [hx]
    rfl

theorem neighborLines_ok {N : NumberText} (hN : N.Data) (nan : ℝ) : ∀ (ss : List Structure),
    (∀ s ∈ ss, GoodStructure s) → ∃ ts rows, ss.mapM (neighborLine N nan) = some ts ∧
      Rows ts.flatten rows ∧ List.Forall₂ (NeighborRow N) ss rows := by
  intro ss
  induction ss with
  | nil => intro _; exact ⟨[], [], rfl, rows_nil, .nil⟩
  | cons s ss ih =>
    intro h
    obtain ⟨t, row, e1, r1, f1⟩ := neighborLine_ok hN nan (h s (by simp))
    obtain ⟨ts, rows, e2, r2, f2⟩ := ih fun x hx => h x (by simp [hx])
    refine ⟨t :: ts, row :: rows, by simp [e1, e2], ?_, .cons f1 f2⟩
    exact rows_append r1 r2

theorem neighborHeader_comment :
    ∃ h, neighborHeader = some h ∧ ∀ l ∈ h, IsCommentLine '#' l := by
  obtain ⟨h, hh⟩ : ∃ h, neighborHeader = some h := ⟨_, rfl⟩
  exact ⟨h, hh, header_comment (by decide) (by decide) (by decide) (by decide)
    ⟨16, by decide, by decide⟩ hh⟩

theorem neighborHistoHeader_comment :
    ∃ h, neighborHistoHeader = some h ∧ ∀ l ∈ h, IsCommentLine '#' l := by
  obtain ⟨h, hh⟩ : ∃ h, neighborHistoHeader = some h := ⟨_, rfl⟩
  exact ⟨h, hh, header_comment (by decide) (by decide) (by decide) (by decide)
    ⟨16, by decide, by decide⟩ hh⟩

/-- Texts of all processes. -/
theorem neighborTexts_ok {N : NumberText} (hN : N.Data) (nan : ℝ) {procs : List (List Structure)}
    (hne : procs ≠ []) (hs : ∀ ss ∈ procs, ∀ s ∈ ss, GoodStructure s) :
    ∃ texts, (procs.zipIdx.mapM fun p => neighborText N nan p.1 p.2) = some texts ∧
      texts.length = procs.length ∧ List.Forall₂ (NeighborRow N) procs.flatten (fileTable texts.flatten) := by
  classical
  obtain ⟨header, eh, hh⟩ := neighborHeader_comment
  obtain ⟨hs', e3, hb⟩ := header_bodies hh
  have hlines : ∀ ss ∈ procs, ∃ rows, (∃ ts, ss.mapM (neighborLine N nan) = some ts ∧
      Rows ts.flatten rows) ∧ List.Forall₂ (NeighborRow N) ss rows := fun ss h => by
    obtain ⟨ts, rows, h1, h2, h3⟩ := neighborLines_ok hN nan ss (hs ss h)
    exact ⟨rows, ⟨ts, h1, h2⟩, h3⟩
  choose! rows hr1 hr2 using hlines
  obtain ⟨texts, e1, e2, h1⟩ := mapM_zipIdx (f := fun p => neighborText N nan p.1 p.2)
    (R := fun i ss t => ∃ t', t = (if i = 0 then header.flatten else []) ++ t' ∧ Rows t' (rows ss))
    procs 0 (by
      intro ss hss i
      obtain ⟨ts, h1, h2⟩ := hr1 ss hss
      refine ⟨(if i = 0 then header.flatten else []) ++ ts.flatten, ?_, ts.flatten, rfl, h2⟩
      unfold neighborText
      by_cases hi : i = 0
      · subst hi
        simp [onlyIf, eh, h1]
      · simp [onlyIf, hi, h1])
  obtain ⟨t, e4, h2⟩ := rows_of_ranks (g := rows) procs texts header.flatten e2.symm hne (by
    intro i a t ha ht
    have := h1 i a t ha ht
    rwa [Nat.zero_add] at this)
  refine ⟨texts, e1, e2, ?_⟩
  rw [e4, e3, fileTable_eq hb h2]
  clear e1 e2 h1 e4 h2 hr1 hne hs
  induction procs with
  | nil => exact .nil
  | cons ss procs ih =>
    exact List.rel_append (hr2 ss (by simp)) (ih fun x hx => hr2 x (by simp [hx]))

theorem maxNeighbors_eq (procs : List (List Structure)) :
    (∀ a ∈ allAtoms procs, a.numNeighbors ≤ maxNeighbors procs) ∧
      (maxNeighbors procs = 0 ∨ ∃ a ∈ allAtoms procs, a.numNeighbors = maxNeighbors procs) := by
  have h1 : ∀ s : Structure, (∀ a ∈ s.atoms, a.numNeighbors ≤ (neighborStats s).2.1) ∧
      ((neighborStats s).2.1 = 0 ∨ ∃ a ∈ s.atoms, a.numNeighbors = (neighborStats s).2.1) := by
    intro s
    have hst : (neighborStats s).2.1 = (s.atoms.map Atom.numNeighbors).foldl max 0 := by
      unfold neighborStats
      rw [neighborStats_eq]
    rw [hst]
    obtain ⟨-, M2, M3⟩ := nat_foldl_max (s.atoms.map Atom.numNeighbors) 0
    refine ⟨fun a ha => M2 _ (List.mem_map.2 ⟨a, ha, rfl⟩), M3.imp id fun h => ?_⟩
    obtain ⟨a, h1, h2⟩ := List.mem_map.1 h
    exact ⟨a, h1, h2⟩
  have h2 : ∀ ss : List Structure,
      ss.foldl (fun m s => max m (neighborStats s).2.1) 0 =
        (ss.map fun s => (neighborStats s).2.1).foldl max 0 := fun ss => by
    rw [List.foldl_map]
  have h3 : ∀ ss : List Structure,
      (∀ a ∈ ss.flatMap Structure.atoms,
        a.numNeighbors ≤ ss.foldl (fun m s => max m (neighborStats s).2.1) 0) ∧
      (ss.foldl (fun m s => max m (neighborStats s).2.1) 0 = 0 ∨ ∃ a ∈ ss.flatMap Structure.atoms,
        a.numNeighbors = ss.foldl (fun m s => max m (neighborStats s).2.1) 0) := by
    intro ss
    rw [h2]
    obtain ⟨-, M2, M3⟩ := nat_foldl_max (ss.map fun s => (neighborStats s).2.1) 0
    refine ⟨fun a ha => ?_, ?_⟩
    · obtain ⟨s, hs, ha⟩ := List.mem_flatMap.1 ha
      exact le_trans ((h1 s).1 a ha) (M2 _ (List.mem_map.2 ⟨s, hs, rfl⟩))
    · rcases M3 with h | h
      · exact .inl h
      · obtain ⟨s, hs, e⟩ := List.mem_map.1 h
        rcases (h1 s).2 with h | ⟨a, ha, h⟩
        · left; rw [← e, h]
        · right; exact ⟨a, List.mem_flatMap.2 ⟨s, hs, ha⟩, by rw [← e, h]⟩
  unfold maxNeighbors allAtoms
  obtain ⟨-, M2, M3⟩ := nat_foldl_max
    (procs.map fun ss => ss.foldl (fun m s => max m (neighborStats s).2.1) 0) 0
  refine ⟨fun a ha => ?_, ?_⟩
  · obtain ⟨s, hs, ha⟩ := List.mem_flatMap.1 ha
    obtain ⟨ss, hss, hs⟩ := List.mem_flatten.1 hs
    exact le_trans ((h3 ss).1 a (List.mem_flatMap.2 ⟨s, hs, ha⟩)) (M2 _ (List.mem_map.2 ⟨ss, hss, rfl⟩))
  · rcases M3 with h | h
    · exact .inl h
    · obtain ⟨ss, hss, e⟩ := List.mem_map.1 h
      rcases (h3 ss).2 with h | ⟨a, ha, h⟩
      · left; rw [← e, h]
      · right
        obtain ⟨s, hs, ha⟩ := List.mem_flatMap.1 ha
        exact ⟨a, List.mem_flatMap.2 ⟨s, List.mem_flatten.2 ⟨ss, hss, hs⟩, ha⟩, by rw [← e, h]⟩

theorem countStructures_eq (ss : List Structure) : ∀ h : GslHistogram,
    ss.foldl (fun h s => s.atoms.foldl (fun h a => h.increment a.numNeighbors) h) h =
      ((ss.flatMap Structure.atoms).map fun a => (a.numNeighbors : ℝ)).foldl GslHistogram.increment h := by
  induction ss with
  | nil => intro h; rfl
  | cons s ss ih =>
    intro h
    rw [List.foldl_cons, ih, List.flatMap_cons, List.map_append, List.foldl_append,
      List.foldl_map (l := s.atoms)]

theorem allAtoms_values (procs : List (List Structure)) :
    (procs.map fun ss => (ss.flatMap Structure.atoms).map fun a => (a.numNeighbors : ℝ)).flatten =
      (allAtoms procs).map fun a => (a.numNeighbors : ℝ) := by
  unfold allAtoms
  induction procs with
  | nil => rfl
  | cons ss procs ih =>
    rw [List.map_cons, List.flatten_cons, ih, List.flatten_cons, List.flatMap_append, List.map_append]

end N2P2
