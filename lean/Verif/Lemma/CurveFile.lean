import Verif.Lemma.ComparisonFile

/-! The file with the learning curve. -/

namespace N2P2

open Training (Key NNPType SampleType)

/-! ### Words of header lines -/

theorem tokens_blanks (n : ℕ) {s : Str} {ts : List Str} (h : SpecTokens s ts) :
    SpecTokens (List.replicate n ' ' ++ s) ts := by
  induction n with
  | zero => exact h
  | succ n ih =>
    rw [List.replicate_succ, List.cons_append]
    exact tokens_cons_blank rfl ih

theorem tokens_then {w : Str} (hw : IsWord w) {s : Str} {ts : List Str} (h : SpecTokens s ts) :
    SpecTokens (w ++ ' ' :: s) (w :: ts) := by
  have := SpecTokens.cons (b := []) (fun c hc => by cases hc) hw (c := ' ') rfl
    (tokens_cons_blank (c := ' ') rfl h)
  simpa using this

theorem tokens_padRight (n : ℕ) {w : Str} (hw : IsWord w) {s : Str} {ts : List Str}
    (h : SpecTokens s ts) : SpecTokens (padRight n w ++ ' ' :: s) (w :: ts) := by
  have e : padRight n w ++ ' ' :: s = w ++ ' ' :: (List.replicate (n - w.length) ' ' ++ s) := by
    unfold padRight
    rw [List.append_assoc]
    congr 1
    generalize n - w.length = m
    induction m with
    | zero => rfl
    | succ m ih => rw [List.replicate_succ, List.cons_append, ih, List.cons_append]
  rw [e]
  exact tokens_then hw (tokens_blanks _ h)

theorem hash_word : IsWord ['#'] := ⟨by decide, by decide⟩

theorem tokens_hash {s : Str} {ts : List Str} (h : SpecTokens s ts) :
    SpecTokens ('#' :: ' ' :: s) (['#'] :: ts) := tokens_then hash_word h

theorem tokens_separator {n : ℕ} (hn : 0 < n) :
    split (reduce (List.replicate n '#')) = [List.replicate n '#'] := by
  refine (C01_tokens_are_words _ _).2 (tokens_word ⟨?_, ?_⟩)
  · intro h
    have := congrArg List.length h
    simp at this
    omega
  · intro c hc
    rw [List.eq_of_mem_replicate hc]
    rfl

theorem natText_not {n : ℕ} {w : Str} {c : Char} (h : w.head? = some c) (hc : c.isDigit = false) :
    w ≠ natText n := by
  rintro rfl
  have hm : c ∈ natText n := List.mem_of_mem_head? h
  rw [natText_digit hm] at hc
  cases hc

/-- Columns are named in the header. -/
theorem header_line {title : List Str} {colSize : List ℕ} {colName colInfo : List Str} {h : List Str}
    (hh : createFileHeader title colSize colName colInfo '#' = some h) {i : ℕ} {w : Str}
    (hi : colName[i]? = some w) (hw : IsWord w) :
    ∃ l, l ++ ['\n'] ∈ h ∧ ∃ rest, split (reduce l) = ['#'] :: natText (i + 1) :: w :: rest := by
  unfold createFileHeader at hh
  by_cases hl : colSize.length = colName.length ∧ colName.length = colInfo.length
  swap
  · rw [if_pos hl] at hh; cases hh
  have hlt : i < colName.length := (List.getElem?_eq_some_iff.1 hi).1
  rw [if_neg (not_not.2 hl), if_neg (by rintro rfl; simp at hl; omega)] at hh
  have hh := Option.some.inj hh
  subst hh
  have hz : (colName.zip colInfo)[i]? = some (w, colInfo[i]'(by omega)) := by
    rw [List.getElem?_zip_eq_some]
    exact ⟨hi, List.getElem?_eq_getElem (by omega)⟩
  refine ⟨['#', ' '] ++ padRight 4 (natText (i + 1)) ++ [' '] ++
    padRight (colName.foldl (fun w s => max w s.length) 0) w ++ [' '] ++ colInfo[i]'(by omega), ?_, ?_⟩
  · simp only [List.mem_append]
    refine .inl (.inl (.inl (.inl (.inr ?_))))
    rw [List.mem_mapIdx]
    have hiz : i < (colName.zip colInfo).length := (List.getElem?_eq_some_iff.1 hz).1
    refine ⟨i, hiz, ?_⟩
    rw [(List.getElem?_eq_some_iff.1 hz).2]
  · obtain ⟨ts, ht⟩ := tokens_exist _ (colInfo[i]'(by omega)) le_rfl
    refine ⟨ts, (C01_tokens_are_words _ _).2 ?_⟩
    have := tokens_hash (tokens_padRight 4 (natText_word (i + 1))
      (tokens_padRight (colName.foldl (fun w s => max w s.length) 0) hw ht))
    simpa using this

/-- What header lines can say about columns. -/
theorem header_names {title : List Str} {colSize : List ℕ} {colName colInfo : List Str} {h : List Str}
    (hh : createFileHeader title colSize colName colInfo '#' = some h)
    (ht : ∀ t ∈ title, ∀ n w rest, split (reduce ('#' :: ' ' :: t)) ≠ ['#'] :: natText n :: w :: rest)
    (hn : ∀ w ∈ colName, IsWord w) (hs : ∃ k ∈ colSize, 0 < k)
    (hf : ∀ (s : ℕ) (w : Str), (colSize.zip colName)[0]? = some (s, w) →
      ∃ c, (headerName 0 s w).head? = some c ∧ c.isDigit = false ∧ IsWord (headerName 0 s w))
    {l : Str} (hl : l ++ ['\n'] ∈ h) {n : ℕ} {w : Str} {rest : List Str}
    (hw : split (reduce l) = ['#'] :: natText n :: w :: rest) (hwn : ∀ i, w ≠ natText i) :
    ∃ i, n = i + 1 ∧ colName[i]? = some w := by
  unfold createFileHeader at hh
  split_ifs at hh with hlen hne
  have hh := Option.some.inj hh
  subst hh
  have hsep : ∀ m, 0 < m → l ++ ['\n'] ≠ List.replicate m '#' ++ ['\n'] := by
    intro m hm e
    rw [List.append_cancel_right e, tokens_separator hm] at hw
    simp at hw
  simp only [List.mem_append, List.mem_singleton] at hl
  rcases hl with (((((((((hl | hl) | hl) | hl) | hl) | hl) | hl) | hl) | hl) | hl)
  · exact absurd hl (hsep 80 (by norm_num))
  · obtain ⟨t, hm, e⟩ := List.mem_map.1 hl
    have : l = '#' :: ' ' :: t := (List.append_cancel_right e).symm
    rw [this] at hw
    exact absurd hw (ht t hm n w rest)
  · exact absurd hl (hsep 80 (by norm_num))
  · have e : "Description\n".toList = "Description".toList ++ ['\n'] := by decide
    rw [e, ← List.append_assoc] at hl
    rw [List.append_cancel_right hl] at hw
    obtain ⟨ts, hts⟩ := tokens_exist _ "Description".toList le_rfl
    have := tokens_hash (tokens_padRight 4 (w := "Col".toList) ⟨by decide, by decide⟩
      (tokens_padRight (colName.foldl (fun w s => max w s.length) 0) (w := "Name".toList)
        ⟨by decide, by decide⟩ hts))
    have h2 := (C01_tokens_are_words _ _).2 this
    have e2 : ('#' :: ' ' :: (padRight 4 "Col".toList ++
        ' ' :: (padRight (colName.foldl (fun w s => max w s.length) 0) "Name".toList ++
          ' ' :: "Description".toList))) = ['#', ' '] ++ padRight 4 "Col".toList ++ [' '] ++
        padRight (colName.foldl (fun w s => max w s.length) 0) "Name".toList ++ [' '] ++
        "Description".toList := by simp
    rw [e2] at h2
    rw [h2] at hw
    simp only [List.cons.injEq] at hw
    exact absurd hw.2.1 (natText_not (c := 'C') (by decide) (by decide))
  · exact absurd hl (hsep 80 (by norm_num))
  · rw [List.mem_mapIdx] at hl
    obtain ⟨i, hi, e⟩ := hl
    have hz := List.getElem_zip (l := colName) (l' := colInfo) (i := i) (h := hi)
    have hi1 : i < colName.length := by rw [List.length_zip] at hi; omega
    obtain ⟨ts, hts⟩ := tokens_exist _ ((colName.zip colInfo)[i]).2 le_rfl
    have hww : IsWord ((colName.zip colInfo)[i]).1 := by
      rw [hz]; exact hn _ (List.getElem_mem hi1)
    have := (C01_tokens_are_words _ _).2 (tokens_hash (tokens_padRight 4 (natText_word (i + 1))
      (tokens_padRight (colName.foldl (fun w s => max w s.length) 0) hww hts)))
    have e2 : l = '#' :: ' ' :: (padRight 4 (natText (i + 1)) ++
        ' ' :: (padRight (colName.foldl (fun w s => max w s.length) 0) ((colName.zip colInfo)[i]).1 ++
          ' ' :: ((colName.zip colInfo)[i]).2)) := by
      have := List.append_cancel_right e.symm
      rw [this]
      simp
    rw [← e2, hw] at this
    simp only [List.cons.injEq] at this
    refine ⟨i, natText_inj this.2.1, ?_⟩
    rw [this.2.2.1, hz]
    exact List.getElem?_eq_getElem hi1
  · split_ifs at hl with hwd
    · exact absurd hl (hsep _ (by omega))
    · exact absurd hl (hsep 80 (by norm_num))
  · have e : l = '#' :: spaced (colSize.mapIdx fun i s =>
        (headerWidth i s - (natText (i + 1)).length, natText (i + 1))) := by
      have := List.append_cancel_right hl
      rw [this]
      unfold spaced
      rw [List.flatMap_def, map_mapIdx']
      rfl
    have hall : ∀ f ∈ (colSize.mapIdx fun i s =>
        (headerWidth i s - (natText (i + 1)).length, natText (i + 1))), ∃ i, f.2 = natText i := by
      intro f hf
      obtain ⟨i, hi, rfl⟩ := List.mem_mapIdx.1 hf
      exact ⟨i + 1, rfl⟩
    have h2 := words_spaced ['#'] hash_word _ (fun f hf => by
      obtain ⟨i, hi⟩ := hall f hf
      rw [hi]; exact natText_word i)
    rw [e] at hw
    have h3 := h2.symm.trans hw
    simp only [List.cons.injEq, true_and] at h3
    have : w ∈ (colSize.mapIdx fun i s =>
        (headerWidth i s - (natText (i + 1)).length, natText (i + 1))).map Prod.snd := by
      rw [h3]; simp
    obtain ⟨f, hf, rfl⟩ := List.mem_map.1 this
    obtain ⟨i, hi⟩ := hall f hf
    exact absurd hi (hwn i)
  · cases hz : colSize.zip colName with
    | nil =>
      have := congrArg List.length hz
      rw [List.length_zip] at this
      have h0 : colSize.length = 0 := by simpa [hlen.1] using this
      exact absurd (List.eq_nil_of_length_eq_zero h0) hne
    | cons p ps =>
      obtain ⟨c, hc, hd, hword⟩ := hf p.1 p.2 (by rw [hz]; rfl)
      rw [hz, List.mapIdx_cons] at hl
      have e : l = '#' :: ' ' :: (List.replicate (headerWidth 0 p.1 - (headerName 0 p.1 p.2).length) ' ' ++
          headerName 0 p.1 p.2 ++ ((ps.mapIdx fun i p => ' ' :: padLeft (headerWidth (i + 1) p.1)
            (headerName (i + 1) p.1 p.2)).flatten)) := by
        have := List.append_cancel_right hl
        rw [this]
        simp [padLeft]
      obtain ⟨ts, hts⟩ : ∃ ts, SpecTokens (headerName 0 p.1 p.2 ++
          ((ps.mapIdx fun i p => ' ' :: padLeft (headerWidth (i + 1) p.1)
            (headerName (i + 1) p.1 p.2)).flatten)) (headerName 0 p.1 p.2 :: ts) := by
        cases hps : ps with
        | nil => exact ⟨[], by simpa using tokens_word hword⟩
        | cons q qs =>
          rw [List.mapIdx_cons, List.flatten_cons, List.cons_append]
          obtain ⟨ts, h⟩ := tokens_exist _ (padLeft (headerWidth (0 + 1) q.1)
            (headerName (0 + 1) q.1 q.2) ++ ((qs.mapIdx fun i p => ' ' ::
              padLeft (headerWidth (i + 1 + 1) p.1) (headerName (i + 1 + 1) p.1 p.2)).flatten)) le_rfl
          exact ⟨ts, tokens_then hword h⟩
      have h2 := (C01_tokens_are_words _ _).2 (tokens_hash (tokens_blanks
        (headerWidth 0 p.1 - (headerName 0 p.1 p.2).length) hts))
      rw [← List.append_assoc, ← e, hw] at h2
      simp only [List.cons.injEq] at h2
      exact absurd h2.2.1.symm (natText_not hc hd)
  · exact absurd hl (hsep _ (widthData_pos hs))

/-! ### Reading files -/

theorem header_bodies' {header : List Str} (h : ∀ l ∈ header, IsCommentLine '#' l) :
    ∃ hs : List Str, header = hs.map (· ++ ['\n']) ∧ ∀ l ∈ hs, '\n' ∉ l ∧ ∃ t, l = '#' :: t := by
  induction header with
  | nil => exact ⟨[], rfl, by simp⟩
  | cons l ls ih =>
    obtain ⟨hs, e, hh⟩ := ih fun x hx => h x (by simp [hx])
    obtain ⟨t, rfl, ht⟩ := h l (by simp)
    refine ⟨('#' :: t) :: hs, by simp [e], ?_⟩
    intro x hx
    rcases List.mem_cons.1 hx with rfl | hx
    · exact ⟨ht, t, rfl⟩
    · exact hh x hx

theorem read_rows {header : List Str} (h : ∀ l ∈ header, IsCommentLine '#' l) {t : Str}
    {words : List (List Str)} (hr : Rows t words) :
    (dataLines (header.flatten ++ t)).map (fun l => split (reduce l)) = words ∧
    ∀ l ∈ readLines (header.flatten ++ t), l ++ ['\n'] ∈ header ∨ split (reduce l) ∈ words := by
  obtain ⟨hs, rfl, hb⟩ := header_bodies' h
  obtain ⟨ls, rfl, h1, rfl⟩ := hr
  have e : readLines ((hs.map (· ++ ['\n'])).flatten ++ ls.flatMap (· ++ ['\n'])) = hs ++ ls := by
    rw [← List.flatMap_def, readLines_append hs (fun l h => (hb l h).1),
      readLines_write ls fun l hl => (h1 l hl).1]
  refine ⟨?_, ?_⟩
  · unfold dataLines
    rw [e, List.filter_append]
    have e1 : hs.filter (fun l => decide (l ≠ [] ∧ l.head? ≠ some '#')) = [] := by
      rw [List.filter_eq_nil_iff]
      intro l hl
      obtain ⟨t, rfl⟩ := (hb l hl).2
      simp
    have e2 : ls.filter (fun l => decide (l ≠ [] ∧ l.head? ≠ some '#')) = ls := by
      rw [List.filter_eq_self]
      intro l hl
      simpa using (h1 l hl).2
    rw [e1, e2, List.nil_append]
  · rw [e]
    intro l hl
    rcases List.mem_append.1 hl with hl | hl
    · exact .inl (List.mem_map.2 ⟨l, hl, rfl⟩)
    · exact .inr (List.mem_map.2 ⟨l, hl, rfl⟩)

/-! ### Columns -/

/-- What a column contains. -/
abbrev CurveEntry := Key × Metric × Part × UnitSystem

/-- Name of the column. -/
def CurveEntry.title (e : CurveEntry) : Str := columnTitle e.1 e.2.1 e.2.2.1 e.2.2.2

/-- Columns in one system of units. -/
def entryBlock (unit : UnitSystem) (pk : List Key) : List CurveEntry :=
  pk.flatMap fun k => k.metrics.flatMap fun m => [(k, m, .train, unit), (k, m, .test, unit)]

/-- All columns but the first. -/
def curveEntries (normalize : Bool) (pk : List Key) : List CurveEntry :=
  entryBlock .physical pk ++ if normalize then entryBlock .training pk else []

/-- Every possible column. -/
def allEntries : List CurveEntry :=
  entryBlock .physical [.energy, .force, .charge] ++ entryBlock .training [.energy, .force, .charge]

theorem mem_entryBlock {unit : UnitSystem} {pk : List Key} {e : CurveEntry} : e ∈ entryBlock unit pk ↔
    e.1 ∈ pk ∧ e.2.1 ∈ e.1.metrics ∧ e.2.2.2 = unit := by
  obtain ⟨k, m, p, v⟩ := e
  unfold entryBlock
  simp only [List.mem_flatMap, List.mem_cons, List.not_mem_nil, or_false, Prod.mk.injEq]
  constructor
  · rintro ⟨k', hk, m', hm, (⟨rfl, rfl, -, rfl⟩ | ⟨rfl, rfl, -, rfl⟩)⟩ <;> exact ⟨hk, hm, rfl⟩
  · rintro ⟨hk, hm, rfl⟩
    refine ⟨k, hk, m, hm, ?_⟩
    cases p
    · exact .inl ⟨rfl, rfl, rfl, rfl⟩
    · exact .inr ⟨rfl, rfl, rfl, rfl⟩

theorem mem_curveEntries {normalize : Bool} {pk : List Key} {e : CurveEntry} :
    e ∈ curveEntries normalize pk ↔ e.1 ∈ pk ∧ e.2.1 ∈ e.1.metrics ∧
      (e.2.2.2 = .physical ∨ normalize = true) := by
  unfold curveEntries
  rw [List.mem_append, mem_entryBlock]
  cases normalize with
  | false => simp
  | true =>
    rw [if_pos rfl, mem_entryBlock]
    constructor
    · rintro (⟨h1, h2, -⟩ | ⟨h1, h2, -⟩) <;> exact ⟨h1, h2, .inr rfl⟩
    · rintro ⟨h1, h2, -⟩
      cases h : e.2.2.2
      · exact .inl ⟨h1, h2, rfl⟩
      · exact .inr ⟨h1, h2, rfl⟩

theorem mem_allEntries {e : CurveEntry} (h : e.2.1 ∈ e.1.metrics) : e ∈ allEntries := by
  unfold allEntries
  rw [List.mem_append, mem_entryBlock, mem_entryBlock]
  have hk : e.1 ∈ [Key.energy, Key.force, Key.charge] := by cases e.1 <;> decide
  cases hu : e.2.2.2
  · exact .inl ⟨hk, h, rfl⟩
  · exact .inr ⟨hk, h, rfl⟩

theorem titles_nodup : (allEntries.map CurveEntry.title).Nodup := by decide +kernel

theorem title_inj {e e' : CurveEntry} (h : e.2.1 ∈ e.1.metrics) (h' : e'.2.1 ∈ e'.1.metrics)
    (ht : e.title = e'.title) : e = e' :=
  List.inj_on_of_nodup_map titles_nodup (mem_allEntries h) (mem_allEntries h') ht

theorem title_word : ∀ e ∈ allEntries, IsWord e.title ∧ '\n' ∉ e.title ∧
    (e.title.head? = some 'R' ∨ e.title.head? = some 'M') := by
  have : ∀ e ∈ allEntries, (e.title ≠ [] ∧ ∀ c ∈ e.title, isBlank c = false) ∧ '\n' ∉ e.title ∧
    (e.title.head? = some 'R' ∨ e.title.head? = some 'M') := by decide +kernel
  exact this

theorem reported_mem {k : Key} {m : Metric} (h : Reported k m) : m ∈ k.metrics := by
  rcases h with rfl | rfl | rfl
  · cases m <;> decide
  · cases k <;> decide
  · cases k <;> decide

theorem title_parts (k : Key) (m : Metric) (part : Part) (unit : UnitSystem) :
    columnTitle k m part unit = m.name ++ ['_'] ++ k.tiny ++ part.text ++ ['_'] ++ unit.text := by
  cases k <;> cases m <;> cases part <;> cases unit <;> rfl

theorem setFile_name (part : Part) (k : Key) (epoch : ℕ) :
    setFile part k epoch = comparisonName part.text k epoch := by
  unfold setFile comparisonName padded
  cases k <;> simp [Training.Key.middle]

theorem partFile_name (part : Part) (k : Key) (epoch rank : ℕ) :
    partFile part k epoch rank = partName (comparisonName part.text k epoch) rank := by
  unfold partFile partName
  rw [setFile_name]
  rfl

theorem curveTitle_name (type : NNPType) (stage : ℕ) : curveTitle type stage = curveFile type stage := by
  cases type <;> rfl

theorem metricColumns_names (k : Key) (unit : UnitSystem) (units : Str) (m : Metric) :
    (metricColumns k unit.text units m).map Prod.fst =
      [CurveEntry.title (k, m, .train, unit), CurveEntry.title (k, m, .test, unit)] := by
  simp [metricColumns, CurveEntry.title, title_parts, Part.text]

theorem block_names (unit : UnitSystem) (units : Str) (pk : List Key) :
    (pk.flatMap fun k => k.metrics.flatMap (metricColumns k unit.text units)).map Prod.fst =
      (entryBlock unit pk).map CurveEntry.title := by
  unfold entryBlock
  simp only [List.map_flatMap, metricColumns_names, List.map_cons, List.map_nil]

theorem curveColumns_names (normalize : Bool) (pk : List Key) :
    (curveColumns normalize pk).map Prod.fst = (curveEntries normalize pk).map CurveEntry.title := by
  unfold curveColumns curveEntries
  rw [List.map_append, List.map_append]
  congr 1
  · exact block_names .physical _ pk
  · cases normalize
    · rfl
    · exact block_names .training _ pk

theorem curveColumns_newline (normalize : Bool) (pk : List Key) :
    ∀ p ∈ curveColumns normalize pk, '\n' ∉ p.2 := by
  have key : ∀ (unit units : Str), '\n' ∉ units → ∀ p ∈ (pk.flatMap fun k =>
      k.metrics.flatMap (metricColumns k unit units)), '\n' ∉ p.2 := by
    intro unit units hu p hp
    obtain ⟨k, -, hp⟩ := List.mem_flatMap.1 hp
    obtain ⟨m, -, hp⟩ := List.mem_flatMap.1 hp
    have h0 : ∀ set ∈ ["training".toList, "test".toList], '\n' ∉ metricInfo m set k.plural units := by
      intro set hset
      have e : metricInfo m set k.plural units = metricInfo m set k.plural [] ++ units := by
        unfold metricInfo; rw [List.append_nil]
      have h1 : ∀ set ∈ ["training".toList, "test".toList], '\n' ∉ metricInfo m set k.plural [] := by
        cases m <;> cases k <;> decide +kernel
      rw [e, List.mem_append]
      exact not_or.2 ⟨h1 set hset, hu⟩
    rcases List.mem_cons.1 hp with rfl | hp
    · exact h0 _ (by simp)
    · rw [List.mem_singleton] at hp
      rw [hp]
      exact h0 _ (by simp)
  intro p hp
  unfold curveColumns at hp
  rcases List.mem_append.1 hp with hp | hp
  · exact key _ _ (by decide) p hp
  · cases normalize
    · cases hp
    · exact key _ _ (by decide) p hp

theorem curveHeader_ok (normalize : Bool) (pk : List Key) : ∃ h, curveHeader normalize pk = some h ∧
    ∀ l ∈ h, IsCommentLine '#' l := by
  have hex : ∃ h, curveHeader normalize pk = some h := by
    unfold curveHeader createFileHeader
    rw [if_neg (by simp), if_neg (by simp)]
    exact ⟨_, rfl⟩
  obtain ⟨h, hh⟩ := hex
  refine ⟨h, hh, ?_⟩
  unfold curveHeader at hh
  refine header_comment (by decide) ?_ ?_ ?_ ⟨10, by simp, by norm_num⟩ hh
  · intro t ht
    rcases List.mem_cons.1 ht with rfl | ht
    · decide
    · obtain ⟨k, -, rfl⟩ := List.mem_map.1 ht
      cases k <;> decide
  · intro t ht
    rcases List.mem_cons.1 ht with rfl | ht
    · decide
    · rw [curveColumns_names] at ht
      obtain ⟨e, he, rfl⟩ := List.mem_map.1 ht
      exact (title_word e (mem_allEntries (mem_curveEntries.1 he).2.1)).2.1
  · intro t ht
    rcases List.mem_cons.1 ht with rfl | ht
    · decide
    · obtain ⟨p, hp, rfl⟩ := List.mem_map.1 ht
      exact curveColumns_newline normalize pk p hp

/-- The header names every column. -/
theorem curve_line {normalize : Bool} {pk : List Key} {h : List Str}
    (hh : curveHeader normalize pk = some h) {i : ℕ} {e : CurveEntry}
    (hi : (curveEntries normalize pk)[i]? = some e) :
    ∃ l, l ++ ['\n'] ∈ h ∧ ∃ rest, split (reduce l) = ['#'] :: natText (i + 1 + 1) :: e.title :: rest := by
  refine header_line hh ?_ ?_
  · rw [List.getElem?_cons_succ, curveColumns_names, List.getElem?_map, hi]
    rfl
  · exact (title_word e (mem_allEntries (mem_curveEntries.1 (List.mem_of_getElem? hi)).2.1)).1

/-- The header names nothing else. -/
theorem curve_names {normalize : Bool} {pk : List Key} {h : List Str}
    (hh : curveHeader normalize pk = some h) {l : Str} (hl : l ++ ['\n'] ∈ h) {c : ℕ} {e : CurveEntry}
    (he : e ∈ curveEntries normalize pk) {rest : List Str}
    (hw : split (reduce l) = ['#'] :: natText (c + 1) :: e.title :: rest) :
    ∃ i, c = i + 1 ∧ (curveEntries normalize pk)[i]? = some e := by
  have hmem := (mem_curveEntries.1 he).2.1
  have htw := title_word e (mem_allEntries hmem)
  have hex : ∃ i, c + 1 = i + 1 ∧ ("epoch".toList :: (curveColumns normalize pk).map Prod.fst)[i]? =
      some e.title := by
    refine header_names hh ?_ ?_ ⟨10, by simp, by norm_num⟩ ?_ hl hw ?_
    · intro t ht n w rest hsp
      rcases List.mem_cons.1 ht with rfl | ht
      · have e1 : split (reduce ('#' :: ' ' :: "Learning curves for training properties:".toList)) =
            ["#".toList, "Learning".toList, "curves".toList, "for".toList, "training".toList,
              "properties:".toList] := by decide +kernel
        rw [e1] at hsp
        simp only [List.cons.injEq] at hsp
        exact natText_not (c := 'L') (by decide) (by decide) hsp.2.1
      · obtain ⟨k, -, rfl⟩ := List.mem_map.1 ht
        have e1 : split (reduce ('#' :: ' ' :: (" * ".toList ++ k.plural))) =
            ["#".toList, "*".toList, k.plural] := by cases k <;> decide +kernel
        rw [e1] at hsp
        simp only [List.cons.injEq] at hsp
        exact natText_not (c := '*') (by decide) (by decide) hsp.2.1
    · intro w hw
      rcases List.mem_cons.1 hw with rfl | hw
      · exact ⟨by decide, by decide⟩
      · rw [curveColumns_names] at hw
        obtain ⟨e', he', rfl⟩ := List.mem_map.1 hw
        exact (title_word e' (mem_allEntries (mem_curveEntries.1 he').2.1)).1
    · intro s w hz
      rw [List.zip_cons_cons, List.getElem?_cons_zero] at hz
      cases hz
      exact ⟨'e', by decide, by decide, by decide, by decide⟩
    · intro i
      rcases htw.2.2 with h1 | h1
      · exact natText_not h1 (by decide)
      · exact natText_not h1 (by decide)
  obtain ⟨i, hi, hn⟩ := hex
  have hc : c = i := by omega
  subst hc
  cases c with
  | zero =>
    rw [List.getElem?_cons_zero] at hn
    have h1 := Option.some.inj hn
    rw [← h1] at htw
    exact absurd htw.2.2 (by decide)
  | succ i =>
    refine ⟨i, rfl, ?_⟩
    rw [List.getElem?_cons_succ, curveColumns_names, List.getElem?_map] at hn
    obtain ⟨e', he', ht⟩ := Option.map_eq_some_iff.1 hn
    rw [he', title_inj (mem_curveEntries.1 (List.mem_of_getElem? he')).2.1 hmem ht]

/-! ### Lines of the learning curve -/

/-- What the column contains. -/
noncomputable def entryValue (normalize : Bool) (u : ModeUnits) (errors : Key → PropErrors)
    (e : CurveEntry) : Option ℝ :=
  let v := ((errors e.1).of e.2.2.1).value e.2.1
  if normalize = true ∧ e.2.2.2 = .physical then v.map (· / unitFactor u e.1) else v

theorem physicalValue_factor {u : ModeUnits} (hu : u.Positive) (k : Key) (v : Option ℝ) :
    physicalValue u k v = some (v.map (· / unitFactor u k)) := by
  cases v with
  | none => rfl
  | some x => simp only [physicalValue, physical_factor hu, Option.map_some]

/-- Values as printed. -/
def valuesText (N : NumberText) (nanText : Str) (vs : List (Option ℝ)) : Str :=
  vs.flatMap fun v => ' ' :: padLeft 16 (shownError N nanText v)

theorem shownError_elim (N : NumberText) (nanText : Str) (v : Option ℝ) :
    v.elim nanText N.print = shownError N nanText v := by cases v <;> rfl

variable {N : NumberText} {nanText : Str}

theorem shown_word (hN : N.Data) (hn : NanWord nanText) (v : Option ℝ) :
    IsWord (shownError N nanText v) ∧ '\n' ∉ shownError N nanText v ∧
      (shownError N nanText v).length ≤ 24 := by
  cases v with
  | none => exact hn
  | some x => exact hN.1 x

theorem pairText_ok (hN : N.Data) (hn : NanWord nanText) (x y : Option ℝ) :
    pairText N nanText x y = some (valuesText N nanText [x, y]) := by
  have h1 := (shown_word hN hn x).2.2
  have h2 := (shown_word hN hn y).2.2
  unfold pairText strpr valuesText
  rw [shownError_elim, shownError_elim, if_pos]
  · simp
  · simp only [padLeft, List.length_append, List.length_cons, List.length_nil, List.length_replicate]
    omega

theorem mapM_pure_some {α β : Type} {f : α → Option β} {g : α → β} : ∀ (l : List α),
    (∀ a ∈ l, f a = some (g a)) → l.mapM f = some (l.map g)
  | [], _ => rfl
  | a :: l, h => by
    rw [List.mapM_cons, h a (by simp), mapM_pure_some l fun x hx => h x (by simp [hx])]
    rfl

theorem blockText (v : CurveEntry → Option ℝ) (unit : UnitSystem) (pk : List Key) :
    ((pk.map fun k => k.metrics.map fun m =>
      valuesText N nanText [v (k, m, .train, unit), v (k, m, .test, unit)]).flatten).flatten =
      valuesText N nanText ((entryBlock unit pk).map v) := by
  unfold entryBlock valuesText
  induction pk with
  | nil => rfl
  | cons k pk ih =>
    rw [List.map_cons, List.flatten_cons, List.flatten_append, ih, List.flatMap_cons, List.map_append,
      List.flatMap_append]
    congr 1
    generalize k.metrics = ms
    induction ms with
    | nil => rfl
    | cons m ms ih =>
      rw [List.map_cons, List.flatten_cons, ih]
      simp

theorem curveLine_ok (hN : N.Data) (hn : NanWord nanText) {normalize : Bool} {u : ModeUnits}
    (hu : normalize = true → u.Positive) (pk : List Key) {epoch : ℕ} (he : epoch < 2 ^ 64) (errors : Key → PropErrors) :
    ∃ line, curveLine N nanText normalize u pk epoch errors = some line ∧
      Rows line [natText epoch :: (curveEntries normalize pk).map fun e =>
        shownError N nanText (entryValue normalize u errors e)] := by
  have h1 := natText_size he
  have hstart : strpr (padLeft 10 (natText epoch)) = some (padLeft 10 (natText epoch)) := by
    unfold strpr
    refine if_pos ?_
    simp only [padLeft, List.length_append, List.length_replicate]
    omega
  have hphys : normalize = true → physicalText N nanText u pk errors = some (valuesText N nanText
      ((entryBlock .physical pk).map (entryValue true u errors))) := by
    intro hnorm
    have hu := hu hnorm
    unfold physicalText
    rw [mapM_pure_some (g := fun k => k.metrics.map fun m => valuesText N nanText
      [entryValue true u errors (k, m, .train, .physical),
        entryValue true u errors (k, m, .test, .physical)])]
    · rw [Option.bind_eq_bind, Option.bind_some, blockText]
    · intro k _
      refine mapM_pure_some _ fun m _ => ?_
      rw [physicalValue_factor hu, physicalValue_factor hu]
      exact pairText_ok hN hn _ _
  have htrain : ∀ (b : Bool) (unit : UnitSystem), (b = false ∨ unit = .training) →
      trainingText N nanText pk errors = some (valuesText N nanText
        ((entryBlock unit pk).map (entryValue b u errors))) := by
    intro b unit hb
    have hv : ∀ k m part, entryValue b u errors (k, m, part, unit) =
        ((errors k).of part).value m := by
      intro k m part
      unfold entryValue
      refine if_neg ?_
      rintro ⟨h1, h2⟩
      rcases hb with rfl | rfl
      · cases h1
      · cases h2
    unfold trainingText
    rw [mapM_pure_some (g := fun k => k.metrics.map fun m => valuesText N nanText
      [entryValue b u errors (k, m, .train, unit), entryValue b u errors (k, m, .test, unit)])]
    · rw [Option.bind_eq_bind, Option.bind_some, blockText]
    · intro k _
      refine mapM_pure_some _ fun m _ => ?_
      rw [hv, hv]
      exact pairText_ok hN hn _ _
  have hline : curveLine N nanText normalize u pk epoch errors = some (padLeft 10 (natText epoch) ++
      valuesText N nanText ((curveEntries normalize pk).map (entryValue normalize u errors)) ++
      ['\n']) := by
    unfold curveLine
    rw [hstart, Option.bind_eq_bind, Option.bind_some]
    cases normalize with
    | false =>
      rw [htrain false .physical (.inl rfl)]
      simp [onlyIf, curveEntries]
    | true =>
      rw [htrain true .training (.inr rfl), hphys rfl]
      simp [onlyIf, curveEntries, valuesText, List.flatMap_append]
  refine ⟨_, hline, ?_⟩
  have := row_line 10 epoch ((curveEntries normalize pk).map fun e =>
    (16, shownError N nanText (entryValue normalize u errors e))) (by
      intro f hf
      obtain ⟨e, -, rfl⟩ := List.mem_map.1 hf
      have := shown_word hN hn (entryValue normalize u errors e)
      exact ⟨this.1, this.2.1⟩)
  rw [List.map_map, List.map_map] at this
  have e2 : fieldLine (padLeft 10 (natText epoch)) (List.map ((fun f : ℕ × Str => padLeft f.1 f.2) ∘
      fun e => (16, shownError N nanText (entryValue normalize u errors e)))
      (curveEntries normalize pk)) = padLeft 10 (natText epoch) ++
      valuesText N nanText ((curveEntries normalize pk).map (entryValue normalize u errors)) ++
      ['\n'] := by
    simp [fieldLine, valuesText, List.flatMap_map]
  rw [e2] at this
  exact this

/-- Errors of all properties, and files. -/
theorem calculateErrorEpoch_ok (hN : N.Data) {procs : List (List Structure)} (hp : procs ≠ [])
    (hlen : procs.length < 2 ^ 64) (hs : ∀ ss ∈ procs, ∀ s ∈ ss, Trainable s) {epoch : ℕ}
    (he : epoch < 2 ^ 64) (every always : Key → ℕ) : ∀ (pk : List Key), pk.Nodup → ∀ (fs : Files),
    ∃ rs fs', calculateErrorEpoch N every always epoch procs pk fs = some (rs, fs') ∧
      (∀ k ∈ pk, ErrorsOf N k procs (errorsAt rs k)) ∧
      (∀ k ∈ pk, ComparisonDue every always epoch k → ∀ part : Part,
        (∃ text, fs' (comparisonName part.text k epoch) = some text ∧ IsComparison N k part procs text) ∧
        ∀ i, i < procs.length → fs' (partName (comparisonName part.text k epoch) i) = none) ∧
      ∀ x, (∀ k ∈ pk, ComparisonDue every always epoch k → ∀ part : Part,
        x ≠ comparisonName part.text k epoch ∧
        ∀ i, i < procs.length → x ≠ partName (comparisonName part.text k epoch) i) → fs' x = fs x := by
  intro pk
  induction pk with
  | nil => intro _ fs; exact ⟨[], fs, rfl, by simp, by simp, fun _ _ => rfl⟩
  | cons k pk ih =>
    intro hnd fs
    rw [List.nodup_cons] at hnd
    classical
    have hnames : comparisonNames every always epoch k =
        if decide (ComparisonDue every always epoch k) = true then
          some (comparisonName Part.train.text k epoch, comparisonName Part.test.text k epoch)
        else none := by
      unfold comparisonNames ComparisonDue
      by_cases hd : 0 < every k ∧ (every k ∣ epoch ∨ epoch ≤ always k)
      · rw [if_pos (by rwa [Nat.dvd_iff_mod_eq_zero] at hd), if_pos (by simpa using hd)]
        rfl
      · rw [if_neg (by rwa [Nat.dvd_iff_mod_eq_zero] at hd), if_neg (by simpa using hd)]
    obtain ⟨e, fs1, e1, a1, a2, a3⟩ := calculateErrorOf_ok hN k hp hlen hs he
      (decide (ComparisonDue every always epoch k)) fs
    obtain ⟨rs, fs2, e2, b1, b2, b3⟩ := ih hnd.2 fs1
    refine ⟨(k, e) :: rs, fs2, ?_, ?_, ?_, ?_⟩
    · rw [calculateErrorEpoch, hnames, e1, Option.bind_eq_bind, Option.bind_some, e2]
      rfl
    · intro k' hk'
      by_cases hkk : k' = k
      · subst hkk
        unfold errorsAt
        rw [List.lookup_cons_self]
        exact a1
      · have hmem : k' ∈ pk := (List.mem_cons.1 hk').resolve_left hkk
        have : errorsAt ((k, e) :: rs) k' = errorsAt rs k' := by
          unfold errorsAt
          rw [List.lookup_cons, beq_false_of_ne hkk]
        rw [this]
        exact b1 k' hmem
    · intro k' hk' hdue part
      by_cases hkk : k' ∈ pk
      · exact b2 k' hkk hdue part
      have hk : k' = k := (List.mem_cons.1 hk').resolve_right hkk
      subst hk
      obtain ⟨⟨text, h1, h2⟩, h3⟩ := a2 (by simpa using hdue) part
      refine ⟨⟨text, ?_, h2⟩, fun i hi => ?_⟩
      · rw [b3]
        · exact h1
        · intro k2 hk2 _ part2
          refine ⟨fun h => hkk ?_, fun i _ h => partName_ne_comparison _ _ _ _ _ h.symm⟩
          rw [(comparisonName_inj h).2]; exact hk2
      · by_cases hx : ∃ k2 ∈ pk, ComparisonDue every always epoch k2 ∧ ∃ part2 : Part, ∃ j, j < procs.length ∧
            partName (comparisonName part.text k' epoch) i = partName (comparisonName part2.text k2 epoch) j
        · obtain ⟨k2, hk2, hd2, part2, j, hj, ej⟩ := hx
          rw [ej]; exact (b2 k2 hk2 hd2 part2).2 j hj
        · rw [b3]
          · exact h3 i hi
          · intro k2 hk2 hd2 part2
            exact ⟨partName_ne_comparison _ _ _ _ _, fun j hj h => hx ⟨k2, hk2, hd2, part2, j, hj, h⟩⟩
    · intro x hx
      rw [b3 x fun k2 hk2 => hx k2 (by simp [hk2]), a3 x fun hd => hx k (by simp) (by simpa using hd)]

theorem comparisonName_head (part : Part) (k : Key) (e : ℕ) :
    (comparisonName part.text k e).head? = some 't' := by cases part <;> rfl

theorem partName_head (part : Part) (k : Key) (e i : ℕ) :
    (partName (comparisonName part.text k e) i).head? = some 't' := by cases part <;> rfl

theorem comparisonName_epoch {p p' : Part} {k k' : Key} {e e' : ℕ}
    (h : comparisonName p.text k e = comparisonName p'.text k' e') : e = e' := by
  have key : ∀ (p : Part) (k : Key) (e : ℕ), ∃ w, comparisonName p.text k e = w ++ ('.' ::
      (List.replicate (6 - (natText e).length) '0' ++ natText e)) ++ ".out".toList ∧ '.' ∉ w := by
    intro p k e
    refine ⟨p.text ++ k.middle, ?_, ?_⟩
    · unfold comparisonName; simp
    · cases p <;> cases k <;> decide
  obtain ⟨w, h1, h2⟩ := key p k e
  obtain ⟨w', h1', h2'⟩ := key p' k' e'
  rw [h1, h1'] at h
  have h3 := List.append_cancel_right h
  have h4 : ∀ (w w' : Str) (a b : Str), '.' ∉ w → '.' ∉ w' → w ++ '.' :: a = w' ++ '.' :: b → a = b := by
    intro w
    induction w with
    | nil =>
      intro w' a b _ hw' e
      cases w' with
      | nil => exact (List.cons.inj e).2
      | cons c w' =>
        have := (List.cons.inj e).1
        exact absurd (by simp [← this]) hw'
    | cons c w ih =>
      intro w' a b hw hw' e
      cases w' with
      | nil =>
        have := (List.cons.inj e).1
        exact absurd (by simp [this]) hw
      | cons c' w' =>
        exact ih w' a b (fun h => hw (by simp [h])) (fun h => hw' (by simp [h])) (List.cons.inj e).2
  exact zeroPad_inj (h4 _ _ _ _ h2 h2' h3)

/-- Files after some epochs, numbered from `n`. -/
structure Finished (N : NumberText) (nanText : Str) (every always : Key → ℕ) (normalize : Bool)
    (u : ModeUnits) (pk : List Key) (file : Str) (n : ℕ) (es : List (List (List Structure)))
    (fs fs' : Files) : Prop where
  comparison : ∀ (i : ℕ) (procs : List (List Structure)), es[i]? = some procs → ∀ k ∈ pk,
    ComparisonDue every always (n + i) k → ∀ part : Part,
      (∃ text, fs' (comparisonName part.text k (n + i)) = some text ∧ IsComparison N k part procs text) ∧
      ∀ j, j < procs.length → fs' (partName (comparisonName part.text k (n + i)) j) = none
  others : ∀ x, x ≠ file → (∀ (i : ℕ) (procs : List (List Structure)), es[i]? = some procs → ∀ k ∈ pk,
    ComparisonDue every always (n + i) k → ∀ part : Part, x ≠ comparisonName part.text k (n + i) ∧
      ∀ j, j < procs.length → x ≠ partName (comparisonName part.text k (n + i)) j) → fs' x = fs x

/-- Errors of the epochs. -/
def EpochErrors (N : NumberText) (pk : List Key) (procs : List (List Structure))
    (errors : Key → PropErrors) : Prop := ∀ k ∈ pk, ErrorsOf N k procs (errors k)

/-- Words in the lines of the learning curve. -/
noncomputable def curveWords (N : NumberText) (nanText : Str) (normalize : Bool) (u : ModeUnits)
    (pk : List Key) (n : ℕ) (es : List (Key → PropErrors)) : List (List Str) :=
  (es.zipIdx n).map fun e => natText e.2 :: (curveEntries normalize pk).map fun en =>
    shownError N nanText (entryValue normalize u e.1 en)

theorem report_step (hN : N.Data) (hn : NanWord nanText) {normalize : Bool} {u : ModeUnits}
    (hu : normalize = true → u.Positive) {pk : List Key} (hpk : pk.Nodup) {file : Str}
    (hfile : file.head? ≠ some 't') {h : List Str} (hh : curveHeader normalize pk = some h)
    (every always : Key → ℕ) {procs : List (List Structure)} (hp : procs ≠ [])
    (hlen : procs.length < 2 ^ 64) (hs : ∀ ss ∈ procs, ∀ s ∈ ss, Trainable s) {n : ℕ}
    (hn64 : n < 2 ^ 64) {fs : Files} {t : Str} (ht : if n = 0 then t = [] else
      fs file = some (h.flatten ++ t)) :
    ∃ fs' errors line, reportEpoch N nanText every always normalize u pk file fs procs n = some fs' ∧
      EpochErrors N pk procs errors ∧ fs' file = some (h.flatten ++ (t ++ line)) ∧
      Rows line (curveWords N nanText normalize u pk n [errors]) ∧
      Finished N nanText every always normalize u pk file n [procs] fs fs' := by
  obtain ⟨rs, fs1, e1, a1, a2, a3⟩ := calculateErrorEpoch_ok hN hp hlen hs hn64 every always pk hpk fs
  obtain ⟨line, el, rl⟩ := curveLine_ok hN hn hu pk hn64 (errorsAt rs)
  have hf : fs1 file = fs file := by
    refine a3 file fun k _ _ part => ⟨?_, fun i _ => ?_⟩
    · rintro rfl; exact hfile (comparisonName_head part k n)
    · rintro rfl; exact hfile (partName_head part k n i)
  have hw : reportEpoch N nanText every always normalize u pk file fs procs n =
      some (fs1.write file (h.flatten ++ (t ++ line))) := by
    unfold reportEpoch
    rw [e1, Option.bind_eq_bind, Option.bind_some]
    unfold writeLearningCurve curveStart
    dsimp only
    rw [el]
    by_cases h0 : n = 0
    · rw [if_pos h0] at ht
      rw [if_neg (by simp [h0]), hh, ht]
      rfl
    · rw [if_neg h0] at ht
      rw [if_pos (by simp [h0]), hf, ht, ← List.append_assoc]
      rfl
  refine ⟨_, errorsAt rs, line, hw, a1, Function.update_self .., rl, ?_, ?_⟩
  · intro i procs' hi k hk hdue part
    cases i with
    | succ i => simp at hi
    | zero =>
      cases hi
      obtain ⟨⟨text, h1, h2⟩, h3⟩ := a2 k hk hdue part
      refine ⟨⟨text, ?_, h2⟩, fun j hj => ?_⟩
      · refine (Function.update_of_ne ?_ ..).trans h1
        rintro rfl; exact hfile (comparisonName_head part k _)
      · refine (Function.update_of_ne ?_ ..).trans (h3 j hj)
        rintro rfl; exact hfile (partName_head part k _ j)
  · intro x hx hothers
    exact (Function.update_of_ne hx ..).trans (a3 x fun k hk hd part => hothers 0 procs rfl k hk hd part)

theorem report_run (hN : N.Data) (hn : NanWord nanText) {normalize : Bool} {u : ModeUnits}
    (hu : normalize = true → u.Positive) {pk : List Key} (hpk : pk.Nodup) {file : Str}
    (hfile : file.head? ≠ some 't') {h : List Str} (hh : curveHeader normalize pk = some h)
    (every always : Key → ℕ) : ∀ (es : List (List (List Structure))) (n : ℕ) (fs : Files) (t : Str),
    (∀ procs ∈ es, procs ≠ [] ∧ procs.length < 2 ^ 64 ∧ ∀ ss ∈ procs, ∀ s ∈ ss, Trainable s) →
    n + es.length < 2 ^ 64 → es ≠ [] ∨ n ≠ 0 →
    (if n = 0 then t = [] else fs file = some (h.flatten ++ t)) →
    ∃ fs' errors t', (es.zipIdx n).foldlM (fun fs e =>
        reportEpoch N nanText every always normalize u pk file fs e.1 e.2) fs = some fs' ∧
      List.Forall₂ (EpochErrors N pk) es errors ∧ fs' file = some (h.flatten ++ (t ++ t')) ∧
      Rows t' (curveWords N nanText normalize u pk n errors) ∧
      Finished N nanText every always normalize u pk file n es fs fs' := by
  intro es
  induction es with
  | nil =>
    intro n fs t _ _ h0 ht
    have hn0 : n ≠ 0 := h0.resolve_left (by simp)
    rw [if_neg hn0] at ht
    exact ⟨fs, [], [], rfl, .nil, by simpa using ht, rows_nil, ⟨by simp, fun _ _ _ => rfl⟩⟩
  | cons procs es ih =>
    intro n fs t hall hlen _ ht
    rw [List.length_cons] at hlen
    obtain ⟨h1, h2, h3⟩ := hall procs (by simp)
    obtain ⟨fs1, errors, line, e1, a1, a2, a3, a4⟩ := report_step hN hn hu hpk hfile hh every always h1 h2
      h3 (by omega : n < 2 ^ 64) ht
    obtain ⟨fs2, errs, t', e2, b1, b2, b3, b4⟩ := ih (n + 1) fs1 (t ++ line)
      (fun p hp => hall p (by simp [hp])) (by omega) (.inr (by omega)) (by rw [if_neg (by omega)]; exact a2)
    refine ⟨fs2, errors :: errs, line ++ t', ?_, .cons a1 b1, ?_, ?_, ?_, ?_⟩
    · rw [List.zipIdx_cons, List.foldlM_cons, e1]
      exact e2
    · rw [b2, List.append_assoc]
    · have := rows_append a3 b3
      simpa [curveWords, List.zipIdx_cons] using this
    · intro i procs' hi k hk hdue part
      cases i with
      | succ i =>
        have e : n + (i + 1) = n + 1 + i := by omega
        rw [e] at hdue ⊢
        exact b4.comparison i procs' (by simpa using hi) k hk hdue part
      | zero =>
        obtain ⟨⟨text, c1, c2⟩, c3⟩ := a4.comparison 0 procs' (by simpa using hi) k hk hdue part
        have hne1 : comparisonName part.text k (n + 0) ≠ file := by
          rintro rfl; exact hfile (comparisonName_head part k _)
        refine ⟨⟨text, ?_, c2⟩, fun j hj => ?_⟩
        · rw [b4.others _ hne1]
          · exact c1
          · intro i procs2 _ k2 _ _ part2
            refine ⟨fun h => ?_, fun j _ h => partName_ne_comparison _ _ _ _ _ h.symm⟩
            have := comparisonName_epoch h
            omega
        · by_cases hx : ∃ (i : ℕ) (procs2 : List (List Structure)), es[i]? = some procs2 ∧ ∃ k2 ∈ pk,
              ComparisonDue every always (n + 1 + i) k2 ∧ ∃ (part2 : Part) (j2 : ℕ), j2 < procs2.length ∧
              partName (comparisonName part.text k (n + 0)) j =
                partName (comparisonName part2.text k2 (n + 1 + i)) j2
          · obtain ⟨i, procs2, hi2, k2, hk2, hd2, part2, j2, hj2, ej⟩ := hx
            rw [ej]; exact (b4.comparison i procs2 hi2 k2 hk2 hd2 part2).2 j2 hj2
          · rw [b4.others]
            · exact c3 j hj
            · rintro rfl; exact hfile (partName_head part k _ j)
            · intro i procs2 hi2 k2 hk2 hd2 part2
              exact ⟨partName_ne_comparison _ _ _ _ _, fun j2 hj2 h =>
                hx ⟨i, procs2, hi2, k2, hk2, hd2, part2, j2, hj2, h⟩⟩
    · intro x hx hothers
      rw [b4.others x hx, a4.others x hx]
      · intro i procs' hi k hk hd part
        cases i with
        | succ i => simp at hi
        | zero => exact hothers 0 procs' (by simpa using hi) k hk hd part
      · intro i procs' hi k hk hd part
        have := hothers (i + 1) procs' (by simpa using hi) k hk
        have e : n + (i + 1) = n + 1 + i := by omega
        rw [e] at this
        exact this hd part

end N2P2
