import Verif.Spec.WeightFile
import Verif.Lemma.StructureFile
import Verif.Lemma.NNState
import Verif.Props.ElementMap

/-! Writing and reading network parameters. -/

namespace N2P2

open NeuralNetwork NetShape

/-! ### Numbers as text -/

theorem natText_digit {n : ℕ} {c : Char} (h : c ∈ natText n) : c.isDigit = true :=
  Nat.isDigit_of_mem_toDigits (by norm_num) (by norm_num) h

theorem natText_word (n : ℕ) : IsWord (natText n) := by
  refine ⟨Nat.toDigits_ne_nil, fun c hc => ?_⟩
  have := natText_digit hc
  by_contra hb
  have hb : isBlank c = true := by simpa using hb
  simp only [isBlank, Bool.or_eq_true, beq_iff_eq] at hb
  rcases hb with rfl | rfl <;> simp [Char.isDigit] at this

theorem natText_newline (n : ℕ) : '\n' ∉ natText n := fun h => by
  have := natText_digit h
  simp [Char.isDigit] at this

theorem natText_length {n k : ℕ} (hk : 0 < k) (h : n < 10 ^ k) : (natText n).length ≤ k :=
  (Nat.length_toDigits_le_iff (by norm_num) hk).2 h

theorem natText_inj {m n : ℕ} (h : natText m = natText n) : m = n := by
  have := congrArg (Nat.ofDigitChars 10 · 0) h
  simpa [natText, Nat.ofDigitChars_ten_toDigits] using this

/-- Zero padding does not identify numbers. -/
theorem zeroPad_inj {m n a b : ℕ}
    (h : List.replicate a '0' ++ natText m = List.replicate b '0' ++ natText n) : m = n := by
  have := congrArg (Nat.ofDigitChars 10 · 0) h
  simp only [Nat.ofDigitChars_append, Nat.ofDigitChars_replicate_zero, Nat.mul_zero] at this
  simpa [natText, Nat.ofDigitChars_ten_toDigits] using this

/-! ### Header -/

theorem mem_flatten_pad {l : List Str} (h : ∀ x ∈ l, '\n' ∉ x) : '\n' ∉ l.flatten := by
  intro hc
  obtain ⟨x, hx, hm⟩ := List.mem_flatten.1 hc
  exact h x hx hm

theorem newline_padLeft {n : ℕ} {s : Str} (h : '\n' ∉ s) : '\n' ∉ padLeft n s := by
  intro hc
  rcases List.mem_append.1 hc with hc | hc
  · exact absurd (List.eq_of_mem_replicate hc) (by decide)
  · exact h hc

theorem newline_padRight {n : ℕ} {s : Str} (h : '\n' ∉ s) : '\n' ∉ padRight n s := by
  intro hc
  rcases List.mem_append.1 hc with hc | hc
  · exact h hc
  · exact absurd (List.eq_of_mem_replicate hc) (by decide)

theorem newline_headerName {i k : ℕ} {s : Str} (h : '\n' ∉ s) : '\n' ∉ headerName i k s := by
  unfold headerName
  split_ifs
  · exact h
  · exact fun hc => h (List.mem_of_mem_take hc)

theorem comment_replicate {c : Char} (hc : c ≠ '\n') {n : ℕ} (hn : 0 < n) :
    IsCommentLine c (List.replicate n c ++ ['\n']) := by
  obtain ⟨k, rfl⟩ : ∃ k, n = k + 1 := ⟨n - 1, by omega⟩
  refine ⟨List.replicate k c, by rw [List.replicate_succ], ?_⟩
  rw [← List.replicate_succ]
  intro h
  exact hc (List.eq_of_mem_replicate h).symm

theorem comment_of {c : Char} (hc : c ≠ '\n') {t : Str} (ht : '\n' ∉ t) :
    IsCommentLine c (c :: t ++ ['\n']) :=
  ⟨t, rfl, by
    intro h
    rcases List.mem_cons.1 h with h | h
    · exact hc h.symm
    · exact ht h⟩

theorem widthData_ge (l : List ℕ) (a : ℕ) : a ≤ l.foldl (fun w s => w + (s + 1)) a := by
  induction l generalizing a with
  | nil => exact le_rfl
  | cons x l ih =>
    rw [List.foldl_cons]
    exact le_trans (by omega) (ih _)

theorem widthData_pos {l : List ℕ} (h : ∃ k ∈ l, 0 < k) :
    0 < l.foldl (fun w s => w + (s + 1)) 0 - 1 := by
  obtain ⟨k, hk, h0⟩ := h
  have : ∀ (l : List ℕ) (a : ℕ), k ∈ l → a + (k + 1) ≤ l.foldl (fun w s => w + (s + 1)) a := by
    intro l
    induction l with
    | nil => intro a h; cases h
    | cons x l ih =>
      intro a h
      rw [List.foldl_cons]
      rcases List.mem_cons.1 h with rfl | h
      · exact widthData_ge _ _
      · exact le_trans (by omega) (ih _ h)
  have := this l 0 hk
  omega

theorem header_comment {title : List Str} {colSize : List ℕ} {colName colInfo : List Str} {c : Char}
    (hc : c ≠ '\n') (ht : ∀ s ∈ title, '\n' ∉ s) (hn : ∀ s ∈ colName, '\n' ∉ s)
    (hi : ∀ s ∈ colInfo, '\n' ∉ s) (hw : ∃ k ∈ colSize, 0 < k) {h : List Str}
    (hh : createFileHeader title colSize colName colInfo c = some h) :
    ∀ l ∈ h, IsCommentLine c l := by
  unfold createFileHeader at hh
  split_ifs at hh
  have hh := Option.some.inj hh
  subst hh
  have hsep : IsCommentLine c (List.replicate 80 c ++ ['\n']) := comment_replicate hc (by norm_num)
  intro l hl
  simp only [List.mem_append, List.mem_singleton] at hl
  rcases hl with (((((((((rfl | hl) | rfl) | rfl) | rfl) | hl) | rfl) | rfl) | rfl) | rfl)
  · exact hsep
  · obtain ⟨t, hm, rfl⟩ := List.mem_map.1 hl
    refine comment_of hc (t := ' ' :: t) ?_
    have := ht t hm
    simp [this]
  · exact hsep
  · have e : "Description\n".toList = "Description".toList ++ ['\n'] := by decide
    rw [e]
    have h1 : '\n' ∉ padRight 4 "Col".toList := newline_padRight (by decide)
    have h2 : ∀ n, '\n' ∉ padRight n "Name".toList := fun n => newline_padRight (by decide)
    have := comment_of hc (t := ' ' :: (padRight 4 "Col".toList ++ [' '] ++
      padRight (colName.foldl (fun w s => max w s.length) 0) "Name".toList ++ [' '] ++
        "Description".toList)) (by
      simp only [List.mem_cons, List.mem_append, not_or]
      refine ⟨by decide, ⟨⟨⟨h1, by decide⟩, h2 _⟩, by decide⟩, by decide⟩)
    simpa using this
  · exact hsep
  · obtain ⟨i, hi', rfl⟩ := List.mem_mapIdx.1 hl
    have hm := List.getElem_mem hi'
    have h1 := hn _ (List.of_mem_zip hm).1
    have h2 := hi _ (List.of_mem_zip hm).2
    have := comment_of hc (t := ' ' :: (padRight 4 (natText (i + 1)) ++ [' '] ++
      padRight (colName.foldl (fun w s => max w s.length) 0) ((colName.zip colInfo)[i]).1 ++ [' '] ++
        ((colName.zip colInfo)[i]).2)) (by
      simp only [List.mem_cons, List.mem_append, not_or]
      exact ⟨by decide, ⟨⟨⟨newline_padRight (natText_newline _), by decide⟩, newline_padRight h1⟩,
        by decide⟩, h2⟩)
    simpa using this
  · split_ifs
    · exact comment_replicate hc (widthData_pos hw)
    · exact hsep
  · refine comment_of hc (mem_flatten_pad fun x hx => ?_)
    obtain ⟨i, _, rfl⟩ := List.mem_mapIdx.1 hx
    have := newline_padLeft (n := headerWidth i colSize[i]) (natText_newline (i + 1))
    simp [this]
  · refine comment_of hc (mem_flatten_pad fun x hx => ?_)
    obtain ⟨i, hi', rfl⟩ := List.mem_mapIdx.1 hx
    have hm := List.getElem_mem hi'
    have h1 := hn _ (List.of_mem_zip hm).2
    have := newline_padLeft (n := headerWidth i ((colSize.zip colName)[i]).1)
      (newline_headerName (i := i) (k := ((colSize.zip colName)[i]).1) h1)
    simpa using this
  · exact comment_replicate hc (widthData_pos hw)

theorem connectionHeader_comment : ∃ h, connectionHeader = some h ∧ ∀ l ∈ h, IsCommentLine '#' l := by
  obtain ⟨h, hh⟩ : ∃ h, connectionHeader = some h := ⟨_, rfl⟩
  exact ⟨h, hh, header_comment (by decide) (by decide) (by decide) (by decide)
    ⟨24, by decide, by decide⟩ hh⟩

/-! ### Lines with data -/

/-- A line from which `x` is read in the first column. -/
structure DataLine (N : NumberText) (x : ℝ) (l : Str) : Prop where
  newline : '\n' ∉ l
  nonempty : l ≠ []
  comment : l[0]? ≠ some '#'
  word : (split (reduce l))[0]? = some (N.print x)

theorem words_padded (k : ℕ) (key : Str) (hk : IsWord key) (fs : List (ℕ × Str))
    (h : ∀ f ∈ fs, IsWord f.2) :
    split (reduce (List.replicate k ' ' ++ key ++ spaced fs)) = key :: fs.map Prod.snd := by
  refine (C01_tokens_are_words _ _).2 ?_
  have hb : AllBlank (List.replicate k ' ') := fun c hc => by
    rw [List.eq_of_mem_replicate hc]; rfl
  have ht := tokens_spaced fs h
  cases fs with
  | nil =>
    have := SpecTokens.last (w := key) hb hk
    simpa [spaced] using this
  | cons g gs =>
    have e' : spaced (g :: gs) = ' ' :: (List.replicate g.1 ' ' ++ g.2 ++ spaced gs) := by
      simp [spaced]
    rw [e'] at ht ⊢
    have := SpecTokens.cons hb hk rfl ht
    simpa using this

/-- The line without its end. -/
def connectionBody (N : NumberText) (x : ℝ) (type : Char) (count : ℕ) (indices : List ℕ) : Str :=
  List.replicate (24 - (N.print x).length) ' ' ++ N.print x ++
    spaced ((0, [type]) :: (9 - (natText count).length, natText count) ::
      indices.map fun i => (5 - (natText i).length, natText i))

theorem connectionLine_eq (N : NumberText) (x : ℝ) (type : Char) (count : ℕ) (indices : List ℕ) :
    connectionLine N x type count indices = connectionBody N x type count indices ++ ['\n'] := by
  simp [connectionLine, connectionBody, fieldLine, NumberText.field, padLeft, spaced,
    List.flatMap_map]

theorem connectionBody_data {N : NumberText} (hN : N.Data) (x : ℝ) {type : Char}
    (ht : isBlank type = false) (hn : type ≠ '\n') (count : ℕ) (indices : List ℕ) :
    DataLine N x (connectionBody N x type count indices) := by
  obtain ⟨hw, hl, -⟩ := hN.1 x
  have h0 := hN.2 x
  have hf : ∀ f ∈ (0, [type]) :: (9 - (natText count).length, natText count) ::
      indices.map (fun i => (5 - (natText i).length, natText i)), IsWord f.2 ∧ '\n' ∉ f.2 := by
    intro f hf
    rcases List.mem_cons.1 hf with rfl | hf
    · refine ⟨⟨by simp, fun c hc => ?_⟩, ?_⟩
      · rw [List.mem_singleton.1 hc]; exact ht
      · intro hc; exact hn (List.mem_singleton.1 hc).symm
    · rcases List.mem_cons.1 hf with rfl | hf
      · exact ⟨natText_word _, natText_newline _⟩
      · obtain ⟨i, -, rfl⟩ := List.mem_map.1 hf
        exact ⟨natText_word _, natText_newline _⟩
  refine ⟨?_, ?_, ?_, ?_⟩
  · unfold connectionBody
    simp only [List.mem_append, not_or]
    exact ⟨⟨fun h => absurd (List.eq_of_mem_replicate h) (by decide), hl⟩,
      no_newline_spaced _ fun f h => (hf f h).2⟩
  · unfold connectionBody
    simp [hw.1]
  · unfold connectionBody
    cases hk : 24 - (N.print x).length with
    | zero =>
      cases hp : N.print x with
      | nil => exact absurd hp hw.1
      | cons c cs =>
        rw [hp] at h0
        simpa using h0
    | succ k => simp [List.replicate_succ]
  · unfold connectionBody
    rw [words_padded _ _ hw _ fun f h => (hf f h).1]
    rfl

theorem connectionLine_strpr {N : NumberText} (hN : N.Data) (x : ℝ) (type : Char) {count : ℕ}
    (hc : count < 2 ^ 31) {indices : List ℕ} (hi : ∀ i ∈ indices, i ≤ 2 ^ 31)
    (hl : indices.length ≤ 4) :
    strpr (connectionLine N x type count indices) =
      some (connectionBody N x type count indices ++ ['\n']) := by
  rw [connectionLine_eq, strpr, if_pos]
  have h1 := (hN.1 x).2.2
  have h2 : (natText count).length ≤ 10 :=
    natText_length (by norm_num) (hc.trans (by norm_num))
  have h3 : ((indices.map fun i => (5 - (natText i).length, natText i)).map
      fun f : ℕ × Str => 1 + f.1 + f.2.length).sum ≤ indices.length * 16 := by
    rw [List.map_map]
    refine le_trans (List.sum_le_card_nsmul _ 16 ?_) (by simp)
    intro y hy
    obtain ⟨i, hi', rfl⟩ := List.mem_map.1 hy
    have : (natText i).length ≤ 10 :=
      natText_length (by norm_num) (lt_of_le_of_lt (hi i hi') (by norm_num))
    simp only [Function.comp]
    omega
  simp only [connectionBody, List.length_append, List.length_replicate, length_spaced,
    List.map_cons, List.sum_cons, List.length_singleton]
  omega

/-! ### Writing -/

/-- Indices printed for a parameter. -/
def Param.printed : Param → Char × List ℕ
  | .weight i j k => ('a', [i, j + 1, i + 1, k + 1])
  | .bias i k => ('b', [i + 1, k + 1])

/-- Body of the loop in `writeConnections`. -/
noncomputable def writeParam (N : NumberText) (nn : NeuralNetwork) (p : Param) (m : ℕ)
    (text : Option Str) : Option Str :=
  (putLine (text, m) fun count => connectionLine N (p.read nn) p.printed.1 count p.printed.2).1

theorem writeConnections_eq {L : ℕ} {n : ℕ → ℕ} {af : ℕ → Activation} {nn : NeuralNetwork}
    (h : HasShape L n af nn) (N : NumberText) {header : List Str}
    (hh : connectionHeader = some header) :
    nn.writeConnections N = (walk L n (writeParam N nn) (some header.flatten)).1 := by
  unfold NeuralNetwork.writeConnections walk
  rw [hh]
  simp only [h.size, h.prev, h.numLayers]
  rfl

theorem writeConnections_bodies {L : ℕ} {n : ℕ → ℕ} {af : ℕ → Activation} {nn : NeuralNetwork}
    (h : HasShape L n af nn) (hL : IntSized L n) {N : NumberText} (hN : N.Data) :
    ∃ (header lines : List Str), (∀ l ∈ header, IsCommentLine '#' l) ∧
      nn.writeConnections N = some (header.flatten ++ lines.flatMap (· ++ ['\n'])) ∧
      lines.length = offset n (L - 1) ∧
      ∀ p : Param, p.Valid L n → ∃ l, lines[p.pos n]? = some l ∧
        l = connectionBody N (p.read nn) p.printed.1 (p.pos n + 1) p.printed.2 := by
  obtain ⟨header, hh, hc⟩ := connectionHeader_comment
  obtain ⟨hL1, hL2, hL3, -⟩ := hL
  rw [writeConnections_eq h N hh]
  have key := walk_induction (L := L) (n := n) (visit := writeParam N nn) (s := some header.flatten)
    (fun m text => ∃ lines : List Str,
      text = some (header.flatten ++ lines.flatMap (· ++ ['\n'])) ∧ lines.length = m ∧
      ∀ p : Param, p.Valid L n → p.pos n < m →
        ∃ l, lines[p.pos n]? = some l ∧ 
          l = connectionBody N (p.read nn) p.printed.1 (p.pos n + 1) p.printed.2)
    ⟨[], by simp, rfl, fun p _ h => absurd h (by omega)⟩ (by
      rintro p hp t ⟨lines, rfl, hlen, hd⟩
      have hm := Param.pos_lt_total hp
      have hind : ∀ i ∈ p.printed.2, i ≤ 2 ^ 31 := by
        intro i hi
        cases p with
        | weight a j k =>
          obtain ⟨ha, hj, hk⟩ := hp
          have h1 := hL2 a (by omega)
          have h2 := hL2 (a + 1) ha
          simp only [Param.printed, List.mem_cons, List.not_mem_nil, or_false] at hi
          omega
        | bias a k =>
          obtain ⟨ha, hk⟩ := hp
          have h2 := hL2 (a + 1) ha
          simp only [Param.printed, List.mem_cons, List.not_mem_nil, or_false] at hi
          omega
      have hil : p.printed.2.length ≤ 4 := by cases p <;> simp [Param.printed]
      by_cases hlt : p.pos n + 1 < 2 ^ 31
      · refine ⟨lines ++ [connectionBody N (p.read nn) p.printed.1 (p.pos n + 1) p.printed.2],
          ?_, by simp [hlen], ?_⟩
        · unfold writeParam putLine
          simp only [Option.bind_eq_bind, Option.bind_some]
          rw [if_pos hlt, connectionLine_strpr hN _ _ hlt hind hil]
          simp
        · intro q hq hqm
          by_cases e : q = p
          · subst e
            refine ⟨_, ?_, rfl⟩
            rw [List.getElem?_append_right (by omega), hlen, Nat.sub_self]
            rfl
          · have hne : q.pos n ≠ p.pos n := fun e' => e (Param.pos_inj hq hp e')
            obtain ⟨l, hl, hdl⟩ := hd q hq (by omega)
            refine ⟨l, ?_, hdl⟩
            rw [List.getElem?_append_left (by omega), hl]
      · exfalso
        omega)
  obtain ⟨lines, ht, hlen, hd⟩ := key
  exact ⟨header, lines, hc, ht, hlen, fun p hp => hd p hp (Param.pos_lt_total hp)⟩

theorem writeConnections_lines {L : ℕ} {n : ℕ → ℕ} {af : ℕ → Activation} {nn : NeuralNetwork}
    (h : HasShape L n af nn) (hL : IntSized L n) {N : NumberText} (hN : N.Data) :
    ∃ (header lines : List Str), (∀ l ∈ header, IsCommentLine '#' l) ∧
      nn.writeConnections N = some (header.flatten ++ lines.flatMap (· ++ ['\n'])) ∧
      lines.length = offset n (L - 1) ∧
      ∀ p : Param, p.Valid L n → ∃ l, lines[p.pos n]? = some l ∧ DataLine N (p.read nn) l := by
  obtain ⟨header, lines, hc, ht, hlen, hd⟩ := writeConnections_bodies h hL hN
  refine ⟨header, lines, hc, ht, hlen, fun p hp => ?_⟩
  obtain ⟨l, hl, rfl⟩ := hd p hp
  have hb : isBlank p.printed.1 = false ∧ p.printed.1 ≠ '\n' := by
    cases p <;> simp [Param.printed, isBlank]
  exact ⟨_, hl, connectionBody_data hN _ hb.1 hb.2 _ _⟩

/-! ### Reading -/

/-- The value in the first column of a line, if it counts. -/
noncomputable def lineValue (N : NumberText) (nan : ℝ) (line : Str) : Option ℝ :=
  if line.length = 0 then none
  else if line[0]? ≠ some '#' then
    some (match (split (reduce line))[0]? with
      | none => nan
      | some w => N.atof w)
  else none

theorem readColumns_zero (N : NumberText) (nan : ℝ) {fs : Files} {name text : Str}
    (h : fs name = some text) :
    readColumnsFromFile N nan fs name [0] '#' =
      .ok [(0, (readLines text).filterMap (lineValue N nan))] := by
  unfold readColumnsFromFile
  rw [h]
  simp only [List.foldl_cons, List.foldl_nil, CMap.set]
  congr 1
  have key : ∀ (ls : List Str) (acc : List ℝ),
      ls.foldl (fun r line =>
        if line.length = 0 then r
        else if line[0]? ≠ some '#' then readColumnsLine N nan (split (reduce line)) [0] r
        else r) ([(0, acc)] : CMap ℕ (List ℝ)) = [(0, acc ++ ls.filterMap (lineValue N nan))] := by
    intro ls
    induction ls with
    | nil => intro acc; simp
    | cons l ls ih =>
      intro acc
      rw [List.foldl_cons, List.filterMap_cons]
      by_cases h0 : l.length = 0
      · rw [if_pos h0, ih, lineValue, if_pos h0]
      · rw [if_neg h0, lineValue, if_neg h0]
        by_cases h1 : l[0]? ≠ some '#'
        · rw [if_pos h1, if_pos h1]
          have : readColumnsLine N nan (split (reduce l)) [0] ([(0, acc)] : CMap ℕ (List ℝ)) =
              [(0, acc ++ [match (split (reduce l))[0]? with
                | none => nan
                | some w => N.atof w])] := by
            simp only [readColumnsLine, CMap.set, CMap.find?, List.foldl_cons, List.foldl_nil, if_true,
              Option.getD_some]
            cases (split (reduce l))[0]? <;> rfl
          rw [this, ih]
          simp
        · rw [if_neg h1, if_neg h1, ih]
  simpa using key (readLines text) []

theorem comment_value (N : NumberText) (nan : ℝ) (t : Str) : lineValue N nan ('#' :: t) = none := by
  simp [lineValue]

theorem DataLine.value {N : NumberText} {x : ℝ} {l : Str} (h : DataLine N x l) (nan : ℝ) :
    lineValue N nan l = some (N.rounded x) := by
  unfold lineValue
  rw [if_neg (by simpa using h.nonempty), if_pos h.comment, h.word]
  rfl

/-- Header lines without line ends. -/
theorem header_bodies {header : List Str} (h : ∀ l ∈ header, IsCommentLine '#' l) :
    ∃ hs : List Str, header.flatten = hs.flatMap (· ++ ['\n']) ∧
      ∀ l ∈ hs, '\n' ∉ l ∧ ∃ t, l = '#' :: t := by
  induction header with
  | nil => exact ⟨[], rfl, fun l hl => by cases hl⟩
  | cons l ls ih =>
    obtain ⟨hs, e, hh⟩ := ih fun x hx => h x (by simp [hx])
    obtain ⟨t, rfl, ht⟩ := h l (by simp)
    refine ⟨('#' :: t) :: hs, by simp [e], ?_⟩
    intro x hx
    rcases List.mem_cons.1 hx with rfl | hx
    · exact ⟨ht, t, rfl⟩
    · exact hh x hx

theorem readColumn_file (N : NumberText) (nan : ℝ) {fs : Files} {name : Str}
    {header lines : List Str} (hh : ∀ l ∈ header, IsCommentLine '#' l)
    (hl : ∀ l ∈ lines, '\n' ∉ l)
    (h : fs name = some (header.flatten ++ lines.flatMap (· ++ ['\n']))) :
    readColumnsFromFile N nan fs name [0] '#' =
      .ok [(0, lines.filterMap (lineValue N nan))] := by
  rw [readColumns_zero N nan h]
  obtain ⟨hs, e, hb⟩ := header_bodies hh
  have : readLines (header.flatten ++ lines.flatMap (· ++ ['\n'])) = hs ++ lines := by
    rw [e, readLines_append hs (fun l h => (hb l h).1), readLines_write lines hl]
  rw [this, List.filterMap_append]
  have h0 : hs.filterMap (lineValue N nan) = [] := by
    rw [List.filterMap_eq_nil_iff]
    intro l hl
    obtain ⟨t, rfl⟩ := (hb l hl).2
    exact comment_value N nan t
  rw [h0, List.nil_append]

/-- What is read from the file of a network. -/
theorem read_written {L : ℕ} {n : ℕ → ℕ} {af : ℕ → Activation} {nn : NeuralNetwork}
    (h : HasShape L n af nn) (hL : IntSized L n) {N : NumberText} (hN : N.Data) (nan : ℝ) :
    ∃ text, nn.writeConnections N = some text ∧ ∀ (fs : Files) name, fs name = some text →
      ∃ values, readColumnsFromFile N nan fs name [0] '#' = .ok [(0, values)] ∧
        values.length = offset n (L - 1) ∧
        ∀ p : Param, p.Valid L n → values[p.pos n]? = some (N.rounded (p.read nn)) := by
  obtain ⟨header, lines, hc, ht, hlen, hd⟩ := writeConnections_lines h hL hN
  have hall : ∀ l ∈ lines, ∃ x, DataLine N x l := by
    intro l hl
    obtain ⟨m, hm, rfl⟩ := List.mem_iff_getElem.1 hl
    obtain ⟨p, hp, rfl⟩ := Param.exists_pos (hlen ▸ hm)
    obtain ⟨l', hl', hdl⟩ := hd p hp
    rw [List.getElem?_eq_getElem hm] at hl'
    exact ⟨_, Option.some.inj hl' ▸ hdl⟩
  refine ⟨_, ht, fun fs name hfs => ?_⟩
  refine ⟨_, readColumn_file N nan hc (fun l hl => (hall l hl).elim fun _ h => h.newline) hfs, ?_⟩
  have hmap : lines.filterMap (lineValue N nan) = lines.map fun l => (lineValue N nan l).getD 0 := by
    have : ∀ ls : List Str, (∀ l ∈ ls, ∃ x, DataLine N x l) →
        ls.filterMap (lineValue N nan) = ls.map fun l => (lineValue N nan l).getD 0 := by
      intro ls
      induction ls with
      | nil => intro _; rfl
      | cons l ls ih =>
        intro h
        obtain ⟨x, hx⟩ := h l (by simp)
        rw [List.filterMap_cons, hx.value, List.map_cons, hx.value, ih fun y hy => h y (by simp [hy])]
        rfl
    exact this lines hall
  rw [hmap]
  refine ⟨by simp [hlen], fun p hp => ?_⟩
  obtain ⟨l, hl, hdl⟩ := hd p hp
  rw [List.getElem?_map, hl]
  simp [hdl.value]

/-! ### Names -/

theorem NetElement.Known.bounds {e : NetElement} (h : e.Known) :
    e.atomicNumber < 1000 ∧ e.symbol.length ≤ 2 := by
  obtain ⟨i, hi, hs⟩ := atomicNumber_ok h
  have hl : i < knownElements.length := by
    by_contra hc
    rw [List.getElem?_eq_none (by omega)] at hs
    cases hs
  have h102 : knownElements.length = 102 := by decide +kernel
  exact ⟨by omega, (known_sane _ (List.mem_of_getElem? hs)).2.2.2.2⟩

theorem NetElement.Known.symbol_eq {a b : NetElement} (ha : a.Known) (hb : b.Known)
    (h : a.atomicNumber = b.atomicNumber) : a.symbol = b.symbol := by
  obtain ⟨i, hi, hs⟩ := atomicNumber_ok ha
  obtain ⟨j, hj, ht⟩ := atomicNumber_ok hb
  have : i = j := by omega
  subst this
  rw [hs] at ht
  exact Option.some.inj ht

theorem NameFormat.name_some {f : NameFormat} (hf : f.Short) {z : ℕ} (hz : z < 1000) :
    ∃ t, f.name z = some t ∧ t.length ≤ 903 := by
  have h3 : (natText z).length ≤ 3 := natText_length (by norm_num) (by omega)
  unfold NameFormat.Short at hf
  refine ⟨f.pre ++ (List.replicate (3 - (natText z).length) '0' ++ natText z) ++ f.suf, ?_, ?_⟩
  · unfold NameFormat.name strpr
    rw [if_pos]
    simp only [List.length_append, List.length_replicate]
    omega
  · simp only [List.length_append, List.length_replicate]
    omega

theorem NameFormat.name_inj {f : NameFormat} {z z' : ℕ} {t : Str} (h : f.name z = some t)
    (h' : f.name z' = some t) : z = z' := by
  unfold NameFormat.name strpr at h h'
  split_ifs at h h'
  have := (Option.some.inj h).trans (Option.some.inj h').symm
  have := List.append_cancel_right this
  exact zeroPad_inj (List.append_cancel_left this)

/-! ### Files of all elements -/

/-- The files contain the networks. -/
def FilesHold (N : NumberText) (id : Str) (f : NameFormat) (els : List NetElement) (fs : Files) :
    Prop :=
  ∀ e ∈ els, ∃ name nn text, f.name e.atomicNumber = some name ∧
    e.neuralNetworks.find? id = some nn ∧ nn.writeConnections N = some text ∧ fs name = some text

theorem writeWeights_files {N : NumberText} (hN : N.Data) {id : Str} {f : NameFormat} (hf : f.Short) :
    ∀ (els : List NetElement), (∀ e ∈ els, e.Known) → (els.map NetElement.symbol).Nodup →
      (∀ e ∈ els, ∃ L n af, IntSized L n ∧ e.HasNet id L n af) → ∀ fs : Files,
      ∃ fs', writeWeights N els id f fs = some fs' ∧ FilesHold N id f els fs' ∧
        ∀ name, (∀ e ∈ els, f.name e.atomicNumber ≠ some name) → fs' name = fs name := by
  intro els
  induction els with
  | nil =>
    intro _ _ _ fs
    exact ⟨fs, rfl, (fun e he => absurd he (by simp)), fun name _ => rfl⟩
  | cons e els ih =>
    intro hk hd hn fs
    have hke := hk e (by simp)
    obtain ⟨name, hname, -⟩ := NameFormat.name_some hf hke.bounds.1
    obtain ⟨L, n, af, hL, nn, hnn, hr⟩ := hn e (by simp)
    obtain ⟨text, htext, -⟩ := read_written hr.hasShape hL hN 0
    rw [List.map_cons, List.nodup_cons] at hd
    obtain ⟨fs', hw, hh, ho⟩ := ih (fun x hx => hk x (by simp [hx])) hd.2
      (fun x hx => hn x (by simp [hx])) (fs.write name text)
    refine ⟨fs', ?_, ?_, ?_⟩
    · unfold writeWeights at hw ⊢
      rw [List.foldlM_cons]
      simp only [hname, hnn, htext, Option.bind_eq_bind, Option.bind_some]
      exact hw
    · intro x hx
      rcases List.mem_cons.1 hx with rfl | hx
      · refine ⟨name, nn, text, hname, hnn, htext, ?_⟩
        rw [ho name, Files.write, Function.update_self]
        intro y hy hyn
        have := NameFormat.name_inj hyn hname
        refine hd.1 ?_
        rw [← NetElement.Known.symbol_eq (hk y (by simp [hy])) hke this]
        exact List.mem_map.2 ⟨y, hy, rfl⟩
      · exact hh x hx
    · intro m hm
      rw [ho m fun y hy => hm y (by simp [hy]), Files.write, Function.update_of_ne]
      rintro rfl
      exact hm e (by simp) hname

theorem Restored.of_shape {N : NumberText} {L : ℕ} {n : ℕ → ℕ} {af : ℕ → Activation}
    {a b : NeuralNetwork} (ha : HasShape L n af a) (hb : Reachable L n af b)
    (h : ∀ p : Param, p.Valid L n → p.read b = N.rounded (p.read a)) : Restored N a b := by
  intro L' n' af' hr
  have hs := hr.hasShape
  obtain rfl : L' = L := hs.numLayers.symm.trans ha.numLayers
  obtain rfl : n' = n := funext fun i => (hs.size i).symm.trans (ha.size i)
  obtain rfl : af' = af := funext fun i => (hs.act i).symm.trans (ha.act i)
  exact ⟨hb, h⟩

theorem strpr_some {s : Str} (h : s.length < 1024) : strpr s = some s := if_pos h

theorem readWeights_restored {N : NumberText} (hN : N.Data) (nan : ℝ) {id : Str} {f : NameFormat}
    (hf : f.Short) {fs : Files} {e e' : NetElement} (hk : e.Known) (hc : Counterpart id e e')
    (hh : FilesHold N id f [e] fs) :
    ∃ e'', readWeights N nan fs id f e' = .ok e'' ∧ Loaded N [id] e e' e'' := by
  obtain ⟨hs, hz, L, n, af, hL, ⟨nn, hnn, hr⟩, nn', hnn', hr'⟩ := hc
  obtain ⟨name, nn2, text, hname, hnn2, htext, hfs⟩ := hh e (by simp)
  rw [hnn] at hnn2
  obtain rfl := Option.some.inj hnn2
  obtain ⟨text', htext', hread⟩ := read_written hr.hasShape hL hN nan
  rw [htext] at htext'
  obtain rfl := Option.some.inj htext'
  obtain ⟨values, hv, hlen, hval⟩ := hread fs name hfs
  have hset : setConnectionsFrom nn' values = .ok (nn'.setConnections fun i => values.getD i 0) := by
    unfold setConnectionsFrom
    rw [if_neg]
    rw [hr'.hasShape.numConn, hlen]
    have h0 := hL.2.2.2
    rintro (rfl | h)
    · rw [List.length_nil] at hlen; omega
    · omega
  have hlog : strpr ("Setting weights for element ".toList ++ padLeft 2 e'.symbol ++
      " from file: ".toList ++ name ++ ['\n']) = some ("Setting weights for element ".toList ++
      padLeft 2 e'.symbol ++ " from file: ".toList ++ name ++ ['\n']) := by
    refine strpr_some ?_
    obtain ⟨t, ht, hl⟩ := NameFormat.name_some hf hk.bounds.1
    rw [hname] at ht
    obtain rfl := Option.some.inj ht
    have h2 := hk.bounds.2
    rw [← hs] at h2
    have ha : ("Setting weights for element ".toList).length = 28 := by decide
    have hb : (" from file: ".toList).length = 12 := by decide
    simp only [List.length_append, padLeft, List.length_replicate, ha, hb, List.length_singleton]
    omega
  refine ⟨{ e' with neuralNetworks :=
    e'.neuralNetworks.set id (nn'.setConnections fun i => values.getD i 0) }, ?_, rfl, rfl, rfl, ?_, ?_⟩
  · unfold readWeights
    rw [hz, hname]
    simp only [orUndefined, hlog, hv, CMap.find?, if_true, orThrow, hnn', hset, bind, Except.bind, pure,
      Except.pure]
  · intro k hk'
    rw [List.mem_singleton.1 hk']
    refine ⟨nn, _, hnn, ?_, Restored.of_shape hr.hasShape
      (hr'.setConnections fun i => values.getD i 0) ?_⟩
    · rw [CMap.find?_set, if_pos rfl]
    · intro p hp
      rw [read_setConnections hr'.hasShape _ hp]
      rw [List.getD_eq_getElem?_getD, hval p hp]
      rfl
  · intro k hk'
    simp only [CMap.find?_set]
    rw [if_neg fun h => hk' (by simp [h])]

theorem Loaded.comp {N : NumberText} {k : Str} {ks : List Str} (hk : k ∉ ks)
    {e e' c e'' : NetElement} (h : Loaded N [k] e e' c) (h' : Loaded N ks e c e'') :
    Loaded N (k :: ks) e e' e'' where
  symbol := h'.symbol.trans h.symbol
  number := h'.number.trans h.number
  hardness := h'.hardness.trans h.hardness
  net id hid := by
    rcases List.mem_cons.1 hid with rfl | hid
    · obtain ⟨a, b, ha, hb, hr⟩ := h.net id (by simp)
      exact ⟨a, b, ha, (h'.others id hk).trans hb, hr⟩
    · exact h'.net id hid
  others id hid := by
    rw [List.mem_cons, not_or] at hid
    rw [h'.others id hid.2, h.others id (by simpa using hid.1)]

theorem LoadedAll.comp {N : NumberText} {k : Str} {ks : List Str} (hk : k ∉ ks) :
    ∀ {es es' cs es'' : List NetElement}, LoadedAll N [k] es es' cs → LoadedAll N ks es cs es'' →
      LoadedAll N (k :: ks) es es' es''
  | [], [], [], [], _, _ => trivial
  | _ :: _, _ :: _, _ :: _, _ :: _, h, h' => ⟨h.1.comp hk h'.1, LoadedAll.comp hk h.2 h'.2⟩

theorem LoadedAll.counterpart {N : NumberText} {k id : Str} (hk : id ≠ k) :
    ∀ {es es' cs : List NetElement}, LoadedAll N [k] es es' cs →
      List.Forall₂ (Counterpart id) es es' → List.Forall₂ (Counterpart id) es cs
  | [], [], [], _, _ => .nil
  | _ :: _, _ :: _, _ :: _, h, .cons h1 h2 => by
    refine .cons ?_ (LoadedAll.counterpart hk h.2 h2)
    obtain ⟨hs, hz, L, n, af, hL, hn, nn, hnn, hr⟩ := h1
    refine ⟨h.1.symbol.trans hs, h.1.number.trans hz, L, n, af, hL, hn, nn, ?_, hr⟩
    rw [h.1.others id (by simpa using hk)]
    exact hnn

theorem readAll_restored {N : NumberText} (hN : N.Data) (nan : ℝ) {id : Str} {f : NameFormat}
    (hf : f.Short) {fs : Files} : ∀ {es es' : List NetElement}, (∀ e ∈ es, e.Known) →
      List.Forall₂ (Counterpart id) es es' → FilesHold N id f es fs →
      ∃ es'', readNeuralNetworkWeights N nan fs id f es' = .ok es'' ∧ LoadedAll N [id] es es' es''
  | [], [], _, _, _ => ⟨[], rfl, trivial⟩
  | e :: es, e' :: es', hk, .cons h1 h2, hh => by
    obtain ⟨x, hx, hl⟩ := readWeights_restored hN nan hf (hk e (by simp)) h1
      fun y hy => hh y (by rw [List.mem_singleton.1 hy]; simp)
    obtain ⟨xs, hxs, hls⟩ := readAll_restored hN nan hf (fun y hy => hk y (by simp [hy])) h2
      fun y hy => hh y (by simp [hy])
    refine ⟨x :: xs, ?_, hl, hls⟩
    unfold readNeuralNetworkWeights at hxs ⊢
    rw [List.mapM_cons, hx, hxs]
    rfl

theorem setup_restored {N : NumberText} (hN : N.Data) (nan : ℝ) {fs : Files} {dir : Str}
    {defaults formats : CMap Str NameFormat} {format : Str → NameFormat} {es : List NetElement}
    (hk : ∀ e ∈ es, e.Known) : ∀ {ids : List Str} {es' : List NetElement}, ids.Nodup →
      (∀ k ∈ ids, (format k).Short) →
      (∀ k ∈ ids, ∃ f, ((formats.find? k).or (defaults.find? k)) = some f ∧ f.inside dir = format k) →
      (∀ k ∈ ids, List.Forall₂ (Counterpart k) es es') →
      (∀ k ∈ ids, FilesHold N k (format k) es fs) → (ids = [] → LoadedAll N [] es es' es') →
      ∃ es'', setupNeuralNetworkWeights N nan fs ids defaults formats dir es' = .ok es'' ∧
        LoadedAll N ids es es' es'' := by
  intro ids
  induction ids with
  | nil =>
    intro es' _ _ _ _ _ h0
    exact ⟨es', rfl, h0 rfl⟩
  | cons k ks ih =>
    intro es' hd hs hfm hc hh _
    rw [List.nodup_cons] at hd
    obtain ⟨cs, hread, hl⟩ := readAll_restored hN nan (hs k (by simp)) hk (hc k (by simp))
      (hh k (by simp))
    have hempty : ∀ {es cs : List NetElement}, es.length = cs.length → LoadedAll N [] es cs cs := by
      intro es
      induction es with
      | nil => intro cs h; cases cs with
        | nil => trivial
        | cons => cases h
      | cons e es ih => intro cs h; cases cs with
        | nil => cases h
        | cons c cs =>
          exact ⟨⟨rfl, rfl, rfl, (fun id h => absurd h (by simp)), fun _ _ => rfl⟩, ih (Nat.succ.inj h)⟩
    have hlen : ∀ {es es' cs : List NetElement}, LoadedAll N [k] es es' cs →
        es.length = cs.length := by
      intro es
      induction es with
      | nil => intro es' cs h; cases es' <;> cases cs <;> first | rfl | exact h.elim
      | cons e es ih => intro es' cs h; cases es' <;> cases cs <;>
          first | exact h.elim | exact congrArg (· + 1) (ih h.2)
    obtain ⟨es'', hset, hl'⟩ := ih (es' := cs) hd.2 (fun x hx => hs x (by simp [hx]))
      (fun x hx => hfm x (by simp [hx]))
      (fun x hx => hl.counterpart (by rintro rfl; exact hd.1 hx) (hc x (by simp [hx])))
      (fun x hx => hh x (by simp [hx])) (fun _ => hempty (hlen hl))
    refine ⟨es'', ?_, LoadedAll.comp hd.1 hl hl'⟩
    obtain ⟨f, hf, hi⟩ := hfm k (by simp)
    unfold setupNeuralNetworkWeights at hset ⊢
    rw [List.foldlM_cons]
    have e : weightFormat defaults formats k = .ok f := by
      unfold weightFormat
      cases h1 : formats.find? k with
      | some g =>
        rw [h1, Option.or] at hf
        rw [Option.some.inj hf]
      | none =>
        rw [h1, Option.or] at hf
        rw [hf]
        rfl
    rw [e]
    simp only [bind, Except.bind] at hset ⊢
    rw [hi, hread]
    exact hset

/-! ### Number of values -/

theorem values_length (N : NumberText) (nan : ℝ) (text : Str) :
    ((readLines text).filterMap (lineValue N nan)).length = (dataLines text).length := by
  unfold dataLines
  induction readLines text with
  | nil => rfl
  | cons l ls ih =>
    rw [List.filterMap_cons, List.filter_cons]
    cases l with
    | nil => simpa [lineValue] using ih
    | cons c cs =>
      by_cases hc : c = '#'
      · subst hc
        simpa [lineValue] using ih
      · simp [lineValue, hc, ih]

theorem log_weights {f : NameFormat} (hf : f.Short) {e : NetElement} (hk : e.Known) {name : Str}
    (hname : f.name e.atomicNumber = some name) (s t : Str) (hs : s.length ≤ 28)
    (ht : t.length ≤ 12) (c : Str) (hc : c.length ≤ 2) :
    strpr (s ++ padLeft 2 e.symbol ++ t ++ name ++ c) =
      some (s ++ padLeft 2 e.symbol ++ t ++ name ++ c) := by
  refine strpr_some ?_
  obtain ⟨t', ht', hl⟩ := NameFormat.name_some hf hk.bounds.1
  rw [hname] at ht'
  obtain rfl := Option.some.inj ht'
  have h2 := hk.bounds.2
  simp only [List.length_append, padLeft, List.length_replicate]
  omega

theorem readWeights_any {N : NumberText} {nan : ℝ} {f : NameFormat} (hf : f.Short) {id : Str}
    {fs : Files} {e : NetElement} (hk : e.Known) {name text : Str}
    (hname : f.name e.atomicNumber = some name) (htext : fs name = some text) {nn : NeuralNetwork}
    (hnn : e.neuralNetworks.find? id = some nn) :
    readWeights N nan fs id f e = (setConnectionsFrom nn
      ((readLines text).filterMap (lineValue N nan))).map
        fun nn' => { e with neuralNetworks := e.neuralNetworks.set id nn' } := by
  unfold readWeights
  rw [hname]
  simp only [orUndefined, log_weights hf hk hname "Setting weights for element ".toList
    " from file: ".toList (by decide) (by decide) ['\n'] (by decide), readColumns_zero N nan htext,
    CMap.find?, if_true, orThrow, hnn, bind, Except.bind, pure, Except.pure, Except.map]

/-! ### Hardness -/

theorem SixDigits.error {x y : ℝ} (h : SixDigits x y) : |y - x| ≤ 5 / 1000000 * |x| := by
  rcases h with ⟨rfl, rfl⟩ | ⟨e, h1, -, m, rfl, hm⟩
  · simp
  · have hp : (0 : ℝ) < 10 ^ (e - 5) := zpow_pos (by norm_num) _
    have hr := hm (round (x / 10 ^ (e - 5)))
    have ha := abs_sub_round (x / (10 : ℝ) ^ (e - 5))
    have hb : |x - round (x / (10 : ℝ) ^ (e - 5)) * (10 : ℝ) ^ (e - 5)| ≤ 1 / 2 * 10 ^ (e - 5) := by
      have : x - round (x / (10 : ℝ) ^ (e - 5)) * (10 : ℝ) ^ (e - 5) =
          (x / 10 ^ (e - 5) - round (x / (10 : ℝ) ^ (e - 5))) * 10 ^ (e - 5) := by
        field_simp
      rw [this, abs_mul, abs_of_pos hp]
      exact mul_le_mul_of_nonneg_right ha hp.le
    have hq : (10 : ℝ) ^ e = 10 ^ (e - 5) * 100000 := by
      rw [zpow_sub₀ (by norm_num)]
      norm_num
    rw [abs_sub_comm]
    rw [hq] at h1
    linarith

theorem SixDigits.ne {y : ℝ} (h : SixDigits (12345678 / 10000000) y) :
    y ≠ 12345678 / 10000000 := by
  rintro rfl
  rcases h with ⟨h, -⟩ | ⟨e, h1, h2, m, hm, -⟩
  · norm_num at h
  · have habs : |(12345678 / 10000000 : ℝ)| = 12345678 / 10000000 := abs_of_pos (by norm_num)
    rw [habs] at h1 h2
    have he : e = 0 := by
      have hlt : e < 1 := by
        by_contra hc
        have : (10 : ℝ) ^ (1 : ℤ) ≤ 10 ^ e := zpow_le_zpow_right₀ (by norm_num) (by omega)
        norm_num at this
        linarith
      have hgt : -1 < e := by
        by_contra hc
        have : (10 : ℝ) ^ (e + 1) ≤ 10 ^ (0 : ℤ) := zpow_le_zpow_right₀ (by norm_num) (by omega)
        rw [zpow_zero] at this
        linarith
      omega
    subst he
    have h5 : (10 : ℝ) ^ ((0 : ℤ) - 5) = 1 / 100000 := by norm_num
    rw [h5] at hm
    have : (m : ℝ) * 100 = 12345678 := by linarith
    have : m * 100 = 12345678 := by exact_mod_cast this
    omega

theorem shown_value {N : NumberText} {shown : ℝ → Str} (hS : ShownShort N shown) (nan x : ℝ)
    {fs : Files} {name : Str} (h : fs name = some (shown x ++ ['\n'])) :
    readColumnsFromFile N nan fs name [0] '#' = .ok [(0, [N.atof (shown x)])] := by
  obtain ⟨hw, hn, hc, -⟩ := hS x
  rw [readColumns_zero N nan h]
  have : readLines (shown x ++ ['\n']) = [shown x] := by
    have := readLines_write [shown x] (by simpa using hn)
    simpa using this
  rw [this]
  have hs : split (reduce (shown x)) = [shown x] := by
    have := words_padded 0 (shown x) hw [] (by simp)
    simpa [spaced] using this
  have hv : lineValue N nan (shown x) = some (N.atof (shown x)) := by
    unfold lineValue
    rw [if_neg (by simpa using hw.1), if_pos (by rw [← List.head?_eq_getElem?]; exact hc), hs]
    rfl
  simp [hv]

/-- The hardness which is written. -/
noncomputable def ModeUnits.shownHardness (u : ModeUnits) (normalize : Bool) (h : ℝ) : ℝ :=
  if normalize then h / (u.convEnergy / u.convCharge ^ 2) else h

theorem shownHardness_eq (u : ModeUnits) (normalize : Bool) (h : ℝ) :
    hardnessToWrite u normalize h = some (u.shownHardness normalize h) := by
  cases normalize with
  | false => rfl
  | true => simp [hardnessToWrite, ModeUnits.shownHardness, ModeUnits.physical]

theorem writeHardness_files {shown : ℝ → Str} {u : ModeUnits} {normalize : Bool} {f : NameFormat}
    (hf : f.Short) : ∀ (els : List NetElement), (∀ e ∈ els, e.Known) →
      (els.map NetElement.symbol).Nodup → ∀ fs : Files,
      ∃ fs', writeHardness shown u normalize els f fs = some fs' ∧
        (∀ e ∈ els, ∃ name, f.name e.atomicNumber = some name ∧
          fs' name = some (shown (u.shownHardness normalize e.hardness) ++ ['\n'])) ∧
        ∀ name, (∀ e ∈ els, f.name e.atomicNumber ≠ some name) → fs' name = fs name := by
  intro els
  induction els with
  | nil =>
    intro _ _ fs
    exact ⟨fs, rfl, (fun e he => absurd he (by simp)), fun name _ => rfl⟩
  | cons e els ih =>
    intro hk hd fs
    have hke := hk e (by simp)
    obtain ⟨name, hname, -⟩ := NameFormat.name_some hf hke.bounds.1
    rw [List.map_cons, List.nodup_cons] at hd
    obtain ⟨fs', hw, hh, ho⟩ := ih (fun x hx => hk x (by simp [hx])) hd.2
      (fs.write name (shown (u.shownHardness normalize e.hardness) ++ ['\n']))
    refine ⟨fs', ?_, ?_, ?_⟩
    · unfold writeHardness at hw ⊢
      rw [List.foldlM_cons]
      simp only [hname, shownHardness_eq, Option.bind_eq_bind, Option.bind_some] at hw ⊢
      exact hw
    · intro x hx
      rcases List.mem_cons.1 hx with rfl | hx
      · refine ⟨name, hname, ?_⟩
        rw [ho name, Files.write, Function.update_self]
        intro y hy hyn
        have := NameFormat.name_inj hyn hname
        refine hd.1 ?_
        rw [← NetElement.Known.symbol_eq (hk y (by simp [hy])) hke this]
        exact List.mem_map.2 ⟨y, hy, rfl⟩
      · exact hh x hx
    · intro m hm
      rw [ho m fun y hy => hm y (by simp [hy]), Files.write, Function.update_of_ne]
      rintro rfl
      exact hm e (by simp) hname

/-- The hardness after reading `y`. -/
noncomputable def ModeUnits.readHardness (u : ModeUnits) (normalize : Bool) (y : ℝ) : ℝ :=
  if normalize then y * u.convEnergy / u.convCharge ^ 2 else y

theorem readHardness_ok {N : NumberText} {shown : ℝ → Str} (hS : ShownShort N shown) (nan : ℝ)
    {u : ModeUnits} {normalize : Bool} {f : NameFormat} (hf : f.Short) {e : NetElement}
    (hk : e.Known) {fs : Files} {name : Str} {x : ℝ} (hname : f.name e.atomicNumber = some name)
    (h : fs name = some (shown x ++ ['\n'])) :
    readHardness N nan fs u normalize f e =
      .ok { e with hardness := u.readHardness normalize (N.atof (shown x)) } := by
  have hn : ∀ y, (if normalize then u.normalized "hardness" y else some y) =
      some (u.readHardness normalize y) := by
    intro y
    cases normalize with
    | false => rfl
    | true => simp [ModeUnits.readHardness, ModeUnits.normalized]
  unfold readHardness
  rw [hname]
  simp only [orUndefined, log_weights hf hk hname "Atomic hardness for element ".toList
    " from file ".toList (by decide) (by decide) ": ".toList (by decide), shown_value hS nan x h,
    CMap.find?, if_true, orThrow, bind, Except.bind, pure, Except.pure]
  rw [if_neg (by simp)]
  simp only [List.getElem?_cons_zero, hn]

end N2P2
