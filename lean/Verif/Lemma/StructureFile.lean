import Verif.Spec.StructureFile
import Verif.Props.Utility
import Verif.Props.Geometry
import Verif.Lemma.Settings
import Mathlib.Data.List.TakeWhile

/-! Writing and reading structures. -/

namespace N2P2

/-! ### Lines and words -/

theorem splitFuel_enough (d : Char) : ∀ (n m : ℕ) (s : Str), s.length ≤ n → s.length ≤ m →
    splitFuel d n s = splitFuel d m s := by
  intro n
  induction n with
  | zero =>
    intro m s hn _
    rw [List.length_eq_zero_iff.1 (Nat.le_zero.1 hn), splitFuel_nil, splitFuel_nil]
  | succ n ih =>
    intro m s hn hm
    cases s with
    | nil => rw [splitFuel_nil, splitFuel_nil]
    | cons c cs =>
      obtain ⟨k, rfl⟩ : ∃ k, m = k + 1 := ⟨m - 1, by simp at hm; omega⟩
      rw [splitFuel_step _ _ _ (by simp), splitFuel_step _ _ _ (by simp)]
      have hl : (((c :: cs).dropWhile (· != d)).drop 1).length ≤ cs.length := by
        have := (List.dropWhile_sublist (p := (· != d)) (l := c :: cs)).length_le
        rw [List.length_drop]
        simp only [List.length_cons] at this
        omega
      simp only [List.length_cons] at hn hm
      rw [ih k _ (by omega) (by omega)]

theorem readLines_cons (l : Str) (h : '\n' ∉ l) (rest : Str) :
    readLines (l ++ '\n' :: rest) = l :: readLines rest := by
  unfold readLines split
  obtain ⟨k, hk⟩ : ∃ k, (l ++ '\n' :: rest).length = k + 1 :=
    ⟨l.length + rest.length, by simp; omega⟩
  rw [hk, splitFuel_step _ _ _ (by simp), takeWhile_line h, dropWhile_line h]
  simp only [List.drop_succ_cons, List.drop_zero]
  simp only [List.length_append, List.length_cons] at hk
  rw [splitFuel_enough '\n' k rest.length rest (by omega) le_rfl]

theorem readLines_append (ls : List Str) (h : ∀ l ∈ ls, '\n' ∉ l) (rest : Str) :
    readLines (ls.flatMap (· ++ ['\n']) ++ rest) = ls ++ readLines rest := by
  induction ls with
  | nil => rfl
  | cons l ls ih =>
    have e : (l :: ls).flatMap (· ++ ['\n']) ++ rest =
        l ++ '\n' :: (ls.flatMap (· ++ ['\n']) ++ rest) := by simp
    rw [e, readLines_cons l (h l (by simp)), ih fun x hx => h x (by simp [hx])]
    rfl

/-- A field: padding and word. -/
def spaced (fs : List (ℕ × Str)) : Str :=
  fs.flatMap fun f => ' ' :: (List.replicate f.1 ' ' ++ f.2)

theorem allBlank_spaces (n : ℕ) : AllBlank (' ' :: List.replicate n ' ') := by
  intro c hc
  rcases List.mem_cons.1 hc with rfl | hc
  · rfl
  · rw [List.eq_of_mem_replicate hc]
    rfl

theorem tokens_spaced (fs : List (ℕ × Str)) (h : ∀ f ∈ fs, IsWord f.2) :
    SpecTokens (spaced fs) (fs.map Prod.snd) := by
  induction fs with
  | nil => exact .nil (fun c hc => by cases hc)
  | cons f fs ih =>
    have hw := h f (by simp)
    have ht := ih fun g hg => h g (by simp [hg])
    cases fs with
    | nil =>
      have := SpecTokens.last (allBlank_spaces f.1) hw
      simpa [spaced] using this
    | cons g gs =>
      have e : spaced (f :: g :: gs) = (' ' :: List.replicate f.1 ' ') ++ f.2 ++
          ' ' :: (List.replicate g.1 ' ' ++ g.2 ++ spaced gs) := by
        simp [spaced]
      have e' : spaced (g :: gs) = ' ' :: (List.replicate g.1 ' ' ++ g.2 ++ spaced gs) := by
        simp [spaced]
      rw [e]
      rw [e'] at ht
      exact .cons (allBlank_spaces f.1) hw rfl ht

theorem words_spaced (key : Str) (hk : IsWord key) (fs : List (ℕ × Str))
    (h : ∀ f ∈ fs, IsWord f.2) : split (reduce (key ++ spaced fs)) = key :: fs.map Prod.snd := by
  refine (C01_tokens_are_words _ _).2 ?_
  have ht := tokens_spaced fs h
  cases fs with
  | nil =>
    have := SpecTokens.last (b := []) (w := key) (fun c hc => by cases hc) hk
    simpa [spaced] using this
  | cons g gs =>
    have e' : spaced (g :: gs) = ' ' :: (List.replicate g.1 ' ' ++ g.2 ++ spaced gs) := by
      simp [spaced]
    rw [e'] at ht ⊢
    have := SpecTokens.cons (b := []) (fun c hc => by cases hc) hk rfl ht
    simpa using this

theorem words_comment (key c : Str) (hk : IsWord key) :
    ∃ ts, split (reduce (key ++ ' ' :: c)) = key :: ts := by
  obtain ⟨ts, ht⟩ := tokens_exist _ (' ' :: c) le_rfl
  refine ⟨ts, (C01_tokens_are_words _ _).2 ?_⟩
  have := SpecTokens.cons (b := []) (fun c hc => by cases hc) hk rfl ht
  simpa using this

theorem findText_prefix (pat t : Str) : findText pat (pat ++ t) = some 0 := by
  cases h : pat ++ t with
  | nil => rw [findText, if_pos (List.append_eq_nil_iff.1 h).1]
  | cons c cs =>
    rw [findText, if_pos]
    rw [List.isPrefixOf_iff_prefix, ← h]
    exact List.prefix_append pat t

theorem eraseText_prefix (pat c : Str) : eraseText (pat ++ ' ' :: c) 0 (pat.length + 1) = c := by
  unfold eraseText
  rw [List.take_zero, List.nil_append, Nat.zero_add, List.drop_append]
  simp

/-! ### The lines written -/

/-- The field of a number. -/
def numField (N : NumberText) (x : ℝ) : ℕ × Str := (24 - (N.print x).length, N.print x)

def boxBody (N : NumberText) (v : Vec3) : Str :=
  keyLattice ++ spaced [numField N (v 0), numField N (v 1), numField N (v 2)]

def atomBody (N : NumberText) (ref : Bool) (w : Str) (a : Atom) : Str :=
  keyAtom ++ spaced [numField N (a.r 0), numField N (a.r 1), numField N (a.r 2),
    (2 - w.length, w), numField N (a.fileCharge ref), numField N 0,
    numField N (a.fileForce ref 0), numField N (a.fileForce ref 1), numField N (a.fileForce ref 2)]

def numBody (N : NumberText) (key : Str) (x : ℝ) : Str := key ++ spaced [numField N x]

def commentBody (c : Str) : Str := keyComment ++ ' ' :: c

def boxBodies (N : NumberText) (s : Structure) : List Str :=
  if s.isPeriodic then [boxBody N (s.box 0), boxBody N (s.box 1), boxBody N (s.box 2)] else []

/-- All lines, where `w` gives the symbols. -/
def fileLines (N : NumberText) (w : ℕ → Str) (ref : Bool) (s : Structure) : List Str :=
  keyBegin :: commentBody s.comment :: (boxBodies N s ++
    (s.atoms.map (fun a => atomBody N ref (w a.element) a) ++
      [numBody N keyEnergy (s.fileEnergy ref), numBody N keyCharge (s.fileCharge ref),
        keyEnd]))

theorem length_numField {N : NumberText} (hN : N.Sane) (x : ℝ) :
    (List.replicate (numField N x).1 ' ' ++ (numField N x).2).length = 24 := by
  have := (hN x).2.2
  simp only [numField, List.length_append, List.length_replicate]
  omega

theorem fieldLine_num (N : NumberText) (key : Str) (x : ℝ) :
    fieldLine key [N.field x] = numBody N key x ++ ['\n'] := by
  simp [fieldLine, numBody, spaced, numField, NumberText.field, padLeft]

theorem fieldLine_box (N : NumberText) (v : Vec3) :
    fieldLine keyLattice [N.field (v 0), N.field (v 1), N.field (v 2)] =
      boxBody N v ++ ['\n'] := by
  simp [fieldLine, boxBody, spaced, numField, NumberText.field, padLeft]

theorem fieldLine_atom (N : NumberText) (ref : Bool) (w : Str) (a : Atom) :
    fieldLine keyAtom [N.field (a.r 0), N.field (a.r 1), N.field (a.r 2), padLeft 2 w,
      N.field (a.fileCharge ref), N.field 0, N.field (a.fileForce ref 0),
      N.field (a.fileForce ref 1), N.field (a.fileForce ref 2)] = atomBody N ref w a ++ ['\n'] := by
  simp [fieldLine, atomBody, spaced, numField, NumberText.field, padLeft]

theorem fieldLine_comment (c : Str) :
    fieldLine keyComment [c] = commentBody c ++ ['\n'] := by
  simp [fieldLine, commentBody]

theorem cString_id {c : Str} (h : Char.ofNat 0 ∉ c) : cString c = c := by
  unfold cString
  refine List.takeWhile_eq_self_iff.2 fun x hx => ?_
  refine decide_eq_true fun e => h ?_
  rw [← e]
  exact hx

theorem length_spaced (fs : List (ℕ × Str)) :
    (spaced fs).length = (fs.map fun f => 1 + f.1 + f.2.length).sum := by
  induction fs with
  | nil => rfl
  | cons f fs ih =>
    rw [List.map_cons, List.sum_cons, ← ih]
    simp [spaced]
    omega

theorem numField_length {N : NumberText} (hN : N.Sane) (x : ℝ) :
    1 + (numField N x).1 + (numField N x).2.length = 25 := by
  have := (hN x).2.2
  simp only [numField]
  omega

theorem known_sane : ∀ w ∈ knownElements, w ≠ [] ∧ (∀ c ∈ w, isBlank c = false) ∧ '\n' ∉ w ∧
    Char.ofNat 0 ∉ w ∧ w.length ≤ 2 := by
  decide +kernel

theorem strpr_num {N : NumberText} (hN : N.Sane) (key : Str) (hk : key.length ≤ 10) (x : ℝ) :
    strpr (fieldLine key [N.field x]) = some (numBody N key x ++ ['\n']) := by
  rw [fieldLine_num]
  unfold strpr
  rw [if_pos]
  rw [numBody, List.length_append, List.length_append, length_spaced]
  simp only [List.map_cons, List.map_nil, List.sum_cons, List.sum_nil, numField_length hN,
    List.length_cons, List.length_nil]
  omega

theorem writeBoxVector_eq {N : NumberText} (hN : N.Sane) (v : Vec3) :
    writeBoxVector N v = some (boxBody N v ++ ['\n']) := by
  unfold writeBoxVector
  rw [fieldLine_box]
  unfold strpr
  rw [if_pos]
  rw [boxBody, List.length_append, List.length_append, length_spaced]
  simp only [List.map_cons, List.map_nil, List.sum_cons, List.sum_nil, numField_length hN,
    List.length_cons, List.length_nil]
  decide

theorem writeBox_eq {N : NumberText} (hN : N.Sane) (s : Structure) :
    writeBox N s = some ((boxBodies N s).flatMap (· ++ ['\n'])) := by
  unfold writeBox boxBodies
  by_cases h : s.isPeriodic = true
  · rw [if_pos h, if_pos h, writeBoxVector_eq hN, writeBoxVector_eq hN, writeBoxVector_eq hN]
    show some _ = _
    simp
  · rw [if_neg h, if_neg h]
    rfl

theorem writeAtom_eq {N : NumberText} (hN : N.Sane) {m : EMap} (ref : Bool) {a : Atom} {w : Str}
    (hw : w ∈ knownElements) (hs : m.symbol a.element = .ok w) :
    writeAtom N m ref a = some (atomBody N ref w a ++ ['\n']) := by
  obtain ⟨h1, h2, h3, h4, h5⟩ := known_sane w hw
  unfold writeAtom
  rw [hs]
  show strpr (fieldLine keyAtom [N.field (a.r 0), N.field (a.r 1), N.field (a.r 2),
      padLeft 2 (cString w), N.field (a.fileCharge ref), N.field 0, N.field (a.fileForce ref 0),
      N.field (a.fileForce ref 1), N.field (a.fileForce ref 2)]) = _
  rw [cString_id h4, fieldLine_atom]
  unfold strpr
  rw [if_pos]
  rw [atomBody, List.length_append, List.length_append, length_spaced]
  simp only [List.map_cons, List.map_nil, List.sum_cons, List.sum_nil, numField_length hN,
    List.length_cons, List.length_nil]
  have : keyAtom.length = 4 := by decide
  omega

theorem mapM_eq_map {α β : Type} (f : α → Option β) (g : α → β) (l : List α)
    (h : ∀ a ∈ l, f a = some (g a)) : l.mapM f = some (l.map g) := by
  induction l with
  | nil => rfl
  | cons a l ih =>
    rw [List.mapM_cons, h a (by simp), ih fun b hb => h b (by simp [hb])]
    rfl

theorem writeToFile_eq {N : NumberText} (hN : N.Sane) {m : EMap} (s : Structure) (ref : Bool)
    {w : ℕ → Str} (hc : Commentary s.comment)
    (hw : ∀ a ∈ s.atoms, w a.element ∈ knownElements ∧ m.symbol a.element = .ok (w a.element)) :
    s.writeToFile N m ref = some ((fileLines N w ref s).flatMap (· ++ ['\n'])) := by
  have h1 : strpr (fieldLine keyComment [cString s.comment]) =
      some (commentBody s.comment ++ ['\n']) := by
    rw [cString_id hc.2.1, fieldLine_comment]
    unfold strpr
    rw [if_pos]
    have : keyComment.length = 7 := by decide
    have := hc.2.2
    simp only [commentBody, List.length_append, List.length_cons, List.length_nil]
    omega
  have h2 : s.atoms.mapM (writeAtom N m ref) =
      some (s.atoms.map fun a => atomBody N ref (w a.element) a ++ ['\n']) :=
    mapM_eq_map _ _ _ fun a ha => writeAtom_eq hN ref (hw a ha).1 (hw a ha).2
  unfold Structure.writeToFile
  rw [h1, writeBox_eq hN, h2]
  show (strpr (fieldLine keyEnergy [N.field (s.fileEnergy ref)])).bind (fun e =>
    (strpr (fieldLine keyCharge [N.field (s.fileCharge ref)])).bind fun q => some _) = _
  rw [strpr_num hN _ (by decide), strpr_num hN _ (by decide)]
  show some _ = some _
  refine congrArg some ?_
  have e3 : (s.atoms.map fun a => atomBody N ref (w a.element) a ++ ['\n']).flatten =
      (s.atoms.map fun a => atomBody N ref (w a.element) a).flatMap (· ++ ['\n']) := by
    rw [List.flatMap_def, List.map_map]
    rfl
  rw [e3]
  simp only [fileLines, List.flatMap_cons, List.flatMap_append, List.flatMap_nil, List.append_assoc,
    List.append_nil]

theorem no_newline_spaced (fs : List (ℕ × Str)) (h : ∀ f ∈ fs, '\n' ∉ f.2) :
    '\n' ∉ spaced fs := by
  unfold spaced
  rw [List.mem_flatMap]
  rintro ⟨f, hf, hm⟩
  rcases List.mem_cons.1 hm with h1 | h1
  · exact absurd h1 (by decide)
  rcases List.mem_append.1 h1 with h2 | h2
  · exact absurd (List.eq_of_mem_replicate h2) (by decide)
  · exact h f hf h2

theorem no_newline_body {key : Str} (hk : '\n' ∉ key) {fs : List (ℕ × Str)}
    (h : ∀ f ∈ fs, '\n' ∉ f.2) : '\n' ∉ key ++ spaced fs := by
  rw [List.mem_append]
  exact fun hm => hm.elim hk (no_newline_spaced fs h)

theorem no_newline_fileLines {N : NumberText} (hN : N.Sane) {w : ℕ → Str} (ref : Bool)
    (s : Structure) (hc : '\n' ∉ s.comment) (hw : ∀ a ∈ s.atoms, w a.element ∈ knownElements) :
    ∀ l ∈ fileLines N w ref s, '\n' ∉ l := by
  have hn : ∀ x, '\n' ∉ (numField N x).2 := fun x => (hN x).2.1
  intro l hl
  unfold fileLines at hl
  rw [List.mem_cons, List.mem_cons, List.mem_append, List.mem_append] at hl
  rcases hl with rfl | rfl | hl | hl | hl
  · decide
  · unfold commentBody
    rw [List.mem_append, List.mem_cons]
    rintro (h | h | h)
    · exact absurd h (by decide)
    · exact absurd h (by decide)
    · exact hc h
  · unfold boxBodies at hl
    by_cases hp : s.isPeriodic = true
    · rw [if_pos hp] at hl
      simp only [List.mem_cons, List.not_mem_nil, or_false] at hl
      rcases hl with rfl | rfl | rfl <;>
      · refine no_newline_body (by decide) ?_
        intro f hf
        simp only [List.mem_cons, List.not_mem_nil, or_false] at hf
        rcases hf with rfl | rfl | rfl <;> exact hn _
    · rw [if_neg hp] at hl
      cases hl
  · obtain ⟨a, ha, rfl⟩ := List.mem_map.1 hl
    refine no_newline_body (by decide) ?_
    intro f hf
    simp only [List.mem_cons, List.not_mem_nil, or_false] at hf
    have h3 := (known_sane _ (hw a ha)).2.2.1
    rcases hf with rfl | rfl | rfl | rfl | rfl | rfl | rfl | rfl | rfl <;>
      first | exact hn _ | exact h3
  · simp only [List.mem_cons, List.not_mem_nil, or_false] at hl
    rcases hl with rfl | rfl | rfl
    · refine no_newline_body (by decide) ?_
      intro f hf
      simp only [List.mem_cons, List.not_mem_nil, or_false] at hf
      rcases hf with rfl
      exact hn _
    · refine no_newline_body (by decide) ?_
      intro f hf
      simp only [List.mem_cons, List.not_mem_nil, or_false] at hf
      rcases hf with rfl
      exact hn _
    · decide

/-! ### Reading the lines -/

theorem isWord_key {w : Str} (h : w ≠ []) (hb : ∀ c ∈ w, isBlank c = false) : IsWord w := ⟨h, hb⟩

theorem readLoop_cons (N : NumberText) (m : EMap) (line : Str) (lines : List Str) (s : Structure)
    (n : ℕ) (key : Str) (ws : List Str) (hw : split (reduce line) = key :: ws) :
    readLoop N m (line :: lines) s n =
      if key = keyBegin then (readBegin s ws).bind fun s => readLoop N m lines s n
      else if key = keyComment then (readComment s line).bind fun s => readLoop N m lines s n
      else if key = keyLattice then
        (readLattice N s n (key :: ws)).bind fun r => readLoop N m lines r.1 r.2
      else if key = keyAtom then
        (readAtom N m s (key :: ws)).bind fun s => readLoop N m lines s n
      else if key = keyEnergy then
        (key :: ws)[1]?.bind fun w => readLoop N m lines { s with energyRef := N.atof w } n
      else if key = keyCharge then
        (key :: ws)[1]?.bind fun w => readLoop N m lines { s with chargeRef := N.atof w } n
      else if key = keyEnd then checkEnd s n
      else none := by
  rw [readLoop, hw]
  rfl

theorem readLoop_begin (N : NumberText) (m : EMap) (lines : List Str) (s : Structure) (n : ℕ) :
    readLoop N m (keyBegin :: lines) s n = readLoop N m lines s n := by
  have hw : split (reduce keyBegin) = [keyBegin] := by decide +kernel
  rw [readLoop, hw]
  rfl

theorem readLoop_comment (N : NumberText) (m : EMap) (lines : List Str) (s : Structure) (n : ℕ)
    (c : Str) : readLoop N m (commentBody c :: lines) s n =
      readLoop N m lines { s with comment := c } n := by
  obtain ⟨ts, hw⟩ := words_comment keyComment c ⟨by decide, by decide⟩
  change split (reduce (commentBody c)) = _ at hw
  have hr : readComment s (commentBody c) = some { s with comment := c } := by
    unfold readComment commentBody
    rw [findText_prefix, Option.map_some, eraseText_prefix]
  rw [readLoop_cons _ _ _ _ _ _ _ _ (hw),
    if_neg (by decide), if_pos rfl, hr]
  rfl

theorem readLoop_lattice {N : NumberText} (hN : N.Sane) (m : EMap) (lines : List Str)
    (s : Structure) (n : ℕ) (v : Vec3) : readLoop N m (boxBody N v :: lines) s n =
      (readLattice N s n [keyLattice, N.print (v 0), N.print (v 1), N.print (v 2)]).bind fun r =>
        readLoop N m lines r.1 r.2 := by
  have hw : split (reduce (boxBody N v)) =
      [keyLattice, N.print (v 0), N.print (v 1), N.print (v 2)] := by
    refine words_spaced keyLattice ⟨by decide, by decide⟩ _ ?_
    intro f hf
    simp only [List.mem_cons, List.not_mem_nil, or_false] at hf
    rcases hf with rfl | rfl | rfl <;> exact (hN _).1
  rw [readLoop_cons _ _ _ _ _ _ _ _ (hw),
    if_neg (by decide), if_neg (by decide), if_pos rfl]

theorem readLoop_atom {N : NumberText} (hN : N.Sane) (m : EMap) (lines : List Str)
    (s : Structure) (n : ℕ) (ref : Bool) (w : Str) (hw : w ∈ knownElements) (a : Atom) :
    readLoop N m (atomBody N ref w a :: lines) s n =
      (readAtom N m s [keyAtom, N.print (a.r 0), N.print (a.r 1), N.print (a.r 2), w,
        N.print (a.fileCharge ref), N.print 0, N.print (a.fileForce ref 0),
        N.print (a.fileForce ref 1), N.print (a.fileForce ref 2)]).bind fun s =>
          readLoop N m lines s n := by
  have hs : split (reduce (atomBody N ref w a)) =
      [keyAtom, N.print (a.r 0), N.print (a.r 1), N.print (a.r 2), w,
        N.print (a.fileCharge ref), N.print 0, N.print (a.fileForce ref 0),
        N.print (a.fileForce ref 1), N.print (a.fileForce ref 2)] := by
    refine words_spaced keyAtom ⟨by decide, by decide⟩ _ ?_
    intro f hf
    simp only [List.mem_cons, List.not_mem_nil, or_false] at hf
    have h3 := known_sane w hw
    rcases hf with rfl | rfl | rfl | rfl | rfl | rfl | rfl | rfl | rfl <;>
      first | exact (hN _).1 | exact ⟨h3.1, h3.2.1⟩
  rw [readLoop_cons _ _ _ _ _ _ _ _ (hs),
    if_neg (by decide), if_neg (by decide), if_neg (by decide), if_pos rfl]

theorem words_num {N : NumberText} (hN : N.Sane) (key : Str) (hk : IsWord key) (x : ℝ) :
    split (reduce (numBody N key x)) = [key, N.print x] := by
  refine words_spaced key hk _ ?_
  intro f hf
  simp only [List.mem_cons, List.not_mem_nil, or_false] at hf
  rcases hf with rfl
  exact (hN _).1

theorem readLoop_energy {N : NumberText} (hN : N.Sane) (m : EMap) (lines : List Str)
    (s : Structure) (n : ℕ) (x : ℝ) : readLoop N m (numBody N keyEnergy x :: lines) s n =
      readLoop N m lines { s with energyRef := N.rounded x } n := by
  rw [readLoop_cons _ _ _ _ _ _ _ _ (words_num hN keyEnergy ⟨by decide, by decide⟩ x),
    if_neg (by decide), if_neg (by decide), if_neg (by decide), if_neg (by decide), if_pos rfl]
  rfl

theorem readLoop_charge {N : NumberText} (hN : N.Sane) (m : EMap) (lines : List Str)
    (s : Structure) (n : ℕ) (x : ℝ) : readLoop N m (numBody N keyCharge x :: lines) s n =
      readLoop N m lines { s with chargeRef := N.rounded x } n := by
  rw [readLoop_cons _ _ _ _ _ _ _ _ (words_num hN keyCharge ⟨by decide, by decide⟩ x),
    if_neg (by decide), if_neg (by decide), if_neg (by decide), if_neg (by decide),
    if_neg (by decide), if_pos rfl]
  rfl

theorem readLoop_end (N : NumberText) (m : EMap) (lines : List Str) (s : Structure) (n : ℕ) :
    readLoop N m (keyEnd :: lines) s n = checkEnd s n := by
  have hw : split (reduce keyEnd) = [keyEnd] := by decide +kernel
  rw [readLoop, hw]
  rfl

/-! ### The box -/

theorem vec_rounded (N : NumberText) (v : Vec3) :
    ![N.atof (N.print (v 0)), N.atof (N.print (v 1)), N.atof (N.print (v 2))] = N.roundedVec v := by
  funext c
  fin_cases c <;> rfl

/-- The structure with another box. -/
def Structure.withBox (s : Structure) (b : Fin 3 → Vec3) : Structure := { s with box := b }

theorem readLoop_box {N : NumberText} (hN : N.Sane) (m : EMap) (lines : List Str)
    (t s : Structure) : readLoop N m (boxBodies N s ++ lines) t 0 =
      if s.isPeriodic then readLoop N m lines (t.withBox (s.roundedBox N)).completeBox 3
      else readLoop N m lines t 0 := by
  unfold boxBodies
  by_cases hp : s.isPeriodic = true
  · rw [if_pos hp, if_pos hp]
    show readLoop N m (boxBody N (s.box 0) :: boxBody N (s.box 1) :: boxBody N (s.box 2) :: lines)
      t 0 = _
    rw [readLoop_lattice hN]
    show readLoop N m (boxBody N (s.box 1) :: boxBody N (s.box 2) :: lines)
      (t.withBox (Function.update t.box 0 ![N.atof (N.print (s.box 0 0)),
        N.atof (N.print (s.box 0 1)), N.atof (N.print (s.box 0 2))])) 1 = _
    rw [vec_rounded, readLoop_lattice hN]
    show readLoop N m (boxBody N (s.box 2) :: lines)
      (t.withBox (Function.update (Function.update t.box 0 (N.roundedVec (s.box 0))) 1
        ![N.atof (N.print (s.box 1 0)),
        N.atof (N.print (s.box 1 1)), N.atof (N.print (s.box 1 2))])) 2 = _
    rw [vec_rounded, readLoop_lattice hN]
    show readLoop N m lines (t.withBox (Function.update (Function.update (Function.update t.box 0
      (N.roundedVec (s.box 0))) 1 (N.roundedVec (s.box 1))) 2
        ![N.atof (N.print (s.box 2 0)),
        N.atof (N.print (s.box 2 1)), N.atof (N.print (s.box 2 2))])).completeBox 3 = _
    rw [vec_rounded]
    have e : Function.update (Function.update (Function.update t.box 0
        (N.roundedVec (s.box 0))) 1 (N.roundedVec (s.box 1))) 2 (N.roundedVec (s.box 2)) =
        s.roundedBox N := by
      funext k
      fin_cases k <;> rfl
    rw [e]
  · rw [if_neg hp, if_neg hp]
    rfl

/-! ### The atoms -/

/-- An atom after reading. -/
noncomputable def fileAtom (N : NumberText) (ref : Bool) (k numElements i : ℕ) (a : Atom) : Atom :=
  { Atom.init with
    index := i
    indexStructure := k
    tag := i
    r := N.roundedVec a.r
    element := a.element
    chargeRef := N.rounded (a.fileCharge ref)
    fRef := N.roundedVec (a.fileForce ref)
    numNeighborsPerElement := List.replicate numElements 0 }

/-- The structure after reading some atoms. -/
noncomputable def afterAtoms (N : NumberText) (ref : Bool) (base : Structure) (l : List Atom) :
    Structure :=
  { base with
    atoms := l.mapIdx fun i a => fileAtom N ref base.index base.numElements i a
    numAtoms := l.length
    numAtomsPerElement :=
      (List.range base.numElements).map fun e => l.countP (fun a => a.element = e) }

theorem counts_set (n : ℕ) (l : List Atom) (a : Atom) (h : a.element < n) :
    ((List.range n).map fun e => l.countP (fun a => a.element = e)).set a.element
      (l.countP (fun b => b.element = a.element) + 1) =
      (List.range n).map fun e => (l ++ [a]).countP (fun a => a.element = e) := by
  apply List.ext_getElem?
  intro j
  rw [List.getElem?_set]
  by_cases hj : a.element = j
  · subst hj
    simp [h, List.countP_append, List.countP_cons]
  · rw [if_neg hj]
    by_cases hn : j < n
    · simp [hn, List.countP_append, List.countP_cons, hj]
    · simp [hn]

theorem readAtom_eq (N : NumberText) (m : EMap) (ref : Bool) (base : Structure) (l : List Atom)
    (a : Atom) (w : Str) (hi : m.index w = .ok a.element) (he : a.element < base.numElements) :
    readAtom N m (afterAtoms N ref base l) [keyAtom, N.print (a.r 0), N.print (a.r 1),
      N.print (a.r 2), w, N.print (a.fileCharge ref), N.print 0, N.print (a.fileForce ref 0),
      N.print (a.fileForce ref 1), N.print (a.fileForce ref 2)] =
      some (afterAtoms N ref base (l ++ [a])) := by
  have hc : (afterAtoms N ref base l).numAtomsPerElement[a.element]? =
      some (l.countP (fun b => b.element = a.element)) := by
    simp [afterAtoms, he]
  unfold readAtom
  show ((m.index w).toOption.bind fun e => ((afterAtoms N ref base l).numAtomsPerElement[e]?).bind
    fun c => some _) = _
  rw [hi]
  show (((afterAtoms N ref base l).numAtomsPerElement[a.element]?).bind fun c => some _) = _
  rw [hc]
  show some _ = some _
  refine congrArg some ?_
  rw [vec_rounded, vec_rounded]
  unfold afterAtoms
  dsimp only
  rw [counts_set _ _ _ he, List.mapIdx_append]
  simp only [List.mapIdx_cons, List.mapIdx_nil, List.length_append, List.length_cons,
    List.length_nil, Nat.zero_add]
  rfl

theorem readLoop_atoms {N : NumberText} (hN : N.Sane) (m : EMap) (lines : List Str) (ref : Bool)
    (n : ℕ) (w : ℕ → Str) (base : Structure) (l : List Atom)
    (h : ∀ a ∈ l, w a.element ∈ knownElements ∧ m.index (w a.element) = .ok a.element ∧
      a.element < base.numElements) : ∀ done,
    readLoop N m (l.map (fun a => atomBody N ref (w a.element) a) ++ lines)
      (afterAtoms N ref base done) n =
      readLoop N m lines (afterAtoms N ref base (done ++ l)) n := by
  induction l with
  | nil => intro done; rw [List.append_nil]; rfl
  | cons a l ih =>
    intro done
    obtain ⟨h1, h2, h3⟩ := h a (by simp)
    rw [List.map_cons, List.cons_append, readLoop_atom hN m _ _ _ ref _ h1,
      readAtom_eq N m ref base done a _ h2 h3]
    show readLoop N m _ (afterAtoms N ref base (done ++ [a])) n = _
    rw [ih (fun b hb => h b (by simp [hb])), List.append_assoc]
    rfl

/-! ### Everything -/

theorem linesToEnd_append (rest : List Str) : ∀ L : List Str,
    (∀ l ∈ L, ∃ key ws, split (reduce l) = key :: ws ∧ key ≠ keyEnd) →
    linesToEnd (L ++ keyEnd :: rest) = some (L ++ [keyEnd], rest) := by
  intro L
  induction L with
  | nil =>
    intro _
    have hw : split (reduce keyEnd) = [keyEnd] := by decide +kernel
    rw [List.nil_append, linesToEnd, hw]
    rfl
  | cons l L ih =>
    intro h
    obtain ⟨key, ws, h1, h2⟩ := h l (by simp)
    rw [List.cons_append, linesToEnd, h1]
    show (if key = keyEnd then _ else (linesToEnd (L ++ keyEnd :: rest)).bind fun r =>
      some (l :: r.1, r.2)) = some (l :: L ++ [keyEnd], rest)
    rw [if_neg h2, ih (fun b hb => h b (by simp [hb]))]
    rfl

/-- The lines between "begin" and "end". -/
def bodyLines (N : NumberText) (w : ℕ → Str) (ref : Bool) (s : Structure) : List Str :=
  commentBody s.comment :: (boxBodies N s ++
    (s.atoms.map (fun a => atomBody N ref (w a.element) a) ++
      [numBody N keyEnergy (s.fileEnergy ref), numBody N keyCharge (s.fileCharge ref)]))

theorem fileLines_eq (N : NumberText) (w : ℕ → Str) (ref : Bool) (s : Structure) :
    fileLines N w ref s = keyBegin :: (bodyLines N w ref s ++ [keyEnd]) := by
  simp [fileLines, bodyLines]

theorem words_box {N : NumberText} (hN : N.Sane) (v : Vec3) : split (reduce (boxBody N v)) =
    [keyLattice, N.print (v 0), N.print (v 1), N.print (v 2)] := by
  refine words_spaced keyLattice ⟨by decide, by decide⟩ _ ?_
  intro f hf
  simp only [List.mem_cons, List.not_mem_nil, or_false] at hf
  rcases hf with rfl | rfl | rfl <;> exact (hN _).1

theorem words_atom {N : NumberText} (hN : N.Sane) (ref : Bool) (w : Str) (hw : w ∈ knownElements)
    (a : Atom) : ∃ ws, split (reduce (atomBody N ref w a)) = keyAtom :: ws := by
  refine ⟨_, words_spaced keyAtom ⟨by decide, by decide⟩ _ ?_⟩
  intro f hf
  simp only [List.mem_cons, List.not_mem_nil, or_false] at hf
  have h3 := known_sane w hw
  rcases hf with rfl | rfl | rfl | rfl | rfl | rfl | rfl | rfl | rfl <;>
    first | exact (hN _).1 | exact ⟨h3.1, h3.2.1⟩

theorem bodyLines_key {N : NumberText} (hN : N.Sane) {w : ℕ → Str} (ref : Bool) (s : Structure)
    (hw : ∀ a ∈ s.atoms, w a.element ∈ knownElements) :
    ∀ l ∈ bodyLines N w ref s, ∃ key ws, split (reduce l) = key :: ws ∧ key ≠ keyEnd := by
  intro l hl
  unfold bodyLines at hl
  rw [List.mem_cons, List.mem_append, List.mem_append] at hl
  rcases hl with rfl | hl | hl | hl
  · obtain ⟨ts, h⟩ := words_comment keyComment s.comment ⟨by decide, by decide⟩
    exact ⟨_, ts, h, by decide⟩
  · unfold boxBodies at hl
    by_cases hp : s.isPeriodic = true
    · rw [if_pos hp] at hl
      simp only [List.mem_cons, List.not_mem_nil, or_false] at hl
      rcases hl with rfl | rfl | rfl <;> exact ⟨_, _, words_box hN _, by decide⟩
    · rw [if_neg hp] at hl
      exact absurd hl List.not_mem_nil
  · obtain ⟨a, ha, rfl⟩ := List.mem_map.1 hl
    obtain ⟨ws, h⟩ := words_atom hN ref _ (hw a ha) a
    exact ⟨_, ws, h, by decide⟩
  · simp only [List.mem_cons, List.not_mem_nil, or_false] at hl
    rcases hl with rfl | rfl
    · exact ⟨_, _, words_num hN keyEnergy ⟨by decide, by decide⟩ _, by decide⟩
    · exact ⟨_, _, words_num hN keyCharge ⟨by decide, by decide⟩ _, by decide⟩

/-- The structure after comment and box. -/
noncomputable def fileBase (N : NumberText) (s t : Structure) : Structure :=
  if s.isPeriodic then (({ t with comment := s.comment } : Structure).withBox
    (s.roundedBox N)).completeBox else { t with comment := s.comment }

/-- The structure at "end". -/
noncomputable def fileEnd (N : NumberText) (ref : Bool) (s t : Structure) : Structure :=
  { afterAtoms N ref (fileBase N s t) s.atoms with
    energyRef := N.rounded (s.fileEnergy ref)
    chargeRef := N.rounded (s.fileCharge ref) }

theorem fileBase_fields (N : NumberText) (s t : Structure) :
    (fileBase N s t).numElements = t.numElements ∧ (fileBase N s t).index = t.index ∧
      (fileBase N s t).atoms = t.atoms ∧ (fileBase N s t).numAtoms = t.numAtoms ∧
      (fileBase N s t).numAtomsPerElement = t.numAtomsPerElement ∧
      (fileBase N s t).comment = s.comment ∧
      (fileBase N s t).numElementsPresent = t.numElementsPresent := by
  unfold fileBase
  by_cases hp : s.isPeriodic = true
  · rw [if_pos hp]
    exact ⟨rfl, rfl, rfl, rfl, rfl, rfl, rfl⟩
  · rw [if_neg hp]
    exact ⟨rfl, rfl, rfl, rfl, rfl, rfl, rfl⟩

theorem fileBase_periodic (N : NumberText) (s t : Structure) (hp : s.isPeriodic = true) :
    (fileBase N s t).isPeriodic = true ∧ (fileBase N s t).box = s.roundedBox N ∧
      (fileBase N s t).volume = |Matrix.det (Matrix.of (s.roundedBox N))| ∧
      (fileBase N s t).calculateInverseBox.invbox = (fileBase N s t).invbox := by
  unfold fileBase
  rw [if_pos hp]
  exact ⟨rfl, rfl, C23_volume _, rfl⟩

theorem afterAtoms_nil (N : NumberText) (ref : Bool) (t : Structure) (h1 : t.atoms = [])
    (h2 : t.numAtoms = 0) (h3 : t.numAtomsPerElement = List.replicate t.numElements 0) :
    afterAtoms N ref t [] = t := by
  have h4 : ((List.range t.numElements).map fun e : ℕ =>
      ([] : List Atom).countP (fun a => a.element = e)) = t.numAtomsPerElement := by
    rw [h3]
    simp [List.map_const']
  have h5 : (([] : List Atom).mapIdx fun i a => fileAtom N ref t.index t.numElements i a) =
      t.atoms := by rw [h1]; rfl
  unfold afterAtoms
  rw [h4, h5]
  show { t with numAtoms := 0 } = t
  rw [← h2]

theorem readLoop_file {N : NumberText} (hN : N.Sane) (m : EMap) (ref : Bool) {w : ℕ → Str}
    (s t : Structure) (h1 : t.atoms = []) (h2 : t.numAtoms = 0)
    (h3 : t.numAtomsPerElement = List.replicate t.numElements 0)
    (h : ∀ a ∈ s.atoms, w a.element ∈ knownElements ∧ m.index (w a.element) = .ok a.element ∧
      a.element < t.numElements) :
    readLoop N m (fileLines N w ref s) t 0 =
      checkEnd (fileEnd N ref s t) (if s.isPeriodic then 3 else 0) := by
  obtain ⟨b1, b2, b3, b4, b5, b6, b7⟩ := fileBase_fields N s t
  have key : ∀ n, readLoop N m (s.atoms.map (fun a => atomBody N ref (w a.element) a) ++
      [numBody N keyEnergy (s.fileEnergy ref), numBody N keyCharge (s.fileCharge ref), keyEnd])
      (fileBase N s t) n = checkEnd (fileEnd N ref s t) n := by
    intro n
    have e : fileBase N s t = afterAtoms N ref (fileBase N s t) [] :=
      (afterAtoms_nil N ref _ (by rw [b3, h1]) (by rw [b4, h2]) (by rw [b5, h3, b1])).symm
    conv_lhs => rw [e]
    rw [readLoop_atoms hN m _ ref n w _ s.atoms (by rw [b1]; exact h), List.nil_append,
      readLoop_energy hN, readLoop_charge hN, readLoop_end]
    rfl
  unfold fileLines
  rw [readLoop_begin, readLoop_comment, readLoop_box hN]
  by_cases hp : s.isPeriodic = true
  · rw [if_pos hp, if_pos hp, ← key 3]
    unfold fileBase
    rw [if_pos hp]
  · rw [if_neg hp, if_neg hp, ← key 0]
    unfold fileBase
    rw [if_neg hp]

theorem checkEnd_ok (s : Structure) (b : Bool)
    (h : s.isPeriodic = true → |s.chargeRef| ≤ 10 * doubleEpsilon) :
    checkEnd s (if b then 3 else 0) = some s := by
  have h0 : (if b = true then 3 else 0) = 0 ∨ (if b = true then 3 else 0) = 3 := by
    cases b
    · exact Or.inl rfl
    · exact Or.inr rfl
  unfold checkEnd
  rw [if_neg (not_not.2 h0), if_neg fun hc => absurd (h hc.1) (not_le.2 hc.2)]

theorem countPresent_aux (L : List ℕ) (c : List ℕ) (hL : ∀ i ∈ L, i < c.length) :
    ∀ s : Structure, s.numAtomsPerElement = c →
    L.foldlM (fun (s : Structure) i => (do
      let c ← s.numAtomsPerElement[i]?
      some (if 0 < c then { s with numElementsPresent := s.numElementsPresent + 1 } else s)
        : Option Structure)) s =
      some { s with numElementsPresent :=
        s.numElementsPresent + L.countP fun i => decide (0 < c.getD i 0) } := by
  induction L with
  | nil => intro s _; rfl
  | cons i L ih =>
    intro s hs
    have hi : i < c.length := hL i (by simp)
    have e : s.numAtomsPerElement[i]? = some (c.getD i 0) := by
      rw [hs, List.getD_eq_getElem?_getD, List.getElem?_eq_getElem hi]
      rfl
    rw [List.foldlM_cons, e]
    show (L.foldlM _ (if 0 < c.getD i 0 then
      { s with numElementsPresent := s.numElementsPresent + 1 } else s)) = _
    rw [List.countP_cons]
    by_cases hc : 0 < c.getD i 0
    · rw [if_pos hc, if_pos (decide_eq_true hc)]
      refine (ih (fun j hj => hL j (by simp [hj]))
        { s with numElementsPresent := s.numElementsPresent + 1 } hs).trans (congrArg some ?_)
      dsimp only
      rw [Nat.add_right_comm, Nat.add_assoc s.numElementsPresent]
    · rw [if_neg hc, if_neg (by simpa using hc)]
      exact ih (fun j hj => hL j (by simp [hj])) s hs

theorem countPresent_eq (s : Structure) (h : s.numElements ≤ s.numAtomsPerElement.length) :
    s.countPresent = some { s with numElementsPresent := s.numElementsPresent +
      (List.range s.numElements).countP fun i => decide (0 < s.numAtomsPerElement.getD i 0) } :=
  countPresent_aux _ _ (fun _ hi => lt_of_lt_of_le (List.mem_range.1 hi) h) s rfl

/-- The structure after counting elements. -/
noncomputable def fileCounted (N : NumberText) (ref : Bool) (s t : Structure) : Structure :=
  { fileEnd N ref s t with
    numElementsPresent := t.numElementsPresent +
      (List.range t.numElements).countP fun e => s.atoms.any (fun a => a.element = e) }

theorem fileEnd_count (N : NumberText) (ref : Bool) (s t : Structure) :
    (fileEnd N ref s t).countPresent = some (fileCounted N ref s t) := by
  obtain ⟨b1, b2, b3, b4, b5, b6, b7⟩ := fileBase_fields N s t
  have e1 : (fileEnd N ref s t).numElements = t.numElements := b1
  have e2 : (fileEnd N ref s t).numElementsPresent = t.numElementsPresent := b7
  have e3 : (fileEnd N ref s t).numAtomsPerElement = (List.range t.numElements).map
      fun e => s.atoms.countP (fun a => a.element = e) := by
    rw [← b1]
    rfl
  have e4 : ((List.range t.numElements).countP fun i => decide (0 < ((List.range t.numElements).map
      fun e => s.atoms.countP (fun a => a.element = e)).getD i 0)) =
      (List.range t.numElements).countP fun e => s.atoms.any (fun a => a.element = e) := by
    refine List.countP_congr fun i hi => ?_
    have hn := List.mem_range.1 hi
    simp [hn, List.countP_pos_iff]
  have e5 : (fileEnd N ref s t).numElementsPresent + ((List.range
      (fileEnd N ref s t).numElements).countP fun i => decide (0 <
        (fileEnd N ref s t).numAtomsPerElement.getD i 0)) = t.numElementsPresent +
      (List.range t.numElements).countP fun e => s.atoms.any (fun a => a.element = e) := by
    rw [e1, e2, e3, e4]
  exact (countPresent_eq _ (by rw [e1, e3]; simp)).trans (congrArg (fun n => some
    { fileEnd N ref s t with numElementsPresent := n }) e5)

theorem readFromFile_eq {N : NumberText} (hN : N.Sane) (m : EMap) (ref : Bool) {w : ℕ → Str}
    (s t : Structure) (h1 : t.atoms = []) (h2 : t.numAtoms = 0)
    (h3 : t.numAtomsPerElement = List.replicate t.numElements 0)
    (h : ∀ a ∈ s.atoms, w a.element ∈ knownElements ∧ m.index (w a.element) = .ok a.element ∧
      a.element < t.numElements) (rest : List Str) :
    t.readFromFile N m (fileLines N w ref s ++ rest) =
      (checkEnd (fileEnd N ref s t) (if s.isPeriodic then 3 else 0)).bind fun u =>
        u.countPresent.bind fun u => u.remapIfPeriodic.map fun u => (u, rest) := by
  have hw : split (reduce keyBegin) = [keyBegin] := by decide +kernel
  have hl : linesToEnd (fileLines N w ref s ++ rest).tail =
      some (bodyLines N w ref s ++ [keyEnd], rest) := by
    rw [fileLines_eq, List.cons_append, List.tail_cons, List.append_assoc]
    exact linesToEnd_append rest _ (bodyLines_key hN ref s fun a ha => (h a ha).1)
  have hf : t.readFromLines N m (fileLines N w ref s) =
      (checkEnd (fileEnd N ref s t) (if s.isPeriodic then 3 else 0)).bind fun u =>
        u.countPresent.bind fun u => u.remapIfPeriodic := by
    unfold Structure.readFromLines
    show ((split (reduce keyBegin)).head?.bind fun key => if key ≠ keyBegin then none else
      (readLoop N m (fileLines N w ref s) t 0).bind fun u =>
        u.countPresent.bind fun u => u.remapIfPeriodic) = _
    rw [hw, readLoop_file hN m ref s t h1 h2 h3 h]
    rw [List.head?_cons, Option.bind_some]
    exact if_neg (not_not.2 rfl)
  unfold Structure.readFromFile
  show ((split (reduce keyBegin)).head?.bind fun key => if key ≠ keyBegin then none else
    (linesToEnd (fileLines N w ref s ++ rest).tail).bind fun r =>
      (t.readFromLines N m (keyBegin :: r.1)).bind fun u => some (u, r.2)) = _
  rw [hw, hl]
  show (if keyBegin ≠ keyBegin then none else
    (t.readFromLines N m (keyBegin :: (bodyLines N w ref s ++ [keyEnd]))).bind fun u =>
      some (u, rest)) = _
  rw [if_neg (by simp), ← fileLines_eq, hf]
  cases checkEnd (fileEnd N ref s t) (if s.isPeriodic then 3 else 0) with
  | none => rfl
  | some u =>
    show (u.countPresent.bind fun u => u.remapIfPeriodic).bind _ = u.countPresent.bind _
    cases u.countPresent with
    | none => rfl
    | some v =>
      show v.remapIfPeriodic.bind _ = v.remapIfPeriodic.map _
      cases v.remapIfPeriodic <;> rfl

theorem fileCounted_atom (N : NumberText) (ref : Bool) (s t : Structure) (i : ℕ) :
    (fileCounted N ref s t).atoms[i]? =
      (s.atoms[i]?).map (fileAtom N ref t.index t.numElements i) := by
  obtain ⟨b1, b2, b3, b4, b5, b6, b7⟩ := fileBase_fields N s t
  show (s.atoms.mapIdx fun i a => fileAtom N ref (fileBase N s t).index
    (fileBase N s t).numElements i a)[i]? = _
  rw [List.getElem?_mapIdx, b1, b2]

/-- Reading in a structure without box. -/
theorem fileCopy_free (N : NumberText) (m : EMap) (ref : Bool) (k : ℕ) (s : Structure)
    (he : ∀ a ∈ s.atoms, a.element < m.size) (hp : s.isPeriodic = false) :
    s.FileCopy N m ref k (fileCounted N ref s (Structure.forReading m k)) := by
  have hb : fileBase N s (Structure.forReading m k) =
      { Structure.forReading m k with comment := s.comment } := by
    unfold fileBase
    rw [if_neg (by rw [hp]; decide)]
  have hper : (fileCounted N ref s (Structure.forReading m k)).isPeriodic = false := by
    show (fileBase N s (Structure.forReading m k)).isPeriodic = false
    rw [hb]
    rfl
  have hne : (fileCounted N ref s (Structure.forReading m k)).numElements = m.size := by
    show (fileBase N s (Structure.forReading m k)).numElements = m.size
    rw [hb]
    rfl
  obtain ⟨b1, b2, b3, b4, b5, b6, b7⟩ := fileBase_fields N s (Structure.forReading m k)
  refine ⟨b6, by rw [hper, hp], fun h => absurd h (by rw [hp]; decide),
    fun h => absurd h (by rw [hp]; decide), rfl, rfl, rfl, ?_, ?_, ?_, ?_, ?_, ?_⟩
  · show (s.atoms.mapIdx _).length = _
    rw [List.length_mapIdx]
  · intro i a b ha hb'
    rw [fileCounted_atom, ha] at hb'
    obtain rfl : _ = b := Option.some.inj hb'
    exact ⟨rfl, rfl, rfl, rfl, rfl, rfl, fun _ => rfl, fun h => absurd h (by rw [hp]; decide),
      fun h => absurd h (by rw [hp]; decide)⟩
  · show ((List.range (fileBase N s (Structure.forReading m k)).numElements).map fun e =>
      s.atoms.countP (fun a => a.element = e)) = _
    rw [b1]
    rfl
  · show 0 + (List.range m.size).countP _ = _
    rw [Nat.zero_add]
  · intro b hb'
    obtain ⟨i, hi⟩ := List.mem_iff_getElem?.1 hb'
    rw [fileCounted_atom] at hi
    obtain ⟨a, ha, rfl⟩ := Option.map_eq_some_iff.1 hi
    rw [hne]
    exact ⟨⟨rfl, rfl, rfl, rfl, rfl, rfl⟩, he a (List.mem_of_getElem? ha)⟩
  · intro h
    rw [hper] at h
    exact absurd h (by decide)

/-- Reading in a periodic structure. -/
theorem fileCopy_periodic (N : NumberText) (m : EMap) (ref : Bool) (k : ℕ) (s : Structure)
    (he : ∀ a ∈ s.atoms, a.element < m.size) (hp : s.isPeriodic = true)
    (hbox : NonSingular (s.roundedBox N))
    (hnear : ∀ a ∈ s.atoms, ∃ f, N.roundedVec a.r = cartesian (s.roundedBox N) f ∧
      ∀ k, -2147483649 < f k ∧ f k < 2147483648) :
    ∃ u, (fileCounted N ref s (Structure.forReading m k)).remap = some u ∧
      s.FileCopy N m ref k u := by
  obtain ⟨c1, c2, c3, c4⟩ := fileBase_periodic N s (Structure.forReading m k) hp
  obtain ⟨b1, b2, b3, b4, b5, b6, b7⟩ := fileBase_fields N s (Structure.forReading m k)
  have hat := fileCounted_atom N ref s (Structure.forReading m k)
  set v := fileCounted N ref s (Structure.forReading m k) with hv
  have v1 : v.box = s.roundedBox N := c2
  have v2 : v.calculateInverseBox = v := by
    have e : v.calculateInverseBox.invbox = v.invbox := c4
    show { v with invbox := v.calculateInverseBox.invbox } = v
    rw [e]
  have hns : NonSingular v.box := by rw [v1]; exact hbox
  have hlen : v.atoms.length = s.atoms.length := by
    show (s.atoms.mapIdx _).length = _
    rw [List.length_mapIdx]
  obtain ⟨u, hu⟩ := C24_defined v hns (by
    intro b hb
    obtain ⟨i, hi⟩ := List.mem_iff_getElem?.1 hb
    rw [hat] at hi
    obtain ⟨a, ha, rfl⟩ := Option.map_eq_some_iff.1 hi
    rw [v1]
    exact hnear a (List.mem_of_getElem? ha))
  obtain ⟨r1, r2⟩ := C24_remap v u hns hu
  have hu' := hu
  rw [v2] at hu'
  refine ⟨u, hu', ?_⟩
  have hatoms : ∃ l, u = { v with atoms := l } := by
    unfold Structure.remap at hu'
    obtain ⟨l, -, rfl⟩ := Option.map_eq_some_iff.1 hu'
    exact ⟨l, rfl⟩
  have hinside : ∀ (i : ℕ) (b b' : Atom), v.atoms[i]? = some b → u.atoms[i]? = some b' →
      InBox v.box b.r → b'.r = b.r := by
    intro i b b' hb hb' hin
    unfold Structure.remap at hu
    obtain ⟨l, hl, rfl⟩ := Option.map_eq_some_iff.1 hu
    obtain ⟨-, hm⟩ := mapM_some hl
    obtain ⟨b'', g1, g2⟩ := hm i b hb
    rw [remapPosition_id v hns hin] at g2
    obtain rfl := Option.some.inj g2
    obtain rfl := Option.some.inj (g1.symm.trans hb')
    rfl
  have hcopy : ∀ (i : ℕ) (a b : Atom), s.atoms[i]? = some a → u.atoms[i]? = some b →
      ∃ n, InBox v.box b.r ∧ b.r = N.roundedVec a.r + shift v.box n ∧
        b = { fileAtom N ref k m.size i a with r := b.r } := by
    intro i a b ha hb
    have hvi : v.atoms[i]? = some (fileAtom N ref k m.size i a) := by
      rw [hat, ha]
      rfl
    obtain ⟨b', n, g1, g2, g3, g4⟩ := r2 i _ hvi
    obtain rfl := Option.some.inj (g1.symm.trans hb)
    exact ⟨n, g2, g3, g4⟩
  obtain ⟨l, hl⟩ := hatoms
  have u1 : u.box = s.roundedBox N := by rw [hl]; exact v1
  have u2 : u.numElements = m.size := by rw [hl]; exact b1
  have u3 : u.atoms.length = s.atoms.length := r1.trans hlen
  have hall : ∀ b ∈ u.atoms, ∃ (i : ℕ) (a : Atom), s.atoms[i]? = some a ∧ u.atoms[i]? = some b := by
    intro b hb
    obtain ⟨i, hi⟩ := List.mem_iff_getElem?.1 hb
    have hlt : i < s.atoms.length := by
      rw [← u3]
      exact (List.getElem?_eq_some_iff.1 hi).1
    exact ⟨i, s.atoms[i], List.getElem?_eq_getElem hlt, hi⟩
  refine ⟨?_, ?_, fun _ => u1, ?_, ?_, ?_, ?_, u3, ?_, ?_, ?_, ?_, ?_⟩
  · rw [hl]; exact b6
  · rw [hl, hp]; exact c1
  · intro _
    rw [u1, hl]; exact c3
  · rw [hl]; rfl
  · rw [hl]; rfl
  · rw [hl]; rfl
  · intro i a b ha hb
    obtain ⟨n, g1, g2, g3⟩ := hcopy i a b ha hb
    rw [v1] at g1 g2
    refine ⟨by rw [g3]; rfl, by rw [g3]; rfl, by rw [g3]; rfl, by rw [g3]; rfl, by rw [g3]; rfl,
      by rw [g3]; rfl, fun h => absurd h (by rw [hp]; decide), fun _ => ⟨g1, n, g2⟩, fun _ hin => ?_⟩
    have hvi : v.atoms[i]? = some (fileAtom N ref k m.size i a) := by
      rw [hat, ha]
      rfl
    exact hinside i _ b hvi hb (by rw [v1]; exact hin)
  · rw [hl]
    show ((List.range (fileBase N s (Structure.forReading m k)).numElements).map fun e =>
      s.atoms.countP (fun a => a.element = e)) = _
    rw [b1]
    rfl
  · rw [hl]
    show 0 + (List.range m.size).countP _ = _
    rw [Nat.zero_add]
  · intro b hb
    obtain ⟨i, a, ha, hb'⟩ := hall b hb
    obtain ⟨n, -, -, g3⟩ := hcopy i a b ha hb'
    rw [u2, g3]
    exact ⟨⟨rfl, rfl, rfl, rfl, rfl, rfl⟩, he a (List.mem_of_getElem? ha)⟩
  · intro _
    rw [u1]
    refine ⟨hbox, fun b hb => ?_⟩
    obtain ⟨i, a, ha, hb'⟩ := hall b hb
    obtain ⟨n, g1, -, -⟩ := hcopy i a b ha hb'
    rw [← v1]
    exact g1

end N2P2
