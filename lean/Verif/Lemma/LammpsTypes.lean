import Verif.Spec.LammpsTypes
import Verif.Lemma.ScalingFile
import Verif.Props.ElementMap

namespace N2P2

/-! ### Text -/

theorem filter_dropWhile_blank (s : Str) :
    (s.dropWhile isBlank).filter (fun c => !isBlank c) = s.filter fun c => !isBlank c := by
  induction s with
  | nil => rfl
  | cons c t ih =>
    rw [List.dropWhile_cons]
    by_cases h : isBlank c = true
    · rw [if_pos h, ih, List.filter_cons, if_neg (by simp [h])]
    · rw [if_neg h]

theorem filter_trim (s : Str) :
    (trim s).filter (fun c => !isBlank c) = s.filter fun c => !isBlank c := by
  unfold trim
  rw [List.filter_reverse, filter_dropWhile_blank, List.filter_reverse, List.reverse_reverse,
    filter_dropWhile_blank]

theorem reduceNoneFuel_eq : ∀ (n : ℕ) (s : Str), s.length ≤ n →
    reduceNoneFuel n s = s.filter fun c => !isBlank c := by
  intro n
  induction n with
  | zero =>
    intro s h
    have : s = [] := List.length_eq_zero_iff.1 (by omega)
    subst this
    rfl
  | succ n ih =>
    intro s h
    cases s with
    | nil => rfl
    | cons c t =>
      simp only [List.length_cons, Nat.add_le_add_iff_right] at h
      unfold reduceNoneFuel
      by_cases hc : isBlank c = true
      · rw [if_pos hc, ih _ (le_trans (List.length_dropWhile_le _ _) h), filter_dropWhile_blank,
          List.filter_cons, if_neg (by simp [hc])]
      · rw [if_neg hc, ih _ h, List.filter_cons, if_pos (by simp [hc])]

theorem reduceNone_trim (s : Str) : reduceNone (trim s) = s.filter fun c => !isBlank c := by
  unfold reduceNone
  rw [reduceNoneFuel_eq _ _ le_rfl, filter_trim, filter_trim]

theorem takeWhile_append_delim {d : Char} {w : Str} (h : d ∉ w) (t : Str) :
    (w ++ d :: t).takeWhile (· != d) = w := by
  induction w with
  | nil => simp
  | cons c w ih =>
    simp only [List.mem_cons, not_or] at h
    rw [List.cons_append, List.takeWhile_cons, if_pos (by simpa using fun e => h.1 e.symm), ih h.2]

theorem dropWhile_append_delim {d : Char} {w : Str} (h : d ∉ w) (t : Str) :
    (w ++ d :: t).dropWhile (· != d) = d :: t := by
  induction w with
  | nil => simp
  | cons c w ih =>
    simp only [List.mem_cons, not_or] at h
    rw [List.cons_append, List.dropWhile_cons, if_pos (by simpa using fun e => h.1 e.symm), ih h.2]

theorem takeWhile_delim {d : Char} {w : Str} (h : d ∉ w) : w.takeWhile (· != d) = w := by
  rw [List.takeWhile_eq_self_iff]
  intro c hc
  simp only [bne_iff_ne, ne_eq]
  rintro rfl
  exact h hc

theorem dropWhile_delim {d : Char} {w : Str} (h : d ∉ w) : w.dropWhile (· != d) = [] := by
  rw [List.dropWhile_eq_nil_iff]
  intro c hc
  simp only [bne_iff_ne, ne_eq]
  rintro rfl
  exact h hc

theorem splitFuel_last {d : Char} {w : Str} (h : d ∉ w) (hw : w ≠ []) {n : ℕ} (hn : w.length ≤ n) :
    splitFuel d n w = [w] := by
  cases n with
  | zero => exact absurd (List.length_eq_zero_iff.1 (by omega)) hw
  | succ n =>
    rw [splitFuel_step d n w hw, takeWhile_delim h, dropWhile_delim h]
    simp [splitFuel_nil]

theorem splitFuel_more {d : Char} {w : Str} (h : d ∉ w) (t : Str) {n : ℕ} :
    splitFuel d (n + 1) (w ++ d :: t) = w :: splitFuel d n t := by
  rw [splitFuel_step d n _ (by simp), takeWhile_append_delim h, dropWhile_append_delim h]
  rfl

theorem splitFuel_mono {d : Char} : ∀ (n m : ℕ) (s : Str), s.length ≤ n → s.length ≤ m →
    splitFuel d n s = splitFuel d m s := by
  intro n
  induction n with
  | zero =>
    intro m s h _
    have : s = [] := List.length_eq_zero_iff.1 (by omega)
    subst this
    rw [splitFuel_nil, splitFuel_nil]
  | succ n ih =>
    intro m s h h'
    by_cases hs : s = []
    · subst hs
      rw [splitFuel_nil, splitFuel_nil]
    · cases m with
      | zero => exact absurd (List.length_eq_zero_iff.1 (by omega)) hs
      | succ m =>
        rw [splitFuel_step _ _ _ hs, splitFuel_step _ _ _ hs]
        have h1 := List.length_dropWhile_le (· != d) s
        have h2 : 0 < s.length := List.length_pos_iff.2 hs
        rw [ih m _ (by rw [List.length_drop]; omega) (by rw [List.length_drop]; omega)]

theorem split_pair {d : Char} {a b : Str} (ha : d ∉ a) (hb : d ∉ b) (hb0 : b ≠ []) :
    split (a ++ d :: b) d = [a, b] := by
  unfold split
  rw [List.length_append, List.length_cons, ← Nat.add_assoc, splitFuel_more ha,
    splitFuel_last hb hb0 (by omega)]

theorem split_cons {d : Char} {a t : Str} (ha : d ∉ a) :
    split (a ++ d :: t) d = a :: split t d := by
  unfold split
  rw [List.length_append, List.length_cons, ← Nat.add_assoc, splitFuel_more ha,
    splitFuel_mono _ t.length _ (by omega) le_rfl]

theorem split_one {d : Char} {a : Str} (ha : d ∉ a) (h : a ≠ []) : split a d = [a] :=
  splitFuel_last ha h le_rfl

theorem intText_chars {t : ℤ} {c : Char} (h : c ∈ intText t) : c = '-' ∨ c.isDigit = true := by
  unfold intText at h
  split at h
  · rcases List.mem_cons.1 h with h | h
    · exact .inl h
    · exact .inr (natText_digit h)
  · exact .inr (natText_digit h)

theorem isDigit_ne {c d : Char} (h : c.isDigit = true) (hd : d.isDigit = false) : c ≠ d := by
  rintro rfl
  rw [h] at hd
  cases hd

theorem intText_plain (t : ℤ) {c : Char} (h : c ∈ intText t) :
    isBlank c = false ∧ c ≠ ',' ∧ c ≠ ':' := by
  rcases intText_chars h with rfl | h
  · decide
  · refine ⟨?_, isDigit_ne h (by decide), isDigit_ne h (by decide)⟩
    unfold isBlank
    simp [isDigit_ne h (show ' '.isDigit = false by decide),
      isDigit_ne h (show '\t'.isDigit = false by decide)]

theorem leadingDigits_natText (n : ℕ) : leadingDigits (natText n) = natText n := by
  unfold leadingDigits
  rw [List.takeWhile_eq_self_iff]
  intro c hc
  exact natText_digit hc

theorem natText_ne_nil (n : ℕ) : natText n ≠ [] := (natText_word n).1

theorem dropWhile_blank_self {s : Str} (h : ∀ c ∈ s, isBlank c = false) : s.dropWhile isBlank = s := by
  cases s with
  | nil => rfl
  | cons c t => rw [List.dropWhile_cons, h c (by simp)]; rfl

theorem stoi_intText {t : ℤ} (h1 : -(2 ^ 31) ≤ t) (h2 : t < 2 ^ 31) : stoi (intText t) = some t := by
  have hb : (intText t).dropWhile isBlank = intText t :=
    dropWhile_blank_self fun c hc => (intText_plain t hc).1
  have hv : ∀ n : ℕ, Nat.ofDigitChars 10 (natText n) 0 = n := fun n => Nat.ofDigitChars_ten_toDigits
  have hm : signedDigits (intText t) = some t := by
    unfold intText
    by_cases h : t < 0
    · rw [if_pos h]
      unfold signedDigits
      simp only [leadingDigits_natText, if_neg (natText_ne_nil _), hv]
      congr 1
      omega
    · rw [if_neg h]
      have e : (t.natAbs : ℤ) = t := by omega
      unfold signedDigits
      split
      · rename_i u e
        exact absurd (natText_digit (n := t.natAbs) (c := '-') (by rw [e]; simp)) (by decide)
      · rename_i u e
        exact absurd (natText_digit (n := t.natAbs) (c := '+') (by rw [e]; simp)) (by decide)
      · rw [leadingDigits_natText, if_neg (natText_ne_nil _), hv, e]
  unfold stoi
  rw [hb, hm]
  exact if_pos ⟨h1, h2⟩

/-! ### The mapping string -/

theorem entry_plain {p : ℤ × Str} (h : PlainText p.2) : ',' ∉ intText p.1 ++ ':' :: p.2 := by
  simp only [List.mem_append, List.mem_cons, not_or]
  exact ⟨fun hc => (intText_plain _ hc).2.1 rfl, by decide, fun hc => (h.2 _ hc).2.1 rfl⟩

theorem split_mappingText : ∀ (l : List (ℤ × Str)), (∀ p ∈ l, PlainText p.2) →
    split (mappingText l) ',' = l.map fun p => intText p.1 ++ ':' :: p.2
  | [], _ => rfl
  | [p], h => by
    unfold mappingText
    rw [split_one (entry_plain (h p (by simp))) (by simp)]
    rfl
  | p :: q :: l, h => by
    unfold mappingText
    rw [split_cons (entry_plain (h p (by simp))),
      split_mappingText (q :: l) fun r hr => h r (List.mem_cons_of_mem _ hr)]
    rfl

theorem mappingText_ne {l : List (ℤ × Str)} (h : l ≠ []) : mappingText l ≠ [] := by
  match l with
  | [p] => simp [mappingText]
  | p :: q :: l => simp [mappingText]

theorem split_entry {p : ℤ × Str} (h : PlainText p.2) :
    split (intText p.1 ++ ':' :: p.2) ':' = [intText p.1, p.2] :=
  split_pair (fun hc => (intText_plain _ hc).2.2 rfl) (fun hc => (h.2 _ hc).2.2 rfl) h.1

/-- The element with symbol `s`, 0 if there is none. -/
def EMap.idx (E : EMap) (s : Str) : ℕ := (E.forward.find? s).getD 0

theorem addType_entry {E : EMap} {n : ℕ} (m : CMap ℤ ℕ) {p : ℤ × Str} (h : PlainText p.2)
    (h1 : -(2 ^ 31) ≤ p.1) (h2 : p.1 < 2 ^ 31) :
    addType E n m (intText p.1 ++ ':' :: p.2) =
      if p.1 ≤ n ∧ (E.forward.find? p.2).isSome then .ok (m.set p.1 (E.idx p.2)) else .error .exception := by
  unfold addType
  rw [split_entry h]
  simp only [stoi_intText h1 h2]
  by_cases h3 : p.1 ≤ n
  · rw [if_neg (by omega)]
    unfold EMap.index EMap.idx
    cases h4 : E.forward.find? p.2 with
    | none => simp
    | some e => simp [h3]
  · rw [if_pos (by omega), if_neg (fun h => h3 h.1)]

theorem addTypes_eq {E : EMap} {n : ℕ} : ∀ (l : List (ℤ × Str)) (m : CMap ℤ ℕ),
    (∀ p ∈ l, PlainText p.2 ∧ -(2 ^ 31) ≤ p.1 ∧ p.1 < 2 ^ 31) →
    (l.map fun p => intText p.1 ++ ':' :: p.2).foldlM (addType E n) m =
      if ∀ p ∈ l, p.1 ≤ n ∧ (E.forward.find? p.2).isSome then
        .ok (l.foldl (fun m p => m.set p.1 (E.idx p.2)) m)
      else .error .exception
  | [], m, _ => by simp [pure, Except.pure]
  | p :: l, m, h => by
    obtain ⟨h1, h2, h3⟩ := h p (by simp)
    rw [List.map_cons, List.foldlM_cons, addType_entry m h1 h2 h3]
    by_cases hp : p.1 ≤ n ∧ (E.forward.find? p.2).isSome
    · rw [if_pos hp]
      simp only [bind, Except.bind]
      rw [addTypes_eq l _ fun q hq => h q (List.mem_cons_of_mem _ hq)]
      simp only [List.forall_mem_cons, hp, true_and, List.foldl_cons, and_self]
    · rw [if_neg hp, if_neg (fun hall => hp (hall p (by simp)))]
      rfl

theorem setAll_find (E : EMap) : ∀ (l : List (ℤ × Str)) (m : CMap ℤ ℕ) (t : ℤ),
    (l.foldl (fun m p => m.set p.1 (E.idx p.2)) m).find? t =
      ((l.reverse.find? fun p => p.1 = t).map fun p => E.idx p.2).or (m.find? t)
  | [], m, t => by simp
  | p :: l, m, t => by
    rw [List.foldl_cons, setAll_find E l, CMap.find?_set, List.reverse_cons, List.find?_append]
    cases l.reverse.find? fun p => p.1 = t with
    | some q => simp
    | none =>
      by_cases h : p.1 = t
      · simp [h]
      · simp [h]

theorem typeMap_text {E : EMap} {emap : Str} {n : ℕ} {l : List (ℤ × Str)} (hl : l ≠ [])
    (h : ∀ p ∈ l, PlainText p.2 ∧ -(2 ^ 31) ≤ p.1 ∧ p.1 < 2 ^ 31)
    (he : emap.filter (fun c => !isBlank c) = mappingText l) :
    typeMap E emap n =
      if l.length ≤ E.size ∧ ∀ p ∈ l, p.1 ≤ n ∧ (E.forward.find? p.2).isSome then
        .ok (l.foldl (fun m p => m.set p.1 (E.idx p.2)) [])
      else .error .exception := by
  have h0 : emap ≠ [] := by
    rintro rfl
    exact mappingText_ne hl he.symm
  unfold typeMap
  rw [if_neg h0]
  simp only
  rw [reduceNone_trim, he, split_mappingText l fun p hp => (h p hp).1, List.length_map]
  by_cases h1 : l.length ≤ E.size
  · rw [if_neg (by omega), addTypes_eq l [] h]
    simp only [h1, true_and]
  · rw [if_pos (by omega), if_neg (fun hh => h1 hh.1)]

/-! ### The element map -/

theorem EMap.Of.facts {E : EMap} {es : List Str} (h : E.Of es) :
    E.size = es.length ∧ (∀ s, (E.forward.find? s).isSome ↔ s ∈ es) ∧
      (∀ s ∈ es, E.symbol (E.idx s) = .ok s ∧ E.idx s < es.length) ∧
      (∀ i < es.length, ∃ s ∈ es, E.symbol i = .ok s ∧ E.idx s = i) := by
  obtain ⟨line, h1, h2⟩ := h.filled
  obtain ⟨m, h3, h4, h5, h6, h7, -⟩ := C04_register_bijection line es h1 h.known h.distinct
  rw [h2] at h3
  obtain rfl : E = m := congrArg Prod.fst (Except.ok.inj h3)
  have key : ∀ s i, E.index s = .ok i → E.forward.find? s = some i := by
    intro s i hi
    unfold EMap.index at hi
    cases h8 : E.forward.find? s with
    | none => rw [h8] at hi; cases hi
    | some j => rw [h8] at hi; injection hi with hi; rw [hi]
  refine ⟨h4, fun s => ⟨fun hs => ?_, fun hs => ?_⟩, fun s hs => ?_, fun i hi => ?_⟩
  · by_contra hn
    have := h7 s hn
    unfold EMap.index at this
    obtain ⟨v, hv⟩ := Option.isSome_iff_exists.1 hs
    rw [hv] at this
    cases this
  · obtain ⟨i, -, hi, -⟩ := h5 s hs
    rw [key s i hi]
    rfl
  · obtain ⟨i, h8, hi, h9⟩ := h5 s hs
    unfold EMap.idx
    rw [key s i hi]
    exact ⟨h9, h8⟩
  · obtain ⟨s, hs, h8, h9⟩ := h6 i hi
    refine ⟨s, hs, h8, ?_⟩
    unfold EMap.idx
    rw [key s i h9]
    rfl

theorem ignoreTypes_eq {E : EMap} {es : List Str} (h : E.Of es) {m : CMap ℤ ℕ} {n : ℕ}
    (hm : ∀ t e, m.find? t = some e → e < es.length) :
    ∃ ign, ignoreTypes E m n = .ok ign ∧
      ∀ t : ℕ, 1 ≤ t → t ≤ n → ign.find? t = some (m.find? t).isNone := by
  obtain ⟨-, -, -, h4⟩ := h.facts
  unfold ignoreTypes
  induction n with
  | zero => exact ⟨[], rfl, fun t h1 h2 => by omega⟩
  | succ n ih =>
    obtain ⟨ign, h5, h6⟩ := ih
    rw [List.range_succ, List.foldlM_append, h5]
    simp only [bind, Except.bind, List.foldlM_cons, List.foldlM_nil, pure, Except.pure]
    cases h7 : m.find? ((n : ℤ) + 1) with
    | none =>
      refine ⟨_, rfl, fun t h1 h2 => ?_⟩
      rw [CMap.find?_set]
      by_cases ht : t = n + 1
      · subst ht
        rw [if_pos (by push_cast; rfl)]
        push_cast
        rw [h7]
        rfl
      · rw [if_neg (by omega)]
        exact h6 t h1 (by omega)
    | some e =>
      obtain ⟨s, hs, h8, -⟩ := h4 e (hm _ _ h7)
      obtain ⟨z, hz⟩ := atomicNumber_known (h.known s hs)
      simp only [h8, hz]
      refine ⟨_, rfl, fun t h1 h2 => ?_⟩
      rw [CMap.find?_set]
      by_cases ht : t = n + 1
      · subst ht
        rw [if_pos (by push_cast; rfl)]
        push_cast
        rw [h7]
        rfl
      · rw [if_neg (by omega)]
        exact h6 t h1 (by omega)

/-- What `initialize` does, given the map. -/
theorem initialize_map {L : Lammps} {E : EMap} {es : List Str} (h : E.Of es) {emap : Str} {rc : ℝ} {n : ℕ}
    {m : CMap ℤ ℕ} (h1 : typeMap E emap n = .ok m) (hm : ∀ t e, m.find? t = some e → e < es.length)
    (hc : L.getMaxCutoffRadius ≤ rc) :
    ∃ f : ℕ → Option ℕ, L.initialize E emap rc n = .ok { L with typeToElement := f } ∧
      ∀ t : ℕ, 1 ≤ t → t ≤ n → f t = m.find? t := by
  obtain ⟨ign, h2, h3⟩ := ignoreTypes_eq h hm (n := n)
  refine ⟨fun t => if (ign.find? t).getD false then none else some ((m.find? t).getD 0), ?_, fun t h4 h5 => ?_⟩
  · unfold Lammps.initialize
    rw [if_neg (not_lt.2 hc), h1]
    simp only
    rw [h2]
  · simp only [h3 t h4 h5]
    cases m.find? (t : ℤ) <;> simp

/-! ### The pair style -/

theorem nullText_eq : "NULL".toList = nullText := rfl

/-- The entries of the mapping string, for arguments from number `k` on. -/
def coeffEntries : ℕ → List Str → List (ℤ × Str)
  | _, [] => []
  | k, a :: as => if a ≠ nullText then (((k + 1 : ℕ) : ℤ), a) :: coeffEntries (k + 1) as
      else coeffEntries (k + 1) as

theorem coeffEntries_cons (k : ℕ) (a : Str) (as : List Str) :
    coeffEntries k (a :: as) = if a ≠ nullText then (((k + 1 : ℕ) : ℤ), a) :: coeffEntries (k + 1) as
      else coeffEntries (k + 1) as := rfl

/-- Two strings of entries joined. -/
def glue (e m : Str) : Str := if m = [] then e else if e = [] then m else e ++ ',' :: m

theorem intText_nat (n : ℕ) : intText (n : ℤ) = natText n := by
  unfold intText
  rw [if_neg (by omega), Int.natAbs_natCast]

theorem coeffMapping_glue : ∀ (args : List Str) (k : ℕ) (e : Str),
    (args.zipIdx k).foldl (fun emap p =>
      if p.1 ≠ nullText then
        (if emap ≠ [] then emap ++ [','] else emap) ++ (natText (p.2 + 1) ++ ':' :: p.1)
      else emap) e = glue e (mappingText (coeffEntries k args))
  | [], k, e => by simp [coeffEntries, mappingText, glue]
  | a :: as, k, e => by
    rw [List.zipIdx_cons, List.foldl_cons, coeffMapping_glue as, coeffEntries_cons]
    by_cases h : a ≠ nullText
    · simp only [if_pos h]
      cases hr : coeffEntries (k + 1) as with
      | nil =>
        simp only [mappingText, glue, intText_nat]
        by_cases he : e = []
        · simp [he]
        · simp [he]
      | cons q l =>
        have h1 : mappingText (q :: l) ≠ [] := mappingText_ne (by simp)
        simp only [mappingText, glue, intText_nat]
        rw [if_neg h1]
        by_cases he : e = []
        · simp [he]
        · simp [he]
    · simp only [if_neg h]

theorem coeffMapping_eq (args : List Str) : coeffMapping args = mappingText (coeffEntries 0 args) := by
  unfold coeffMapping
  rw [nullText_eq, coeffMapping_glue]
  unfold glue
  split
  · rename_i h; rw [h]
  · rfl

theorem mem_coeffEntries : ∀ (args : List Str) (k : ℕ) (t : ℤ) (a : Str),
    (t, a) ∈ coeffEntries k args ↔ a ≠ nullText ∧ ∃ i, args[i]? = some a ∧ t = (k + i + 1 : ℕ)
  | [], k, t, a => by simp [coeffEntries]
  | b :: as, k, t, a => by
    have ih := mem_coeffEntries as (k + 1) t a
    have split' : (∃ i, (b :: as)[i]? = some a ∧ t = (k + i + 1 : ℕ)) ↔
        (b = a ∧ t = (k + 1 : ℕ)) ∨ ∃ i, as[i]? = some a ∧ t = (k + 1 + i + 1 : ℕ) := by
      constructor
      · rintro ⟨i, h1, h2⟩
        cases i with
        | zero => exact .inl ⟨by simpa using h1, by simpa using h2⟩
        | succ i => exact .inr ⟨i, by simpa using h1, by rw [h2]; push_cast; ring⟩
      · rintro (⟨h1, h2⟩ | ⟨i, h1, h2⟩)
        · exact ⟨0, by simp [h1], by simpa using h2⟩
        · exact ⟨i + 1, by simpa using h1, by rw [h2]; push_cast; ring⟩
    rw [split']
    unfold coeffEntries
    by_cases h : b ≠ nullText
    · rw [if_pos h, List.mem_cons, ih, Prod.mk.injEq]
      constructor
      · rintro (⟨h1, h2⟩ | ⟨h1, h2⟩)
        · exact ⟨h2 ▸ h, .inl ⟨h2.symm, h1⟩⟩
        · exact ⟨h1, .inr h2⟩
      · rintro ⟨h1, ⟨h2, h3⟩ | h2⟩
        · exact .inl ⟨h3, h2.symm⟩
        · exact .inr ⟨h1, h2⟩
    · rw [if_neg h, ih]
      constructor
      · rintro ⟨h1, h2⟩
        exact ⟨h1, .inr h2⟩
      · rintro ⟨h1, ⟨h2, h3⟩ | h2⟩
        · exact absurd (h2 ▸ h1) h
        · exact ⟨h1, h2⟩

theorem length_coeffEntries : ∀ (args : List Str) (k : ℕ), (coeffEntries k args).length = named args
  | [], k => rfl
  | a :: as, k => by
    have ih := length_coeffEntries as (k + 1)
    unfold named at ih ⊢
    unfold coeffEntries
    by_cases h : a ≠ nullText
    · rw [if_pos h, List.length_cons, ih, List.filter_cons, if_pos (by simpa using h), List.length_cons]
    · rw [if_neg h, ih, List.filter_cons, if_neg (by simpa using h)]

theorem coeffMap_get : ∀ (args : List Str) (k j : ℕ) (map : List (Option ℤ)), k + args.length < map.length →
    ((args.zipIdx k).foldl (fun map p =>
      if p.1 ≠ nullText then map.set (p.2 + 1) (some 1) else map) map)[j]? =
      if k < j ∧ ∃ a, args[j - 1 - k]? = some a ∧ a ≠ nullText then some (some 1) else map[j]?
  | [], k, j, map, _ => by simp
  | b :: as, k, j, map, hm => by
    rw [List.length_cons] at hm
    rw [List.zipIdx_cons, List.foldl_cons]
    by_cases h : b ≠ nullText
    · rw [coeffMap_get as (k + 1) j _ (by simp only [if_pos h, List.length_set]; omega)]
      simp only [if_pos h]
      rcases lt_trichotomy j (k + 1) with hj | hj | hj
      · rw [if_neg (by omega), if_neg (by omega), List.getElem?_set_ne (by omega)]
      · subst hj
        rw [if_neg (by omega), if_pos ⟨by omega, b, by simp, h⟩, List.getElem?_set_self (by omega)]
      · have e : j - 1 - k = (j - 1 - (k + 1)) + 1 := by omega
        rw [List.getElem?_set_ne (by omega), e, List.getElem?_cons_succ]
        simp only [hj, show k < j by omega, true_and]
    · rw [coeffMap_get as (k + 1) j _ (by simp only [if_neg h]; omega)]
      simp only [if_neg h]
      rcases lt_trichotomy j (k + 1) with hj | hj | hj
      · rw [if_neg (by omega), if_neg (by omega)]
      · subst hj
        rw [if_neg (by omega), if_neg]
        rintro ⟨-, a, h1, h2⟩
        simp only [Nat.add_sub_cancel, Nat.sub_self, List.getElem?_cons_zero, Option.some.injEq] at h1
        exact h (h1 ▸ h2)
      · have e : j - 1 - k = (j - 1 - (k + 1)) + 1 := by omega
        rw [e, List.getElem?_cons_succ]
        simp only [hj, show k < j by omega, true_and]

/-- Argument of type `j` is not `NULL`. -/
def NamedType (args : List Str) (j : ℕ) : Prop := ∃ a, args[j - 1]? = some a ∧ a ≠ nullText

open Classical in
theorem mapPositive_eq {n : ℕ} {args : List Str} (hn : args.length = n) {j : ℕ} (h1 : 1 ≤ j) (h2 : j ≤ n)
    (h : j < n ∨ NamedType args n) :
    mapPositive (coeffMap n args) j = .ok (decide (NamedType args j)) := by
  have hg := coeffMap_get args 0 j (List.replicate n (some 0) ++ [none]) (by simp; omega)
  unfold mapPositive coeffMap
  rw [nullText_eq, hg]
  by_cases hj : NamedType args j
  · rw [if_pos ⟨by omega, hj⟩]
    simp [hj]
  · rw [if_neg (fun hh => hj hh.2)]
    have hlt : j < n := by
      rcases h with h | h
      · exact h
      · rcases Nat.lt_or_eq_of_le h2 with h3 | h3
        · exact h3
        · exact absurd (h3 ▸ h) hj
    rw [List.getElem?_append_left (by simpa using hlt), List.getElem?_replicate, if_pos hlt]
    simp [hj]

theorem mapPositive_last {n : ℕ} {args : List Str} (hn : args.length = n)
    (h : ¬ NamedType args n) : mapPositive (coeffMap n args) n = .error .undefined := by
  have hg := coeffMap_get args 0 n (List.replicate n (some 0) ++ [none]) (by simp; omega)
  unfold mapPositive coeffMap
  rw [nullText_eq, hg, if_neg (fun hh => h hh.2), List.getElem?_append_right (by simp)]
  simp

theorem mem_typePairs {n i j : ℕ} : (i, j) ∈ typePairs n ↔ 1 ≤ i ∧ i ≤ j ∧ j ≤ n := by
  unfold typePairs
  simp only [List.mem_flatMap, List.mem_range, List.mem_map, Prod.mk.injEq]
  constructor
  · rintro ⟨a, h1, d, h2, h3, h4⟩
    omega
  · rintro ⟨h1, h2, h3⟩
    exact ⟨i - 1, by omega, j - i, by omega, by omega, by omega⟩

open Classical in
theorem coeffPairs_eq {map : List (Option ℤ)} {pos : ℕ → Prop} : ∀ (l : List (ℕ × ℕ)) (s : (ℕ → ℕ → Bool) × ℕ),
    (∀ p ∈ l, mapPositive map p.1 = .ok (decide (pos p.1)) ∧ mapPositive map p.2 = .ok (decide (pos p.2))) →
    ∃ f c, l.foldlM (coeffPair map) s = .ok (f, c) ∧
      (∀ i j, f i j = true ↔ s.1 i j = true ∨ ((i, j) ∈ l ∧ pos i ∧ pos j)) ∧
      s.2 ≤ c ∧ ((∃ p ∈ l, pos p.1 ∧ pos p.2) → 0 < c)
  | [], s, _ => ⟨s.1, s.2, rfl, by simp, le_rfl, by simp⟩
  | p :: l, s, h => by
    obtain ⟨h1, h2⟩ := h p (by simp)
    have hl := fun q hq => h q (List.mem_cons_of_mem p hq)
    rw [List.foldlM_cons]
    by_cases hp : pos p.1 ∧ pos p.2
    · have hs : coeffPair map s p =
          .ok (fun i j => if i = p.1 ∧ j = p.2 then true else s.1 i j, s.2 + 1) := by
        unfold coeffPair
        rw [h1, h2]
        simp [hp]
      rw [hs]
      obtain ⟨f, c, e1, e2, e3, e4⟩ := coeffPairs_eq l
        (fun i j => if i = p.1 ∧ j = p.2 then true else s.1 i j, s.2 + 1) hl
      refine ⟨f, c, e1, fun i j => ?_, by simp only at e3; omega, fun _ => by simp only at e3; omega⟩
      rw [e2]
      by_cases hij : i = p.1 ∧ j = p.2
      · obtain ⟨rfl, rfl⟩ := hij
        simp [hp]
      · have : (i, j) ≠ p := fun e => hij ⟨congrArg Prod.fst e, congrArg Prod.snd e⟩
        simp [hij, this]
    · have hs : coeffPair map s p = .ok s := by
        unfold coeffPair
        rw [h1, h2]
        by_cases h3 : pos p.1
        · have h4 : ¬ pos p.2 := fun h4 => hp ⟨h3, h4⟩
          simp [h3, h4]
        · simp [h3]
      rw [hs]
      obtain ⟨f, c, e1, e2, e3, e4⟩ := coeffPairs_eq l s hl
      refine ⟨f, c, e1, fun i j => ?_, e3, ?_⟩
      · rw [e2]
        constructor
        · rintro (h3 | ⟨h3, h4⟩)
          · exact .inl h3
          · exact .inr ⟨List.mem_cons_of_mem _ h3, h4⟩
        · rintro (h3 | ⟨h3, h4⟩)
          · exact .inl h3
          · rcases List.mem_cons.1 h3 with h5 | h5
            · exact absurd (h5 ▸ h4 : pos p.1 ∧ pos p.2) hp
            · exact .inr ⟨h5, h4⟩
      · rintro ⟨q, hq, h3⟩
        rcases List.mem_cons.1 hq with rfl | hq
        · exact absurd h3 hp
        · exact e4 ⟨q, hq, h3⟩

theorem coeffPair_error {map : List (Option ℤ)} {s : (ℕ → ℕ → Bool) × ℕ} {p : ℕ × ℕ} {e : LmpErr}
    (h : coeffPair map s p = .error e) : e = .undefined := by
  have key : ∀ i e, mapPositive map i = .error e → e = .undefined := by
    intro i e h
    unfold mapPositive at h
    split at h
    · cases h
    · injection h with h; exact h.symm
  unfold coeffPair at h
  split at h
  · rename_i e' h1
    injection h with h
    exact h ▸ key _ _ h1
  · cases h
  · split at h
    · rename_i e' h1
      injection h with h
      exact h ▸ key _ _ h1
    · cases h
    · cases h

theorem coeffPairs_error {map : List (Option ℤ)} : ∀ (l : List (ℕ × ℕ)) (s : (ℕ → ℕ → Bool) × ℕ),
    (∃ p ∈ l, mapPositive map p.1 = .error .undefined) →
    l.foldlM (coeffPair map) s = .error .undefined
  | [], s, h => by simp at h
  | p :: l, s, h => by
    rw [List.foldlM_cons]
    cases hs : coeffPair map s p with
    | error e =>
      rw [coeffPair_error hs]
      rfl
    | ok s' =>
      refine coeffPairs_error l s' ?_
      obtain ⟨q, hq, h1⟩ := h
      rcases List.mem_cons.1 hq with rfl | hq
      · unfold coeffPair at hs
        rw [h1] at hs
        cases hs
      · exact ⟨q, hq, h1⟩

/-! ### Any mapping string -/

theorem defaultMap_find (n : ℕ) (t : ℤ) :
    (loop n (fun i (m : CMap ℤ ℕ) => m.set (i + 1) i) []).find? t =
      if 1 ≤ t ∧ t ≤ n then some (t.toNat - 1) else none := by
  induction n with
  | zero =>
    rw [if_neg (by omega)]
    rfl
  | succ n ih =>
    rw [loop_succ, CMap.find?_set, ih]
    by_cases h : (n : ℤ) + 1 = t
    · rw [if_pos h, if_pos (by omega)]
      congr 1
      omega
    · rw [if_neg h]
      by_cases h1 : 1 ≤ t ∧ t ≤ n
      · rw [if_pos h1, if_pos (by omega)]
      · rw [if_neg h1, if_neg (by omega)]

theorem EMap.Of.index_lt {E : EMap} {es : List Str} (h : E.Of es) {s : Str} {e : ℕ}
    (he : E.index s = .ok e) : e < es.length := by
  obtain ⟨-, h2, h3, -⟩ := h.facts
  unfold EMap.index at he
  cases h4 : E.forward.find? s with
  | none => rw [h4] at he; cases he
  | some j =>
    rw [h4] at he
    injection he with he
    have := (h3 s ((h2 s).1 (by rw [h4]; rfl))).2
    unfold EMap.idx at this
    rw [h4] at this
    exact he ▸ this

theorem addType_bound {E : EMap} {es : List Str} (h : E.Of es) {n : ℕ} : ∀ (l : List Str) (m m' : CMap ℤ ℕ),
    l.foldlM (addType E n) m = .ok m' → (∀ t e, m.find? t = some e → e < es.length) →
    ∀ t e, m'.find? t = some e → e < es.length
  | [], m, m', h1, h2 => by
    simp only [List.foldlM_nil, pure, Except.pure] at h1
    injection h1 with h1
    exact h1 ▸ h2
  | s :: l, m, m', h1, h2 => by
    rw [List.foldlM_cons] at h1
    cases h3 : addType E n m s with
    | error e => rw [h3] at h1; cases h1
    | ok m'' =>
      rw [h3] at h1
      refine addType_bound h l m'' m' h1 ?_
      unfold addType at h3
      split at h3
      · split at h3
        · cases h3
        · split at h3
          · cases h3
          · split at h3
            · cases h3
            · rename_i e he
              injection h3 with h3
              subst h3
              intro t e' ht
              rw [CMap.find?_set] at ht
              split at ht
              · injection ht with ht
                exact ht ▸ h.index_lt he
              · exact h2 t e' ht
      · cases h3

theorem typeMap_bound {E : EMap} {es : List Str} (h : E.Of es) {n : ℕ} {emap : Str} {m : CMap ℤ ℕ}
    (h1 : typeMap E emap n = .ok m) : ∀ t e, m.find? t = some e → e < es.length := by
  unfold typeMap at h1
  split at h1
  · split at h1
    · cases h1
    · rename_i h2
      injection h1 with h1
      intro t e ht
      rw [← h1, defaultMap_find] at ht
      split at ht
      · injection ht with ht
        rw [h.facts.1] at h2
        omega
      · cases ht
  · simp only at h1
    split at h1
    · cases h1
    · exact addType_bound h _ _ _ h1 (by intro t e ht; cases ht)

theorem initialize_ok {L L' : Lammps} {E : EMap} {emap : Str} {rc : ℝ} {n : ℕ}
    (h : L.initialize E emap rc n = .ok L') :
    L.getMaxCutoffRadius ≤ rc ∧ ∃ m ign, typeMap E emap n = .ok m ∧ ignoreTypes E m n = .ok ign ∧
      L' = { L with
          typeToElement := fun t =>
            if (ign.find? t).getD false then none else some ((m.find? t).getD 0) } := by
  unfold Lammps.initialize at h
  split at h
  · cases h
  · rename_i hc
    split at h
    · cases h
    · rename_i m hm
      split at h
      · cases h
      · rename_i ign hi
        injection h with h
        exact ⟨not_lt.1 hc, m, ign, hm, hi, h.symm⟩

end N2P2
