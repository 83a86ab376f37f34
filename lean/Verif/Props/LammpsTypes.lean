import Verif.Lemma.LammpsTypes
import Verif.Spec.Lammps

/-! Property C89: the elements of the atom types of LAMMPS. -/

namespace N2P2

variable {L : Lammps} {E : EMap} {es : List Str} {rc : ℝ} {n : ℕ}

/-- Symbols of elements have no blanks, commas and colons, and none is `NULL`. -/
theorem known_plain {s : Str} (h : s ∈ knownElements) : PlainText s ∧ s ≠ nullText := by
  have : ∀ s ∈ knownElements, (s ≠ [] ∧ ∀ c ∈ s, isBlank c = false ∧ c ≠ ',' ∧ c ≠ ':') ∧ s ≠ nullText := by
    decide +kernel
  exact this s h

/-- C89: a mapping string with the entries `l` (blanks may be anywhere) is accepted exactly if the cutoff
radius is large enough, there are no more entries than elements, no type is larger than `n` and all symbols are
those of elements of the potential. Then types have the element of the last entry for them; types without an
entry are ignored. Nothing else is changed. -/
theorem C89_mapping (hE : E.Of es) {l : List (ℤ × Str)} (hl : l ≠ [])
    (h : ∀ p ∈ l, PlainText p.2 ∧ -(2 ^ 31) ≤ p.1 ∧ p.1 < 2 ^ 31) {emap : Str}
    (he : emap.filter (fun c => !isBlank c) = mappingText l) :
    ((∃ L', L.initialize E emap rc n = .ok L') ↔
      L.getMaxCutoffRadius ≤ rc ∧ l.length ≤ es.length ∧ ∀ p ∈ l, p.1 ≤ n ∧ p.2 ∈ es) ∧
    ∀ L', L.initialize E emap rc n = .ok L' →
      AssignedLast E n l L'.typeToElement ∧ ∃ f, L' = { L with typeToElement := f } := by
  obtain ⟨h1, h2, h3, -⟩ := hE.facts
  have ht := typeMap_text (E := E) (n := n) hl h he
  simp only [h1, h2] at ht
  by_cases hg : l.length ≤ es.length ∧ ∀ p ∈ l, p.1 ≤ n ∧ p.2 ∈ es
  · rw [if_pos hg] at ht
    have hb := typeMap_bound hE ht
    constructor
    · constructor
      · rintro ⟨L', hL⟩
        exact ⟨(initialize_ok hL).1, hg⟩
      · rintro ⟨hc, -⟩
        obtain ⟨f, hf, -⟩ := initialize_map (L := L) hE ht hb hc
        exact ⟨_, hf⟩
    · intro L' hL
      obtain ⟨f, hf, hf'⟩ := initialize_map (L := L) hE ht hb (initialize_ok hL).1
      rw [hf] at hL
      injection hL with hL
      subst hL
      refine ⟨fun t ht1 ht2 => ⟨fun hno => ?_, fun a b s hab hbt => ?_⟩, f, rfl⟩
      · simp only
        rw [hf' t ht1 ht2, setAll_find]
        have : (l.reverse.find? fun p => p.1 = (t : ℤ)) = none := by
          rw [List.find?_eq_none]
          intro p hp
          simpa using hno p (List.mem_reverse.1 hp)
        rw [this]
        rfl
      · have hs : s ∈ es := (hg.2 ((t : ℤ), s) (by rw [hab]; simp)).2
        refine ⟨E.idx s, ?_, (h3 s hs).1⟩
        simp only
        rw [hf' t ht1 ht2, setAll_find]
        have : (l.reverse.find? fun p => p.1 = (t : ℤ)) = some ((t : ℤ), s) := by
          rw [hab, List.reverse_append, List.reverse_cons, List.append_assoc, List.find?_append]
          have : (b.reverse.find? fun p => p.1 = (t : ℤ)) = none := by
            rw [List.find?_eq_none]
            intro p hp
            simpa using hbt p (List.mem_reverse.1 hp)
          rw [this]
          simp
        rw [this]
        rfl
  · rw [if_neg hg] at ht
    have hno : ∀ L', L.initialize E emap rc n ≠ .ok L' := by
      intro L' hL
      obtain ⟨-, m, -, hm, -⟩ := initialize_ok hL
      rw [ht] at hm
      cases hm
    exact ⟨⟨fun ⟨L', hL⟩ => absurd hL (hno L'), fun hh => absurd hh.2 hg⟩, fun L' hL => absurd hL (hno L')⟩

/-- C89: without mapping string, type `t` is the element number `t - 1`, if there are as many types as
elements; otherwise there is an exception. -/
theorem C89_default (hE : E.Of es) :
    ((∃ L', L.initialize E [] rc n = .ok L') ↔ L.getMaxCutoffRadius ≤ rc ∧ n = es.length) ∧
    ∀ L', L.initialize E [] rc n = .ok L' →
      (∀ t, 1 ≤ t → t ≤ n → L'.typeToElement t = some (t - 1)) ∧ ∃ f, L' = { L with typeToElement := f } := by
  have h1 := hE.facts.1
  by_cases hn : n = es.length
  · have ht : typeMap E [] n = .ok (loop n (fun i (m : CMap ℤ ℕ) => m.set (i + 1) i) []) := by
      unfold typeMap
      rw [if_pos rfl, if_neg (by simp [h1, hn])]
    have hb := typeMap_bound hE ht
    constructor
    · constructor
      · rintro ⟨L', hL⟩
        exact ⟨(initialize_ok hL).1, hn⟩
      · rintro ⟨hc, -⟩
        obtain ⟨f, hf, -⟩ := initialize_map (L := L) hE ht hb hc
        exact ⟨_, hf⟩
    · intro L' hL
      obtain ⟨f, hf, hf'⟩ := initialize_map (L := L) hE ht hb (initialize_ok hL).1
      rw [hf] at hL
      injection hL with hL
      subst hL
      refine ⟨fun t h2 h3 => ?_, f, rfl⟩
      simp only
      rw [hf' t h2 h3, defaultMap_find, if_pos (by omega)]
      congr 1
  · have hno : ∀ L', L.initialize E [] rc n ≠ .ok L' := by
      intro L' hL
      obtain ⟨-, m, -, hm, -⟩ := initialize_ok hL
      unfold typeMap at hm
      rw [if_pos rfl, if_pos (by rw [h1]; exact fun e => hn e.symm)] at hm
      cases hm
    exact ⟨⟨fun ⟨L', hL⟩ => absurd hL (hno L'), fun hh => absurd hh.2 hn⟩, fun L' hL => absurd hL (hno L')⟩

/-- C89: whatever the mapping string is, an interface which accepts it has a large enough cutoff radius, and
types are elements of the potential (hypotheses of the theorems on energies and forces, C85). -/
theorem C89_ready (hE : E.Of es) (h0 : es ≠ []) {emap : Str} {L' : Lammps}
    (h : L.initialize E emap rc n = .ok L') :
    L'.getMaxCutoffRadius ≤ rc ∧ ∀ t e, L'.typeToElement t = some e → e < es.length := by
  obtain ⟨h1, m, ign, h2, -, rfl⟩ := initialize_ok h
  refine ⟨h1, fun t e he => ?_⟩
  simp only at he
  split at he
  · cases he
  · injection he with he
    cases h3 : m.find? (t : ℤ) with
    | none =>
      rw [h3] at he
      have := List.length_pos_iff.2 h0
      simp only [Option.getD_none] at he
      omega
    | some e' =>
      rw [h3] at he
      exact he ▸ typeMap_bound hE h2 _ _ h3

/-- C89: the command `pair_coeff * * a₁ … aₙ`. If the last type is not `NULL`, the command is accepted, pairs of
types are flagged exactly if both are not `NULL`, and the interface accepts the mapping exactly if the cutoff
radius is large enough, all types other than `NULL` are elements of the potential, and there are no more of
them than elements. Then each type has the element named for it. -/
theorem C89_pair_coeff (hE : E.Of es) {args : List Str} (hn : args.length = n) (hbig : n < 2 ^ 31)
    (hplain : ∀ a ∈ args, PlainText a) {a : Str} (hlast : args.getLast? = some a) (ha : a ≠ nullText)
    (flags : ℕ → ℕ → Bool) :
    ∃ emap flags', coeff n flags (['*'] :: ['*'] :: args) = .ok (emap, flags') ∧
      (∀ i j, flags' i j = true ↔ flags i j = true ∨ (1 ≤ i ∧ i ≤ j ∧ j ≤ n ∧
        (∃ a, args[i - 1]? = some a ∧ a ≠ nullText) ∧ ∃ a, args[j - 1]? = some a ∧ a ≠ nullText)) ∧
      ((∃ L', L.initialize E emap rc n = .ok L') ↔
        L.getMaxCutoffRadius ≤ rc ∧ named args ≤ es.length ∧ ∀ a ∈ args, a ≠ nullText → a ∈ es) ∧
      ∀ L', L.initialize E emap rc n = .ok L' →
        Assigned E args L'.typeToElement ∧ ∃ f, L' = { L with typeToElement := f } := by
  classical
  have hlast' : args[n - 1]? = some a := by rw [← hn, ← List.getLast?_eq_getElem?, hlast]
  have hn1 : 1 ≤ n := by
    rcases Nat.eq_zero_or_pos n with h | h
    · rw [h] at hn
      rw [List.length_eq_zero_iff.1 hn] at hlast
      cases hlast
    · exact h
  have hnamed : NamedType args n := ⟨a, hlast', ha⟩
  obtain ⟨f, c, e1, e2, -, e4⟩ := coeffPairs_eq (map := coeffMap n args) (pos := NamedType args)
    (typePairs n) (flags, 0) fun p hp => by
      obtain ⟨h1, h2, h3⟩ := mem_typePairs.1 (show (p.1, p.2) ∈ typePairs n from hp)
      exact ⟨mapPositive_eq hn h1 (by omega) (.inr hnamed), mapPositive_eq hn (by omega) h3 (.inr hnamed)⟩
  have hc : 0 < c := e4 ⟨(n, n), mem_typePairs.2 ⟨hn1, le_rfl, le_rfl⟩, hnamed, hnamed⟩
  refine ⟨coeffMapping args, f, ?_, fun i j => ?_, ?_⟩
  · unfold coeff
    rw [if_neg (by simp [hn]; omega), if_neg (by simp)]
    simp only [List.drop_succ_cons, List.drop_zero]
    rw [e1]
    simp only
    rw [if_neg (by omega)]
  · rw [e2, mem_typePairs]
    unfold NamedType
    tauto
  · have hent : ∀ p, p ∈ coeffEntries 0 args ↔
        p.2 ≠ nullText ∧ ∃ i, args[i]? = some p.2 ∧ p.1 = (i + 1 : ℕ) := by
      intro p
      have := mem_coeffEntries args 0 p.1 p.2
      simpa only [Nat.zero_add] using this
    have hm := C89_mapping (L := L) (rc := rc) (n := n) hE (l := coeffEntries 0 args)
      (fun e => by
        have := (hent (((n : ℕ) : ℤ), a)).2 ⟨ha, n - 1, hlast', by omega⟩
        rw [e] at this
        simp at this)
      (fun p hp => by
        obtain ⟨-, i, h2, h3⟩ := (hent p).1 hp
        have hi := (List.getElem?_eq_some_iff.1 h2).1
        exact ⟨hplain _ (List.mem_of_getElem? h2), by omega, by omega⟩)
      (emap := coeffMapping args) (by
        rw [coeffMapping_eq, List.filter_eq_self]
        have key : ∀ l : List (ℤ × Str), (∀ p ∈ l, PlainText p.2) → ∀ c ∈ mappingText l, isBlank c = false := by
          intro l
          have item : ∀ p : ℤ × Str, PlainText p.2 → ∀ c ∈ intText p.1 ++ ':' :: p.2, isBlank c = false := by
            intro p hp c hc
            rcases List.mem_append.1 hc with hc | hc
            · exact (intText_plain _ hc).1
            · rcases List.mem_cons.1 hc with rfl | hc
              · decide
              · exact (hp.2 c hc).1
          induction l with
          | nil => intro _ c hc; simp [mappingText] at hc
          | cons p l ih =>
            intro hp c hc
            cases l with
            | nil => exact item p (hp p (by simp)) c hc
            | cons q l =>
              unfold mappingText at hc
              rcases List.mem_append.1 hc with hc | hc
              · exact item p (hp p (by simp)) c hc
              · rcases List.mem_cons.1 hc with rfl | hc
                · decide
                · exact ih (fun r hr => hp r (List.mem_cons_of_mem _ hr)) c hc
        intro c hc
        rw [key _ (fun p hp => ?_) c hc]
        · rfl
        · obtain ⟨-, i, h2, -⟩ := (hent p).1 hp
          exact hplain _ (List.mem_of_getElem? h2))
    refine ⟨hm.1.trans ?_, fun L' hL => ⟨?_, (hm.2 L' hL).2⟩⟩
    · rw [length_coeffEntries]
      refine and_congr_right fun _ => and_congr_right fun _ => ?_
      constructor
      · intro h b hb hb0
        obtain ⟨i, hi, rfl⟩ := List.mem_iff_getElem.1 hb
        exact (h _ ((hent (((i + 1 : ℕ) : ℤ), args[i])).2
          ⟨hb0, i, List.getElem?_eq_getElem hi, rfl⟩)).2
      · intro h p hp
        obtain ⟨h1, i, h2, h3⟩ := (hent p).1 hp
        have hi := (List.getElem?_eq_some_iff.1 h2).1
        exact ⟨by omega, h _ (List.mem_of_getElem? h2) h1⟩
    · intro i b hb
      have hi := (List.getElem?_eq_some_iff.1 hb).1
      obtain ⟨h1, h2⟩ := (hm.2 L' hL).1 (i + 1) (by omega) (by omega)
      refine ⟨fun hb0 => h1 fun p hp e => ?_, fun hb0 => ?_⟩
      · obtain ⟨h3, j, h4, h5⟩ := (hent p).1 hp
        have : j = i := by omega
        rw [this, hb] at h4
        exact h3 ((Option.some.inj h4).symm.trans hb0)
      · have hmem : (((i + 1 : ℕ) : ℤ), b) ∈ coeffEntries 0 args := (hent _).2 ⟨hb0, i, hb, rfl⟩
        obtain ⟨x, y, hxy, hx⟩ := List.eq_append_cons_of_mem (List.mem_reverse.2 hmem)
        have hxy' : coeffEntries 0 args = y.reverse ++ (((i + 1 : ℕ) : ℤ), b) :: x.reverse := by
          rw [← List.reverse_reverse (coeffEntries 0 args), hxy]
          simp
        refine h2 y.reverse x.reverse b hxy' fun p hp e => hx ?_
        obtain ⟨h3, j, h4, h5⟩ := (hent p).1 (by rw [hxy']; simp [List.mem_reverse.1 hp])
        have : j = i := by omega
        rw [this, hb] at h4
        have hp' : p = (((i + 1 : ℕ) : ℤ), b) := Prod.ext e (Option.some.inj h4).symm
        exact hp' ▸ List.mem_reverse.1 hp

/-- C89, disagreement: if the last type is `NULL`, the command reads an element of an array which was never
set. (The first loop in pair_hdnnp.cpp:198 ends one element too early.) -/
theorem C89_last_null {args : List Str} (hn : args.length = n) (hlast : args.getLast? = some nullText)
    (flags : ℕ → ℕ → Bool) : coeff n flags (['*'] :: ['*'] :: args) = .error .undefined := by
  have hlast' : args[n - 1]? = some nullText := by rw [← hn, ← List.getLast?_eq_getElem?, hlast]
  have hn1 : 1 ≤ n := by
    rcases Nat.eq_zero_or_pos n with h | h
    · rw [h] at hn
      rw [List.length_eq_zero_iff.1 hn] at hlast
      cases hlast
    · exact h
  have hnull : ¬ NamedType args n := by
    rintro ⟨b, h1, h2⟩
    rw [hlast'] at h1
    exact h2 (Option.some.inj h1).symm
  unfold coeff
  rw [if_neg (by simp [hn]; omega), if_neg (by simp)]
  simp only [List.drop_succ_cons, List.drop_zero]
  rw [coeffPairs_error _ _ ⟨(n, n), mem_typePairs.2 ⟨hn1, le_rfl, le_rfl⟩, mapPositive_last hn hnull⟩]

/-- C89: what `pair_coeff` accepts: two asterisks and a name for each type, of which at least the last is
not `NULL`. -/
theorem C89_accepted {flags flags' : ℕ → ℕ → Bool} {arg : List Str} {emap : Str}
    (h : coeff n flags arg = .ok (emap, flags')) :
    ∃ args a, arg = ['*'] :: ['*'] :: args ∧ args.length = n ∧ args.getLast? = some a ∧
      a ≠ nullText := by
  have h0 := h
  unfold coeff at h
  split at h
  · cases h
  · rename_i hlen
    split at h
    · cases h
    · rename_i hstar
      match arg, hlen, hstar with
      | [], hlen, _ => simp at hlen; omega
      | [_], hlen, _ => simp at hlen; omega
      | x :: y :: args, hlen, hstar =>
        simp only [List.length_cons, ne_eq, not_not] at hlen
        simp only [List.getElem?_cons_zero, List.getElem?_cons_succ, ne_eq, Option.some.injEq, not_or,
          not_not] at hstar
        obtain ⟨rfl, rfl⟩ := hstar
        have hn : args.length = n := by omega
        cases hl : args.getLast? with
        | none =>
          rw [List.getLast?_eq_none_iff] at hl
          subst hl
          subst hn
          simp [typePairs, pure, Except.pure] at h
        | some a =>
          refine ⟨args, a, rfl, hn, hl, ?_⟩
          rintro rfl
          rw [C89_last_null hn hl] at h0
          cases h0

example : ∃ e f, coeff 1 (fun _ _ => false) [['*'], ['*'], "H".toList] = .ok (e, f) := ⟨_, _, rfl⟩

/-- C89, disagreement: several types of the same element cannot be used if this gives more types than elements,
though each of them is an element of the potential. -/
theorem C89_too_many (hE : E.Of es) {args : List Str} (hn : args.length = n) (hbig : n < 2 ^ 31)
    (hall : ∀ a ∈ args, a ∈ es) (hmany : es.length < n) (flags : ℕ → ℕ → Bool) :
    ∃ emap flags', coeff n flags (['*'] :: ['*'] :: args) = .ok (emap, flags') ∧
      ∀ L', L.initialize E emap rc n ≠ .ok L' := by
  have hplain : ∀ a ∈ args, PlainText a ∧ a ≠ nullText := fun a ha => known_plain (hE.known a (hall a ha))
  obtain ⟨a, ha⟩ : ∃ a, args.getLast? = some a := by
    cases h : args.getLast? with
    | none =>
      rw [List.getLast?_eq_none_iff] at h
      rw [h] at hn
      simp at hn
      omega
    | some a => exact ⟨a, rfl⟩
  obtain ⟨emap, flags', h1, -, h2, -⟩ := C89_pair_coeff (L := L) (rc := rc) hE hn hbig
    (fun a ha => (hplain a ha).1) ha (hplain a (List.mem_of_getLast? ha)).2 flags
  refine ⟨emap, flags', h1, fun L' hL => ?_⟩
  have h3 := (h2.1 ⟨L', hL⟩).2.1
  have h4 : named args = n := by
    unfold named
    rw [List.filter_eq_self.2 (fun b hb => by simpa using (hplain b hb).2), hn]
  omega

/-- C89, disagreement: a mapping string of blanks only is accepted, and all atoms are ignored. -/
theorem C89_blank (hE : E.Of es) (hc : L.getMaxCutoffRadius ≤ rc) {emap : Str} (h0 : emap ≠ [])
    (h : AllBlank emap) :
    ∃ L', L.initialize E emap rc n = .ok L' ∧ ∀ t, 1 ≤ t → t ≤ n → L'.typeToElement t = none := by
  have ht : typeMap E emap n = .ok [] := by
    unfold typeMap
    rw [if_neg h0]
    simp only
    have : emap.filter (fun c => !isBlank c) = [] := by
      rw [List.filter_eq_nil_iff]
      intro c hc
      simp [h c hc]
    rw [reduceNone_trim, this]
    rfl
  obtain ⟨f, h1, h2⟩ := initialize_map (L := L) hE ht (typeMap_bound hE ht) hc
  exact ⟨_, h1, fun t h3 h4 => h2 t h3 h4⟩

/-! ### Examples -/

/-- Hydrogen and oxygen. -/
def exElements : List Str := [['O'], ['H']]

theorem exists_exElements : ∃ E : EMap, E.Of exElements := by
  have ht : SpecTokens "O H".toList exElements := (C01_tokens_are_words _ _).1 (by decide)
  obtain ⟨m, h1, -⟩ := C04_register_bijection "O H".toList exElements ht (by decide +kernel) (by decide)
  exact ⟨m, by decide +kernel, by decide, _, ht, h1⟩

/-- Three types, the second of which is not described by the potential. -/
example (L : Lammps) (E : EMap) (hE : E.Of exElements) :
    ∃ emap flags L', coeff 3 (fun _ _ => false) [['*'], ['*'], ['O'], nullText, ['H']] = .ok (emap, flags) ∧
      L.initialize E emap L.getMaxCutoffRadius 3 = .ok L' ∧ L'.typeToElement 2 = none ∧
      (∃ e, L'.typeToElement 3 = some e ∧ E.symbol e = .ok ['H']) ∧ flags 1 3 = true ∧ flags 1 2 = false := by
  obtain ⟨emap, flags, h1, h2, h3, h4⟩ := C89_pair_coeff (L := L) (rc := L.getMaxCutoffRadius) (n := 3) hE
    (args := [['O'], nullText, ['H']]) rfl (by norm_num)
    (by unfold PlainText; decide) rfl (by decide) fun _ _ => false
  obtain ⟨L', hL⟩ := h3.2 ⟨le_rfl, by decide, by decide⟩
  have h5 := (h4 L' hL).1
  refine ⟨emap, flags, L', h1, hL, (h5 1 _ rfl).1 rfl, (h5 2 _ rfl).2 (by decide),
    (h2 1 3).2 (.inr ⟨by omega, by omega, by omega, ⟨_, rfl, by decide⟩, ⟨_, rfl, by decide⟩⟩), ?_⟩
  rw [← Bool.not_eq_true, h2]
  rintro (h | ⟨-, -, -, -, b, h6, h7⟩)
  · cases h
  · exact h7 (Option.some.inj h6).symm

/-- Two types of hydrogen and one of oxygen. -/
example (L : Lammps) (E : EMap) (hE : E.Of exElements) :
    ∃ emap flags, coeff 3 (fun _ _ => false) [['*'], ['*'], ['H'], ['H'], ['O']] = .ok (emap, flags) ∧
      ∀ L', L.initialize E emap L.getMaxCutoffRadius 3 ≠ .ok L' :=
  C89_too_many hE (args := [['H'], ['H'], ['O']]) rfl (by norm_num) (by decide) (by decide) _

/-- A hybrid simulation with an additional type. -/
example : coeff 3 (fun _ _ => false) [['*'], ['*'], ['H'], ['O'], nullText] = .error .undefined :=
  C89_last_null (args := [['H'], ['O'], nullText]) rfl rfl _

/-- Types counted from zero: type 0 is accepted, type 1 is the wrong element, type 2 is ignored. -/
example (L : Lammps) (E : EMap) (hE : E.Of exElements) :
    ∃ L', L.initialize E "0:H, 1:O".toList L.getMaxCutoffRadius 2 = .ok L' ∧
      (∃ e, L'.typeToElement 1 = some e ∧ E.symbol e = .ok ['O']) ∧ L'.typeToElement 2 = none := by
  obtain ⟨h1, h2⟩ := C89_mapping (L := L) (rc := L.getMaxCutoffRadius) (n := 2) hE
    (l := [(0, ['H']), (1, ['O'])]) (by simp) (by unfold PlainText; decide) (emap := "0:H, 1:O".toList) (by decide)
  obtain ⟨L', hL⟩ := h1.2 ⟨le_rfl, by decide, by decide⟩
  obtain ⟨h3, -⟩ := h2 L' hL
  exact ⟨L', hL, (h3 1 (by omega) (by omega)).2 [(0, ['H'])] [] ['O'] rfl (by simp),
    (h3 2 (by omega) (by omega)).1 (by decide)⟩

/-- Without mapping string: hydrogen is the first type. -/
example (L : Lammps) (E : EMap) (hE : E.Of exElements) :
    ∃ L', L.initialize E [] L.getMaxCutoffRadius 2 = .ok L' ∧ L'.typeToElement 1 = some 0 := by
  obtain ⟨h1, h2⟩ := C89_default (L := L) (rc := L.getMaxCutoffRadius) (n := 2) hE
  obtain ⟨L', hL⟩ := h1.2 ⟨le_rfl, rfl⟩
  exact ⟨L', hL, (h2 L' hL).1 1 (by omega) (by omega)⟩

example (L : Lammps) (E : EMap) (hE : E.Of exElements) :
    ∃ L', L.initialize E [' '] L.getMaxCutoffRadius 2 = .ok L' ∧ L'.typeToElement 1 = none := by
  obtain ⟨L', h1, h2⟩ := C89_blank (L := L) (n := 2) hE le_rfl (emap := [' ']) (by simp) (by unfold AllBlank; decide)
  exact ⟨L', h1, h2 1 (by omega) (by omega)⟩

end N2P2
