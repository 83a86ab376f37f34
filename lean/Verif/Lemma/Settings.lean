import Verif.Spec.Settings
import Verif.Lemma.Utility
import Verif.Props.Utility

namespace N2P2

theorem cutAt_cutAt (s : Str) : cutAt '!' (cutAt '#' s) = uncommented s := by
  unfold cutAt uncommented
  induction s with
  | nil => rfl
  | cons c cs ih =>
    by_cases h : c = '#'
    · subst h; rfl
    · by_cases h2 : c = '!'
      · subst h2; rfl
      · have h3 : (c != '#') = true := by simp [h]
        have h4 : (c != '!') = true := by simp [h2]
        simp only [List.takeWhile_cons, h3, h4, if_true, Bool.and_self]
        rw [ih]

theorem intercalate_joinSp (ts : List Str) : [' '].intercalate ts = joinSp ts := by
  induction ts with
  | nil => rfl
  | cons w ts ih =>
    cases ts with
    | nil => simp [joinSp, List.intercalate]
    | cons v vs =>
      rw [joinSp_cons (by simp), ← ih]
      simp [List.intercalate, List.intersperse]

theorem tokens_unique {s ts us} (h : SpecTokens s ts) (h' : SpecTokens s us) : ts = us := by
  rw [← (C01_tokens_are_words s ts).2 h, ← (C01_tokens_are_words s us).2 h']

theorem word_contains_sp {w : Str} (h : IsWord w) : w.contains ' ' = false := by
  rw [Bool.eq_false_iff]
  intro hc
  have := h.2 ' ' (by simpa using hc)
  exact absurd this (by decide)

/-- The entry produced for a line with words `ts`. -/
theorem parseLine_tokens (i : Nat) (line : Str) (ts : List Str) (hr : line ≠ ['\r'])
    (h : SpecTokens (uncommented line) ts) :
    (ts = [] → ∀ e, parseLine i line = some e → e = ⟨[], [], i⟩) ∧
    (∀ k us, ts = k :: us → parseLine i line = some ⟨k, joinSp us, i⟩) := by
  have hred := reduce_of_tokens h
  have hw := tokens_words h
  constructor
  · rintro rfl e he
    unfold parseLine at he
    rw [cutAt_cutAt] at he
    split at he
    · cases he
    split at he
    · cases he
    simp only at he
    split at he
    · cases he
    rw [hred] at he
    simp only [joinSp] at he
    simpa using he.symm
  · rintro k us rfl
    have hk := hw k (by simp)
    have hne : line ≠ [] := by
      rintro rfl
      have h0 : SpecTokens (uncommented []) [] := .nil (by simp [AllBlank, uncommented])
      exact List.cons_ne_nil _ _ (tokens_unique h h0)
    unfold parseLine
    rw [cutAt_cutAt]
    rw [if_neg (by simpa using hne), if_neg (by simpa using hr)]
    simp only
    rw [if_neg, hred]
    · by_cases hu : us = []
      · subst hu
        have hj : joinSp [k] = k := rfl
        rw [hj]
        rw [if_neg (by rw [word_contains_sp hk]; simp)]
        rfl
      · rw [joinSp_cons hu]
        rw [if_pos (by simp)]
        rw [takeWhile_word hk.2, dropWhile_sp_word hk.2]
        simp
    · intro hall
      have h0 : SpecTokens (uncommented line) [] := .nil (by
        intro c hc
        have := (List.all_eq_true.1 hall) c hc
        have : c = ' ' := by simpa using this
        rw [this]; rfl)
      exact List.cons_ne_nil _ _ (tokens_unique h h0)

theorem parseLine_cr (i : Nat) : parseLine i ['\r'] = none := by
  unfold parseLine; simp

theorem parseLine_iff (i : Nat) (line : Str) (e : Entry) :
    (parseLine i line = some e ∧ e.key ≠ []) ↔ (SpecEntry line e.key e.value ∧ e.line = i) := by
  obtain ⟨ts, hts⟩ := tokens_exist (uncommented line).length _ le_rfl
  by_cases hr : line = ['\r']
  · subst hr
    rw [parseLine_cr]
    constructor
    · rintro ⟨h, _⟩; cases h
    · rintro ⟨h, _⟩; exact absurd rfl h.1
  obtain ⟨h1, h2⟩ := parseLine_tokens i line ts hr hts
  constructor
  · rintro ⟨he, hk⟩
    cases ts with
    | nil => have := h1 rfl e he; subst this; exact absurd rfl hk
    | cons k us =>
      have := h2 k us rfl
      rw [he] at this
      injection this with this
      subst this
      exact ⟨⟨hr, us, hts, (intercalate_joinSp us).symm⟩, rfl⟩
  · rintro ⟨⟨_, us, hus, hv⟩, hi⟩
    have := tokens_unique hts hus
    subst this
    rw [h2 _ _ rfl]
    constructor
    · congr 1
      rw [intercalate_joinSp] at hv
      cases e; simp_all
    · exact (tokens_words hus _ (by simp)).1

theorem parseLine_line {i : Nat} {line : Str} {e : Entry} (h : parseLine i line = some e) :
    e.line = i := by
  unfold parseLine at h
  split at h
  · cases h
  split at h
  · cases h
  simp only at h
  split at h
  · cases h
  split at h <;> (injection h with h; subst h; rfl)

theorem mem_parseFrom (lines : List Str) : ∀ (i : Nat) (e : Entry),
    e ∈ parseFrom i lines ↔ ∃ j line, lines[j]? = some line ∧ parseLine (i + j) line = some e := by
  induction lines with
  | nil => intro i e; simp [parseFrom]
  | cons l ls ih =>
    intro i e
    rw [parseFrom, List.mem_append, ih]
    constructor
    · rintro (h | ⟨j, line, h1, h2⟩)
      · exact ⟨0, l, rfl, by simpa using h⟩
      · refine ⟨j + 1, line, by simpa using h1, ?_⟩
        rw [← h2]; congr 1; omega
    · rintro ⟨j, line, h1, h2⟩
      cases j with
      | zero => left; simp at h1; subst h1; simpa using h2
      | succ j =>
        right
        refine ⟨j, line, by simpa using h1, ?_⟩
        rw [← h2]; congr 1; omega

theorem parseFrom_line_ge {lines : List Str} {i : Nat} {e : Entry} (h : e ∈ parseFrom i lines) :
    i ≤ e.line := by
  obtain ⟨j, line, _, h2⟩ := (mem_parseFrom lines i e).1 h
  rw [parseLine_line h2]; omega

theorem parseFrom_pairwise (lines : List Str) : ∀ i : Nat,
    (parseFrom i lines).Pairwise (fun a b => a.line < b.line) := by
  induction lines with
  | nil => intro i; exact List.Pairwise.nil
  | cons l ls ih =>
    intro i
    rw [parseFrom, List.pairwise_append]
    refine ⟨?_, ih _, ?_⟩
    · cases parseLine i l <;> simp
    · intro a ha b hb
      have h1 : parseLine i l = some a := by simpa using ha
      have := parseLine_line h1
      have := parseFrom_line_ge hb
      omega

/-! ### Lookup -/

theorem find?_isSome_iff (c : Contents) (k : Str) : (c.find? k).isSome ↔ Present c k := by
  unfold Contents.find? Present
  rw [List.find?_isSome]
  simp

theorem find?_eq_head (c : Contents) (k : Str) : c.find? k = (c.range k).head? := by
  unfold Contents.find? Contents.range
  rw [List.head?_filter]

theorem knownSpellings_nodup : knownSpellings.Nodup := by decide +kernel
theorem nil_not_known : ([] : Str) ∉ knownSpellings := by decide +kernel
theorem groups_ne_nil : ∀ g ∈ keywordGroups, g ≠ [] := by decide +kernel

theorem groups_disjoint {G : List (List Str)} (hnd : G.flatten.Nodup) {g : List Str} (hg : g ∈ G)
    {k : Str} (hk : k ∈ g) : G.find? (fun g => g.contains k) = some g := by
  induction G with
  | nil => simp at hg
  | cons h hs ih =>
    rw [List.flatten_cons, List.nodup_append] at hnd
    rw [List.find?_cons]
    by_cases hh : h.contains k = true
    · rw [hh]
      rcases List.mem_cons.1 hg with rfl | hg'
      · rfl
      · exfalso
        exact hnd.2.2 k (by simpa using hh) k (List.mem_flatten.2 ⟨g, hg', hk⟩) rfl
    · have hf : h.contains k = false := by simpa using hh
      rw [hf]
      rcases List.mem_cons.1 hg with rfl | hg'
      · exfalso; apply hh; simpa using hk
      · exact ih hnd.2.1 hg'

theorem keyGroup_of_mem {g : List Str} (hg : g ∈ keywordGroups) {k : Str} (hk : k ∈ g) :
    keyGroup k = some g := groups_disjoint knownSpellings_nodup hg hk

theorem keyGroup_some {k : Str} {g : List Str} (h : keyGroup k = some g) :
    g ∈ keywordGroups ∧ k ∈ g := by
  unfold keyGroup at h
  refine ⟨List.mem_of_find?_eq_some h, ?_⟩
  have := List.find?_some h
  simpa using this

theorem keyGroup_none {k : Str} : keyGroup k = none ↔ k ∉ knownSpellings := by
  constructor
  · intro h hk
    obtain ⟨g, hg, hkg⟩ := List.mem_flatten.1 hk
    rw [keyGroup_of_mem hg hkg] at h
    cases h
  · intro h
    cases hg : keyGroup k with
    | none => rfl
    | some g =>
      obtain ⟨h1, h2⟩ := keyGroup_some hg
      exact absurd (List.mem_flatten.2 ⟨g, h1, h2⟩) h

theorem group_known {g : List Str} (hg : g ∈ keywordGroups) {k : Str} (hk : k ∈ g) :
    k ∈ knownSpellings := List.mem_flatten.2 ⟨g, hg, hk⟩

theorem group_nodup {g : List Str} (hg : g ∈ keywordGroups) : g.Nodup :=
  (List.sublist_flatten_of_mem hg).nodup knownSpellings_nodup

/-- `keywordExists` without `exact`. -/
theorem keywordExists_eq {c : Contents} {g : List Str} (hg : g ∈ keywordGroups) {k : Str}
    (hk : k ∈ g) : keywordExists c k = .ok (g.any (fun alt => (c.find? alt).isSome)) := by
  unfold keywordExists
  rw [keyGroup_of_mem hg hk]
  simp only [Bool.false_or]
  split
  · rename_i h
    have h1 : g.length = 1 := by simpa using h
    obtain ⟨a, rfl⟩ := List.length_eq_one_iff.1 h1
    have : k = a := by simpa using hk
    subst this
    simp
  · rfl

theorem keywordExists_exact {c : Contents} {g : List Str} (hg : g ∈ keywordGroups) {k : Str}
    (hk : k ∈ g) : keywordExists c k true = .ok (c.find? k).isSome := by
  unfold keywordExists
  rw [keyGroup_of_mem hg hk]
  simp

/-- The lookup functions depend on the contents only through the entries of known keywords. -/
theorem lookup_congr {c c' : Contents}
    (h : ∀ k, k ≠ [] → (c.find? k).isSome = (c'.find? k).isSome) (kw : Str) :
    keywordExists c kw = keywordExists c' kw ∧ keywordCheck c kw = keywordCheck c' kw := by
  cases hg : keyGroup kw with
  | none =>
    have e1 : ∀ (d : Contents) b, keywordExists d kw b = .error .notAllowed := by
      intro d b; unfold keywordExists; rw [hg]
    refine ⟨by rw [e1, e1], ?_⟩
    unfold keywordCheck; simp only [e1]
  | some g =>
    obtain ⟨h1, h2⟩ := keyGroup_some hg
    have hne : ∀ a ∈ g, a ≠ [] := fun a ha h0 => nil_not_known (h0 ▸ group_known h1 ha)
    have hany : g.any (fun alt => (c.find? alt).isSome) =
        g.any (fun alt => (c'.find? alt).isSome) := by
      rw [Bool.eq_iff_iff, List.any_eq_true, List.any_eq_true]
      constructor
      · rintro ⟨a, ha, hs⟩; exact ⟨a, ha, by rw [← h a (hne a ha)]; exact hs⟩
      · rintro ⟨a, ha, hs⟩; exact ⟨a, ha, by rw [h a (hne a ha)]; exact hs⟩
    have hfind : g.find? (fun alt => (c.find? alt).isSome) =
        g.find? (fun alt => (c'.find? alt).isSome) := by
      clear hany h2 h1 hg
      induction g with
      | nil => rfl
      | cons a as ih =>
        rw [List.find?_cons, List.find?_cons, h a (hne a (by simp)),
          ih (fun b hb => hne b (by simp [hb]))]
    refine ⟨by rw [keywordExists_eq h1 h2, keywordExists_eq h1 h2, hany], ?_⟩
    unfold keywordCheck
    rw [keywordExists_eq h1 h2, keywordExists_eq h1 h2, keywordExists_exact h1 h2,
      keywordExists_exact h1 h2, hany, h kw (hne kw h2), hg]
    simp only [hfind]

theorem two_present {c : Contents} {g : List Str} (hnd : g.Nodup) :
    1 < (g.filter (fun alt => (c.find? alt).isSome)).length ↔
      ∃ a ∈ g, ∃ b ∈ g, a ≠ b ∧ Present c a ∧ Present c b := by
  have hnd' : (g.filter (fun alt => (c.find? alt).isSome)).Nodup := hnd.filter _
  constructor
  · intro h
    match hl : g.filter (fun alt => (c.find? alt).isSome), h with
    | a :: b :: t, _ =>
      have ha : a ∈ g.filter (fun alt => (c.find? alt).isSome) := by rw [hl]; simp
      have hb : b ∈ g.filter (fun alt => (c.find? alt).isSome) := by rw [hl]; simp
      rw [List.mem_filter, find?_isSome_iff] at ha hb
      rw [hl] at hnd'
      refine ⟨a, ha.1, b, hb.1, ?_, ha.2, hb.2⟩
      rintro rfl
      simp at hnd'
  · rintro ⟨a, ha, b, hb, hne, pa, pb⟩
    have ha' : a ∈ g.filter (fun alt => (c.find? alt).isSome) := by
      rw [List.mem_filter, find?_isSome_iff]; exact ⟨ha, pa⟩
    have hb' : b ∈ g.filter (fun alt => (c.find? alt).isSome) := by
      rw [List.mem_filter, find?_isSome_iff]; exact ⟨hb, pb⟩
    match g.filter (fun alt => (c.find? alt).isSome), ha', hb' with
    | [], h, _ => simp at h
    | [x], h1, h2 =>
      simp at h1 h2
      exact absurd (h1.trans h2.symm) hne
    | x :: y :: t, _, _ => simp

/-! ### Text files -/

theorem takeWhile_line {l : Str} (h : '\n' ∉ l) (t : Str) :
    (l ++ '\n' :: t).takeWhile (· != '\n') = l := by
  induction l with
  | nil => simp
  | cons c cs ih =>
    have h1 : (c != '\n') = true := by
      have : c ≠ '\n' := fun e => h (by simp [e])
      simp [this]
    simp only [List.cons_append, List.takeWhile_cons, h1, if_true]
    rw [ih (fun hm => h (by simp [hm]))]

theorem dropWhile_line {l : Str} (h : '\n' ∉ l) (t : Str) :
    (l ++ '\n' :: t).dropWhile (· != '\n') = '\n' :: t := by
  induction l with
  | nil => simp
  | cons c cs ih =>
    have h1 : (c != '\n') = true := by
      have : c ≠ '\n' := fun e => h (by simp [e])
      simp [this]
    simp only [List.cons_append, List.dropWhile_cons, h1, if_true]
    exact ih (fun hm => h (by simp [hm]))

theorem splitFuel_lines (ls : List Str) : (∀ l ∈ ls, '\n' ∉ l) →
    ∀ n, (ls.flatMap (· ++ ['\n'])).length ≤ n →
      splitFuel '\n' n (ls.flatMap (· ++ ['\n'])) = ls := by
  induction ls with
  | nil => intro _ n _; exact splitFuel_nil _ _
  | cons l ls ih =>
    intro h n hn
    simp only [List.flatMap_cons, List.append_assoc, List.cons_append, List.nil_append,
      List.length_append, List.length_cons] at hn ⊢
    obtain ⟨m, rfl⟩ : ∃ m, n = m + 1 := ⟨n - 1, by omega⟩
    rw [splitFuel_step _ _ _ (by simp), takeWhile_line (h l (by simp)),
      dropWhile_line (h l (by simp))]
    simp only [List.drop_succ_cons, List.drop_zero]
    rw [ih (fun x hx => h x (by simp [hx])) m (by omega)]

theorem readLines_write (ls : List Str) (h : ∀ l ∈ ls, '\n' ∉ l) :
    readLines (ls.flatMap (· ++ ['\n'])) = ls := splitFuel_lines ls h _ le_rfl

/-- Lines of the pruned file. -/
def prunedLines (prune : List Nat) : Nat → List Str → List Str
  | _, [] => []
  | i, l :: ls => ((if prune.contains i then ['#', ' '] else []) ++ l) ::
      prunedLines prune (i + 1) ls

theorem prunedFrom_eq (prune : List Nat) (ls : List Str) : ∀ i,
    prunedFrom prune i ls = (prunedLines prune i ls).flatMap (· ++ ['\n']) := by
  induction ls with
  | nil => intro i; rfl
  | cons l ls ih => intro i; simp [prunedFrom, prunedLines, ih]

theorem prunedLines_get (prune : List Nat) (ls : List Str) : ∀ i j : Nat,
    (prunedLines prune i ls)[j]? =
      ls[j]?.map (fun l => (if prune.contains (i + j) then ['#', ' '] else []) ++ l) := by
  induction ls with
  | nil => intro i j; simp [prunedLines]
  | cons l ls ih =>
    intro i j
    cases j with
    | zero => simp [prunedLines]
    | succ j =>
      simp only [prunedLines, List.getElem?_cons_succ, ih]
      have : i + 1 + j = i + (j + 1) := by omega
      rw [this]

theorem prunedLines_length (prune : List Nat) (ls : List Str) : ∀ i,
    (prunedLines prune i ls).length = ls.length := by
  induction ls with
  | nil => intro i; rfl
  | cons l ls ih => intro i; simp [prunedLines, ih]

theorem prunedLines_nl (prune : List Nat) (ls : List Str) (h : ∀ l ∈ ls, '\n' ∉ l) : ∀ i,
    ∀ l ∈ prunedLines prune i ls, '\n' ∉ l := by
  induction ls with
  | nil => intro i; simp [prunedLines]
  | cons l ls ih =>
    intro i m hm
    rw [prunedLines, List.mem_cons] at hm
    rcases hm with rfl | hm
    · have := h l (by simp)
      split <;> simp [this]
    · exact ih (fun x hx => h x (by simp [hx])) _ m hm

theorem parseLine_commented (i : Nat) (l : Str) : parseLine i ('#' :: ' ' :: l) = none := by
  unfold parseLine
  have : cutAt '!' (cutAt '#' ('#' :: ' ' :: l)) = [] := by
    rw [cutAt_cutAt]; rfl
  rw [this]
  simp

theorem parseFrom_pruned (prune : List Nat) (ls : List Str) : ∀ i,
    parseFrom i (prunedLines prune i ls) =
      (parseFrom i ls).filter (fun e => !prune.contains e.line) := by
  induction ls with
  | nil => intro i; rfl
  | cons l ls ih =>
    intro i
    simp only [prunedLines, parseFrom, List.filter_append, ih]
    congr 1
    by_cases hp : prune.contains i = true
    · simp only [hp, if_true, List.cons_append, List.nil_append, parseLine_commented]
      cases he : parseLine i l with
      | none => rfl
      | some e =>
        have := parseLine_line he
        simp only [Option.toList, List.filter_cons, this, hp]
        rfl
    · have hp' : prune.contains i = false := by simpa using hp
      simp only [hp', Bool.false_eq_true, if_false, List.nil_append]
      cases he : parseLine i l with
      | none => rfl
      | some e =>
        have := parseLine_line he
        simp only [Option.toList, List.filter_cons, this, hp']
        rfl

end N2P2
