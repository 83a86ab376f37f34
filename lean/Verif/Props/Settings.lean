import Verif.Lemma.Settings

/-! Properties C06 (parsing), C07 (sanity check), C08 (alternative spellings), C09 (pruning). -/

namespace N2P2

/-! ### C06 -/

/-- C06: a keyword/value pair is stored for line `i` exactly if line `i` defines it. -/
theorem C06_entries_are_lines (lines : List Str) (k v : Str) (hk : k ≠ []) (i : Nat) :
    (⟨k, v, i⟩ : Entry) ∈ parseLines lines ↔
      ∃ line, lines[i]? = some line ∧ SpecEntry line k v := by
  unfold parseLines
  rw [mem_parseFrom]
  constructor
  · rintro ⟨j, line, h1, h2⟩
    have hl := parseLine_line h2
    simp only [Nat.zero_add] at hl
    have := (parseLine_iff _ line ⟨k, v, i⟩).1 ⟨h2, hk⟩
    subst hl
    exact ⟨line, h1, this.1⟩
  · rintro ⟨line, h1, h2⟩
    refine ⟨i, line, h1, ?_⟩
    exact ((parseLine_iff (0 + i) line ⟨k, v, i⟩).2 ⟨h2, by simp⟩).1

example : (⟨"cutoff".toList, "1 6.0".toList, 1⟩ : Entry) ∈
    parseLines ["# c".toList, " cutoff\t1   6.0 # x".toList] := by decide +kernel

/-- C06: entries appear in file order and every line yields at most one. -/
theorem C06_entries_in_file_order (lines : List Str) :
    (parseLines lines).Pairwise (fun a b => a.line < b.line) := parseFrom_pairwise lines 0

example : parseLines ["b 1".toList, "a 2".toList] =
    [⟨"b".toList, "1".toList, 0⟩, ⟨"a".toList, "2".toList, 1⟩] := by decide +kernel

/-- C06: a comment never changes what a line means. -/
theorem C06_comment_irrelevant (a c : Str) (m : Char) (hm : m = '#' ∨ m = '!') (ha : a ≠ ['\r'])
    (k v : Str) : SpecEntry (a ++ m :: c) k v ↔ SpecEntry a k v := by
  have hun : uncommented (a ++ m :: c) = uncommented a := by
    unfold uncommented
    induction a with
    | nil => rcases hm with rfl | rfl <;> simp
    | cons x xs ih =>
      simp only [List.cons_append, List.takeWhile_cons]
      by_cases hx : xs = ['\r']
      · subst hx
        rcases hm with rfl | rfl <;> simp
      · rw [ih hx]
  have hr : a ++ m :: c ≠ ['\r'] := by
    intro h
    have : m ∈ ['\r'] := by rw [← h]; simp
    rcases hm with rfl | rfl <;> simp at this
  unfold SpecEntry
  rw [hun]
  exact ⟨fun h => ⟨ha, h.2⟩, fun h => ⟨hr, h.2⟩⟩

example : SpecEntry "epochs 10 ! ten".toList "epochs".toList "10".toList := by
  have h := (C06_entries_are_lines ["epochs 10 ! ten".toList] "epochs".toList "10".toList
    (by decide) 0).1 (by decide +kernel)
  obtain ⟨l, h1, h2⟩ := h
  simp only [List.getElem?_cons_zero, Option.some.injEq] at h1
  exact h1 ▸ h2

/-- C06: files whose lines have the same words before comments answer every query alike. -/
theorem C06_spacing_and_comments (lines lines' : List Str)
    (h : List.Forall₂ SameLine lines lines') (kw : Str) :
    getValue (parseLines lines) kw = getValue (parseLines lines') kw ∧
    getValues (parseLines lines) kw = getValues (parseLines lines') kw ∧
    keywordExists (parseLines lines) kw = keywordExists (parseLines lines') kw := by
  have hline : ∀ i l l', SameLine l l' → ∀ e : Entry, e.key ≠ [] →
      (parseLine i l = some e ↔ parseLine i l' = some e) := by
    intro i l l' hs e he
    have hse : SpecEntry l e.key e.value ↔ SpecEntry l' e.key e.value := by
      unfold SpecEntry
      simp only [hs.2, ne_eq, hs.1]
    have a := parseLine_iff i l e
    have b := parseLine_iff i l' e
    constructor
    · intro h; exact (b.2 ⟨hse.1 (a.1 ⟨h, he⟩).1, (a.1 ⟨h, he⟩).2⟩).1
    · intro h; exact (a.2 ⟨hse.2 (b.1 ⟨h, he⟩).1, (b.1 ⟨h, he⟩).2⟩).1
  have hrange : ∀ i, ∀ k, k ≠ [] →
      Contents.range (parseFrom i lines) k = Contents.range (parseFrom i lines') k := by
    intro i k hk
    induction h generalizing i with
    | nil => rfl
    | @cons l l' ls ls' hl _ ih =>
      unfold Contents.range at ih ⊢
      rw [parseFrom, parseFrom, List.filter_append, List.filter_append, ih]
      congr 1
      have hl' := hline i l l' hl
      cases h1 : parseLine i l with
      | none =>
        cases h2 : parseLine i l' with
        | none => rfl
        | some e' =>
          by_cases hek : e'.key = []
          · simp [hek, Ne.symm hk]
          · rw [(hl' e' hek).2 h2] at h1; cases h1
      | some e =>
        by_cases hek : e.key = []
        · cases h2 : parseLine i l' with
          | none => simp [hek, Ne.symm hk]
          | some e' =>
            by_cases hek' : e'.key = []
            · simp [List.filter_cons, hek, hek', hk]
            · rw [(hl' e' hek').2 h2] at h1; injection h1 with h1; subst h1
              exact absurd hek hek'
        · rw [(hl' e hek).1 h1]
  have hfind : ∀ k, k ≠ [] →
      Contents.find? (parseLines lines) k = Contents.find? (parseLines lines') k := by
    intro k hk
    rw [find?_eq_head, find?_eq_head]
    unfold parseLines
    rw [hrange 0 k hk]
  obtain ⟨e1, e2⟩ := lookup_congr (c := parseLines lines) (c' := parseLines lines')
    (fun k hk => by rw [hfind k hk]) kw
  have hkne : ∀ k, keywordCheck (parseLines lines') kw = .ok k → k ≠ [] := by
    intro k hk h0
    subst h0
    unfold keywordCheck at hk
    cases hg : keyGroup kw with
    | none => simp [keywordExists, hg] at hk
    | some g =>
      obtain ⟨g1, g2⟩ := keyGroup_some hg
      have hkw : kw ≠ [] := fun h0 => nil_not_known (h0 ▸ group_known g1 g2)
      rw [keywordExists_eq g1 g2, keywordExists_exact g1 g2, hg] at hk
      split at hk
      · cases hk
      · cases hk
      · split at hk
        · cases hk
        · injection hk with hk; exact hkw hk
        · simp only [Except.ok.injEq] at hk
          cases hf : g.find? (fun alt => (Contents.find? (parseLines lines') alt).isSome) with
          | none => rw [hf] at hk; exact hkw hk
          | some a =>
            rw [hf] at hk
            have : a = [] := hk
            exact nil_not_known (this ▸ group_known g1 (List.mem_of_find?_eq_some hf))
  refine ⟨?_, ?_, e1⟩
  · unfold getValue
    rw [e2]
    cases hc : keywordCheck (parseLines lines') kw with
    | error e => rfl
    | ok k => simp only [hfind k (hkne k hc)]
  · unfold getValues
    rw [e2]
    cases hc : keywordCheck (parseLines lines') kw with
    | error e => rfl
    | ok k =>
      have := hrange 0 k (hkne k hc)
      simp only
      unfold parseLines
      rw [this]

example : SameLine " epochs  10 # a".toList "epochs 10!b".toList := by
  refine ⟨by decide, fun ts => ?_⟩
  rw [← C01_tokens_are_words, ← C01_tokens_are_words]
  have h : split (reduce (uncommented " epochs  10 # a".toList)) =
      split (reduce (uncommented "epochs 10!b".toList)) := by decide +kernel
  rw [h]

/-- C06: moving lines around keeps every value of a keyword whose spellings occur at most once. -/
theorem C06_line_order (lines lines' : List Str) (hp : lines.Perm lines') (kw : Str)
    (h1 : ∀ g ∈ keywordGroups, kw ∈ g → ∀ k ∈ g, Contents.count (parseLines lines) k ≤ 1) :
    getValue (parseLines lines) kw = getValue (parseLines lines') kw ∧
    keywordExists (parseLines lines) kw = keywordExists (parseLines lines') kw := by
  -- stored keyword/value pairs are permuted
  have hpl : ∀ i j l, (parseLine i l).map (fun e => (e.key, e.value)) =
      (parseLine j l).map (fun e => (e.key, e.value)) := by
    intro i j l
    unfold parseLine
    split
    · rfl
    split
    · rfl
    simp only
    split
    · rfl
    split <;> rfl
  have hkv : ∀ ls : List Str, ∀ i, (parseFrom i ls).map (fun e => (e.key, e.value)) =
      ls.filterMap (fun l => (parseLine 0 l).map (fun e => (e.key, e.value))) := by
    intro ls
    induction ls with
    | nil => intro i; rfl
    | cons l ls ih =>
      intro i
      rw [parseFrom, List.map_append, ih, List.filterMap_cons, hpl 0 i l]
      cases parseLine i l <;> rfl
  have hperm : ((parseLines lines).map (fun e => (e.key, e.value))).Perm
      ((parseLines lines').map (fun e => (e.key, e.value))) := by
    unfold parseLines
    rw [hkv, hkv]
    exact hp.filterMap _
  have hpres : ∀ k, Present (parseLines lines) k ↔ Present (parseLines lines') k := by
    intro k
    have hm : ∀ c : Contents, Present c k ↔ ∃ v, (k, v) ∈ c.map (fun e => (e.key, e.value)) := by
      intro c
      unfold Present
      constructor
      · rintro ⟨e, he, rfl⟩; exact ⟨e.value, List.mem_map.2 ⟨e, he, rfl⟩⟩
      · rintro ⟨v, hv⟩
        obtain ⟨e, he, h⟩ := List.mem_map.1 hv
        exact ⟨e, he, (Prod.mk.inj h).1⟩
    rw [hm, hm]
    simp only [hperm.mem_iff]
  obtain ⟨e1, e2⟩ := lookup_congr (c := parseLines lines) (c' := parseLines lines')
    (fun k _ => by rw [Bool.eq_iff_iff, find?_isSome_iff, find?_isSome_iff]; exact hpres k) kw
  refine ⟨?_, e1⟩
  have hval : ∀ k, Contents.count (parseLines lines) k ≤ 1 →
      (Contents.find? (parseLines lines) k).map (·.value) =
        (Contents.find? (parseLines lines') k).map (·.value) := by
    intro k hc
    have hr : ∀ c : Contents, (Contents.find? c k).map (·.value) =
        ((c.map (fun e => (e.key, e.value))).filter (fun p => p.1 == k)).head?.map (·.2) := by
      intro c
      rw [find?_eq_head, List.filter_map, List.head?_map, Option.map_map]
      unfold Contents.range
      rfl
    have hlen : ((List.map (fun e => (e.key, e.value)) (parseLines lines)).filter
        (fun p => p.1 == k)).length ≤ 1 := by
      rw [List.filter_map, List.length_map]
      unfold Contents.count at hc
      rw [List.countP_eq_length_filter] at hc
      exact hc
    rw [hr, hr]
    have hpf := hperm.filter (fun p => p.1 == k)
    generalize List.filter _ (List.map _ (parseLines lines)) = A at hpf hlen
    generalize List.filter _ (List.map _ (parseLines lines')) = B at hpf
    match A, hlen with
    | [], _ => rw [List.nil_perm.1 hpf]
    | [a], _ => rw [List.singleton_perm.1 hpf]
  have hgrp : ∀ k, keywordCheck (parseLines lines) kw = .ok k →
      Contents.count (parseLines lines) k ≤ 1 := by
    intro k hk
    unfold keywordCheck at hk
    cases hg : keyGroup kw with
    | none => simp [keywordExists, hg] at hk
    | some g =>
      obtain ⟨g1, g2⟩ := keyGroup_some hg
      rw [hg] at hk
      split at hk
      · cases hk
      · cases hk
      · split at hk
        · cases hk
        · injection hk with hk; subst hk; exact h1 g g1 g2 _ g2
        · simp only [Except.ok.injEq] at hk
          cases hf : g.find? (fun alt => (Contents.find? (parseLines lines) alt).isSome) with
          | none => rw [hf] at hk; have : kw = k := hk; subst this; exact h1 g g1 g2 _ g2
          | some a =>
            rw [hf] at hk
            have : a = k := hk
            subst this
            exact h1 g g1 g2 _ (List.mem_of_find?_eq_some hf)
  unfold getValue
  rw [← e2]
  cases hc : keywordCheck (parseLines lines) kw with
  | error e => rfl
  | ok k =>
    have hv := hval k (hgrp k hc)
    simp only
    cases f1 : Contents.find? (parseLines lines) k with
    | none =>
      cases f2 : Contents.find? (parseLines lines') k with
      | none => rfl
      | some b => rw [f1, f2] at hv; cases hv
    | some a =>
      cases f2 : Contents.find? (parseLines lines') k with
      | none => rw [f1, f2] at hv; cases hv
      | some b =>
        rw [f1, f2] at hv
        have : a.value = b.value := by simpa using hv
        simp only [this]

example : getValue (parseLines ["epochs 5".toList, "elements H".toList]) "epochs".toList =
    .ok "5".toList := by decide +kernel

/-! ### C07 -/

/-- C07: no critical problem is reported exactly if only repeatable keywords are repeated and no
keyword is given under two spellings. -/
theorem C07_no_critical_iff (c : Contents) :
    (sanityCheck c).2 = 0 ↔
      (∀ k ∈ knownSpellings, k ∉ repeatable → Contents.count c k ≤ 1) ∧
      (∀ g ∈ keywordGroups, ∀ a ∈ g, ∀ b ∈ g, Present c a → Present c b → a = b) := by
  unfold sanityCheck
  simp only [Nat.add_eq_zero_iff, List.countP_eq_zero]
  apply and_congr
  · refine forall₂_congr fun k _ => ?_
    simp only [Bool.and_eq_true, decide_eq_true_eq, Bool.not_eq_true', List.contains_iff_mem,
      not_and, ← Bool.not_eq_true, not_not]
    constructor
    · intro h hr; by_contra hc; exact hr (h (by omega))
    · intro h hc; by_contra hr; have := h hr; omega
  · constructor
    · intro h g hg a ha b hb pa pb
      by_contra hne
      have := h a (group_known hg ha)
      rw [keyGroup_of_mem hg ha] at this
      apply this
      have h2 := (two_present (c := c) (group_nodup hg)).2 ⟨a, ha, b, hb, hne, pa, pb⟩
      have h3 := List.length_filter_le (fun alt => (c.find? alt).isSome) g
      simp only [Bool.and_eq_true, Bool.not_eq_true', beq_eq_false_iff_ne, decide_eq_true_eq]
      exact ⟨by omega, h2⟩
    · intro h k _
      cases hg : keyGroup k with
      | none => simp
      | some g =>
        obtain ⟨g1, g2⟩ := keyGroup_some hg
        simp only [Bool.and_eq_true, Bool.not_eq_true', beq_eq_false_iff_ne, decide_eq_true_eq]
        rintro ⟨_, h2⟩
        obtain ⟨a, ha, b, hb, hne, pa, pb⟩ := (two_present (group_nodup g1)).1 h2
        exact hne (h g g1 a ha b hb pa pb)

/-- C07: no problem is reported exactly if, in addition, all keywords are registered. -/
theorem C07_no_problem_iff (c : Contents) :
    (sanityCheck c).1 = 0 ↔
      (∀ k, Present c k → k ∈ knownSpellings) ∧
      (∀ k ∈ knownSpellings, k ∉ repeatable → Contents.count c k ≤ 1) ∧
      (∀ g ∈ keywordGroups, ∀ a ∈ g, ∀ b ∈ g, Present c a → Present c b → a = b) := by
  rw [← C07_no_critical_iff]
  unfold sanityCheck
  simp only [Nat.add_eq_zero_iff, and_assoc]
  apply and_congr_left
  intro _
  rw [List.countP_eq_zero]
  unfold Present
  constructor
  · rintro h k ⟨e, he, rfl⟩
    have := h e he
    simpa using this
  · intro h e he
    have := h e.key ⟨e, he, rfl⟩
    simpa using this

/-- C07: the number of problems is the number of critical ones plus one per unknown line. -/
theorem C07_problem_count (c : Contents) :
    (sanityCheck c).1 = (sanityCheck c).2 + List.countP (fun e => e.key ∉ knownSpellings) c := by
  unfold sanityCheck
  simp only
  have : List.countP (fun e => !knownSpellings.contains e.key) c =
      List.countP (fun e => decide (e.key ∉ knownSpellings)) c := by
    apply List.countP_congr
    intro e _
    simp
  rw [← this]
  omega

example : sanityCheck (parseLines ["epochs 5".toList, "epochs 6".toList, "bogus 1".toList]) =
    (2, 1) := by decide +kernel
example : sanityCheck (parseLines ["symfunction_short H 2".toList, "symfunction_short O 2".toList,
    "epochs 6".toList]) = (0, 0) := by decide +kernel
example : sanityCheck (parseLines ["symfunction_short H 2".toList, "symfunction H 2".toList]) =
    (2, 2) := by decide +kernel

/-! ### C08 -/

/-- C08: if one spelling of a keyword is used, every spelling finds its first value and all its
entries. -/
theorem C08_any_spelling (c : Contents) (g : List Str) (hg : g ∈ keywordGroups) (s : Str)
    (hs : s ∈ g) (e : Entry) (rest : List Entry)
    (hr : c.filter (fun x => x.key == s) = e :: rest)
    (hone : ∀ a ∈ g, Present c a → a = s) :
    ∀ k ∈ g, keywordExists c k = .ok true ∧ getValue c k = .ok e.value ∧
      getValues c k = .ok (e :: rest) := by
  intro k hk
  have hfs : c.find? s = some e := by
    rw [find?_eq_head]; unfold Contents.range; rw [hr]; rfl
  have hps : (c.find? s).isSome := by rw [hfs]; rfl
  have hex : keywordExists c k = .ok true := by
    rw [keywordExists_eq hg hk]
    congr 1
    rw [List.any_eq_true]
    exact ⟨s, hs, hps⟩
  have hfind : g.find? (fun alt => (c.find? alt).isSome) = some s := by
    cases hf : g.find? (fun alt => (c.find? alt).isSome) with
    | none => rw [List.find?_eq_none] at hf; exact absurd hps (hf s hs)
    | some a =>
      have h1 := List.mem_of_find?_eq_some hf
      have h2 := List.find?_some hf
      rw [hone a h1 ((find?_isSome_iff c a).1 h2)]
  have hchk : keywordCheck c k = .ok s := by
    unfold keywordCheck
    rw [hex, keywordExists_exact hg hk, keyGroup_of_mem hg hk]
    by_cases hp : (c.find? k).isSome = true
    · rw [hp]
      simp only
      rw [hone k hk ((find?_isSome_iff c k).1 hp)]
    · have hp' : (c.find? k).isSome = false := by simpa using hp
      rw [hp']
      simp only [hfind]
      rfl
  refine ⟨hex, ?_, ?_⟩
  · unfold getValue; rw [hchk]; simp only [hfs]
  · unfold getValues; rw [hchk]; simp only [Contents.range, hr]

example : getValue (parseLines ["symfunction H 2".toList]) "symfunction_short".toList =
    .ok "H 2".toList := by decide +kernel

/-- C08: if no spelling is used the keyword does not exist and reading it reports that. -/
theorem C08_absent (c : Contents) (g : List Str) (hg : g ∈ keywordGroups)
    (hno : ∀ a ∈ g, ¬ Present c a) :
    ∀ k ∈ g, keywordExists c k = .ok false ∧ getValue c k = .error .notFound ∧
      getValues c k = .error .notFound := by
  intro k hk
  have hex : keywordExists c k = .ok false := by
    rw [keywordExists_eq hg hk]
    congr 1
    rw [List.any_eq_false]
    intro a ha h
    exact hno a ha ((find?_isSome_iff c a).1 h)
  have hchk : keywordCheck c k = .error .notFound := by unfold keywordCheck; rw [hex]
  refine ⟨hex, ?_, ?_⟩
  · unfold getValue; rw [hchk]
  · unfold getValues; rw [hchk]

example : getValue (parseLines ["epochs 3".toList]) "symfunction_short".toList =
    .error .notFound := by decide +kernel

/-- C08: a spelling that is not registered is refused, even if the file contains it. -/
theorem C08_unregistered (c : Contents) (k : Str) (hk : k ∉ knownSpellings) :
    keywordExists c k = .error .notAllowed ∧ getValue c k = .error .notAllowed ∧
      getValues c k = .error .notAllowed := by
  have hex : keywordExists c k = .error .notAllowed := by
    unfold keywordExists; rw [keyGroup_none.2 hk]
  have hchk : keywordCheck c k = .error .notAllowed := by unfold keywordCheck; rw [hex]
  refine ⟨hex, ?_, ?_⟩
  · unfold getValue; rw [hchk]
  · unfold getValues; rw [hchk]

example : getValue (parseLines ["bogus 3".toList]) "bogus".toList = .error .notAllowed := by
  decide +kernel

/-- C08: reading a value never dereferences a missing entry, whatever the contents. -/
theorem C08_never_undefined (c : Contents) (k : Str) : getValue c k ≠ .error .ub := by
  unfold getValue
  cases hg : keyGroup k with
  | none =>
    have hex : keywordExists c k = .error .notAllowed := by unfold keywordExists; rw [hg]
    have hchk : keywordCheck c k = .error .notAllowed := by unfold keywordCheck; rw [hex]
    rw [hchk]; simp
  | some g =>
    obtain ⟨g1, g2⟩ := keyGroup_some hg
    unfold keywordCheck
    rw [keywordExists_eq g1 g2, keywordExists_exact g1 g2, hg]
    cases ha : g.any (fun alt => (c.find? alt).isSome) with
    | false => simp
    | true =>
      simp only
      cases hk : (c.find? k).isSome with
      | true =>
        simp only
        rw [Option.isSome_iff_exists] at hk
        obtain ⟨e, he⟩ := hk
        rw [he]; simp
      | false =>
        simp only
        rw [List.any_eq_true] at ha
        obtain ⟨a, ha1, ha2⟩ := ha
        cases hf : g.find? (fun alt => (c.find? alt).isSome) with
        | none => rw [List.find?_eq_none] at hf; exact absurd ha2 (hf a ha1)
        | some b =>
          have := List.find?_some hf
          rw [Option.isSome_iff_exists] at this
          obtain ⟨e, he⟩ := this
          simp only [Option.getD_some, he]
          simp

/-! ### C09 -/

/-- C09: the pruned file has the same lines, the pruned ones commented out. -/
theorem C09_pruned_lines (prune : List Nat) (lines : List Str) (h : ∀ l ∈ lines, '\n' ∉ l) :
    (readLines (writePruned prune lines)).length = lines.length ∧
    ∀ i : Nat, (readLines (writePruned prune lines))[i]? =
      lines[i]?.map (fun l => if i ∈ prune then "# ".toList ++ l else l) := by
  have hr : readLines (writePruned prune lines) = prunedLines prune 0 lines := by
    unfold writePruned
    rw [prunedFrom_eq]
    exact readLines_write _ (prunedLines_nl prune lines h 0)
  rw [hr]
  refine ⟨prunedLines_length _ _ _, fun i => ?_⟩
  rw [prunedLines_get]
  congr 1
  funext l
  simp only [Nat.zero_add, List.contains_iff_mem]
  split <;> rfl

/-- C09: reading the pruned file gives the original entries without the pruned lines. -/
theorem C09_pruned_contents (prune : List Nat) (lines : List Str) (h : ∀ l ∈ lines, '\n' ∉ l) :
    parseLines (readLines (writePruned prune lines)) =
      (parseLines lines).filter (fun e => e.line ∉ prune) := by
  have hr : readLines (writePruned prune lines) = prunedLines prune 0 lines := by
    unfold writePruned
    rw [prunedFrom_eq]
    exact readLines_write _ (prunedLines_nl prune lines h 0)
  rw [hr]
  unfold parseLines
  rw [parseFrom_pruned]
  apply List.filter_congr
  intro e _
  simp

example : parseLines (readLines (writePruned [1]
    ["a 1".toList, "symfunction_short H".toList, "b 2".toList])) =
    [⟨"a".toList, "1".toList, 0⟩, ⟨"b".toList, "2".toList, 2⟩] := by decide +kernel

/-! ### C69 -/

theorem writeSettingsFrom_eq (repl : Nat → Option Str) (new : Nat → Option Str)
    (h : ∀ i, repl i = (new i).map (· ++ ['\n'])) (ls : List Str) : ∀ i,
    writeSettingsFrom repl i ls =
      (ls.mapIdx fun j l => (new (i + j)).getD l).flatMap (· ++ ['\n']) := by
  induction ls with
  | nil => intro i; rfl
  | cons l ls ih =>
    intro i
    rw [writeSettingsFrom, ih, h, List.mapIdx_cons, List.flatMap_cons]
    congr 1
    · cases new i <;> simp
    · congr 2
      funext j l
      rw [show i + 1 + j = i + (j + 1) by omega]

/-- C69: the written settings file has the lines of the original one, in order, with the given lines
replaced. -/
theorem C69_written_lines (new : Nat → Option Str) (lines : List Str) (h : ∀ l ∈ lines, '\n' ∉ l)
    (hnew : ∀ i r, new i = some r → '\n' ∉ r) :
    (readLines (writeSettingsFrom (fun i => (new i).map (· ++ ['\n'])) 0 lines)).length =
      lines.length ∧
    ∀ i : Nat, (readLines (writeSettingsFrom (fun i => (new i).map (· ++ ['\n'])) 0 lines))[i]? =
      lines[i]?.map fun l => (new i).getD l := by
  rw [writeSettingsFrom_eq _ new (fun _ => rfl), readLines_write _ (by
    intro l hl
    obtain ⟨i, hi, rfl⟩ := List.mem_mapIdx.1 hl
    cases hn : new (0 + i) with
    | none => exact h _ (List.getElem_mem hi)
    | some r => exact hnew _ _ hn)]
  refine ⟨by simp, fun i => by simp⟩

/-- C69: without replacements the file is the original one, and reading it gives the same entries. -/
theorem C69_written_contents (lines : List Str) (h : ∀ l ∈ lines, '\n' ∉ l) :
    readLines (writeSettingsFrom (fun _ => none) 0 lines) = lines := by
  have := C69_written_lines (fun _ => none) lines h (fun _ _ h => by cases h)
  refine List.ext_getElem? fun i => ?_
  have h2 := this.2 i
  simpa using h2

example : readLines (writeSettingsFrom (fun i => if i = 1 then some "b 3\n".toList else none) 0
    ["a 1".toList, "b 2".toList, "# c".toList]) = ["a 1".toList, "b 3".toList, "# c".toList] := by
  decide +kernel

end N2P2
