import Verif.Lemma.Select
import Verif.Props.DataFile

/-! Properties of the selection of structures. -/

namespace N2P2

variable {L : List (List Str)}

/-- C94: from a file of structures, exactly the wanted ones (every `n`-th, or those with a random number
below the ratio) are written to `output.data`, complete and in their order, and exactly the others to
`reject.data`. The numbers reported are right. -/
theorem C94_selected {mode : SelectMode} (hm : mode.Sensible) (hL : ∀ l ∈ L, IsSection l) :
    ∃ s, select mode L.flatten = some s ∧ s.output = (picked mode.Wants L).flatten ∧
      s.reject = (picked (fun k => ¬ mode.Wants k) L).flatten ∧ s.countStructures = L.length ∧
      s.countSelected = (picked mode.Wants L).length := by
  obtain ⟨s, h1, h2, h3, h4, h5⟩ := select_sections hm L hL SelectState.start
  refine ⟨s, h1, ?_, ?_, ?_, ?_⟩
  · rw [h4]
    rfl
  · rw [h5]
    rfl
  · rw [h2]
    exact Nat.zero_add _
  · rw [h3]
    exact Nat.zero_add _

/-- C94: no line of any file is lost, duplicated or moved with respect to lines in the same part. -/
theorem C94_lines (mode : SelectMode) (file : List Str) (s : SelectState)
    (h : select mode file = some s) :
    (s.output ++ s.reject).Perm file ∧ s.output.Sublist file ∧ s.reject.Sublist file ∧
      s.countStructures = getNumStructures file := by
  have key : ∀ (file : List Str) (s s' : SelectState),
      file.foldlM (fun s l => s.line mode l) s = some s' → ∃ o r, s'.output = s.output ++ o ∧
        s'.reject = s.reject ++ r ∧ (o ++ r).Perm file ∧ o.Sublist file ∧ r.Sublist file ∧
        s'.countStructures = s.countStructures + getNumStructures file := by
    intro file
    induction file with
    | nil =>
      intro s s' e
      cases e
      exact ⟨[], [], by simp, by simp, by simp, by simp, by simp, rfl⟩
    | cons l file ih =>
      intro s s' e
      rw [List.foldlM_cons] at e
      obtain ⟨t, e1, e2⟩ := Option.bind_eq_some_iff.1 e
      obtain ⟨k, h1, h2, h3⟩ := line_keeps e1
      obtain ⟨o, r, g1, g2, g3, g4, g5, g6⟩ := ih t s' e2
      have hc : s'.countStructures = s.countStructures + getNumStructures (l :: file) := by
        rw [g6, h2]
        unfold getNumStructures
        rw [List.countP_cons, h1]
        by_cases hk : k = keyBegin
        · rw [if_pos hk, if_pos (by simp [hk])]
          omega
        · rw [if_neg hk, if_neg (by simp [hk])]
          omega
      rcases h3 with ⟨h3, h4⟩ | ⟨h3, h4⟩
      · refine ⟨l :: o, r, ?_, ?_, ?_, ?_, ?_, hc⟩
        · rw [g1, h3]
          simp
        · rw [g2, h4]
        · exact g3.cons l
        · exact g4.cons_cons l
        · exact g5.cons l
      · refine ⟨o, l :: r, ?_, ?_, ?_, ?_, ?_, hc⟩
        · rw [g1, h3]
        · rw [g2, h4]
          simp
        · exact List.perm_middle.trans (g3.cons l)
        · exact g4.cons l
        · exact g5.cons_cons l
  obtain ⟨o, r, g1, g2, g3, g4, g5, g6⟩ := key file _ s h
  have e1 : s.output = o := g1
  have e2 : s.reject = r := g2
  rw [e1, e2]
  exact ⟨g3, g4, g5, g6.trans (Nat.zero_add _)⟩

/-- C94: the program fails exactly if there is a blank line, or the interval is zero and there is a
structure. -/
theorem C94_fails (mode : SelectMode) (file : List Str) : select mode file = none ↔
    (∃ l ∈ file, firstWord l = none) ∨
      (∃ arg, mode = .interval arg ∧ intervalSize arg = 0 ∧ getNumStructures file ≠ 0) := by
  classical
  have hdec : ∀ k, mode.decide' k = none ↔ ∃ arg, mode = .interval arg ∧ intervalSize arg = 0 := by
    intro k
    cases mode with
    | interval arg =>
      show (if intervalSize arg = 0 then none else some (decide (k % intervalSize arg = 0))) = none ↔ _
      constructor
      · intro h
        split_ifs at h with h0
        exact ⟨arg, rfl, h0⟩
      · rintro ⟨a, h1, h2⟩
        cases h1
        rw [if_pos h2]
    | random ratio rand randMax =>
      refine ⟨fun h => (by cases h), ?_⟩
      rintro ⟨a, h, -⟩
      cases h
  have key : ∀ (file : List Str) (s : SelectState),
      file.foldlM (fun s l => s.line mode l) s = none ↔ (∃ l ∈ file, firstWord l = none) ∨
        (∃ arg, mode = .interval arg ∧ intervalSize arg = 0 ∧ getNumStructures file ≠ 0) := by
    intro file
    induction file with
    | nil =>
      intro s
      refine ⟨fun h => (by cases h), ?_⟩
      rintro (⟨l, h, -⟩ | ⟨a, -, -, h⟩)
      · cases h
      · exact absurd rfl h
    | cons l file ih =>
      intro s
      rw [List.foldlM_cons]
      cases h1 : firstWord l with
      | none =>
        have e : s.line mode l = none := by
          unfold SelectState.line
          rw [h1]
          rfl
        rw [e]
        exact ⟨fun _ => Or.inl ⟨l, by simp, h1⟩, fun _ => rfl⟩
      | some k =>
        have hl : s.line mode l = (s.onKey mode k).map fun t => t.put l := by
          unfold SelectState.line
          rw [h1]
          show (s.onKey mode k).bind _ = _
          cases s.onKey mode k <;> rfl
        rw [hl]
        unfold SelectState.onKey
        have hcount : getNumStructures (l :: file) =
            getNumStructures file + if k = keyBegin then 1 else 0 := by
          unfold getNumStructures
          rw [List.countP_cons, h1]
          by_cases hk : k = keyBegin
          · rw [if_pos hk, if_pos (by simp [hk])]
          · rw [if_neg hk, if_neg (by simp [hk])]
        have hblank : (∃ x ∈ l :: file, firstWord x = none) ↔ ∃ x ∈ file, firstWord x = none := by
          constructor
          · rintro ⟨x, hx, h⟩
            rcases List.mem_cons.1 hx with rfl | hx
            · rw [h1] at h
              cases h
            · exact ⟨x, hx, h⟩
          · rintro ⟨x, hx, h⟩
            exact ⟨x, by simp [hx], h⟩
        rw [hblank, hcount]
        by_cases hk : k = keyBegin
        · rw [if_pos hk, if_pos hk]
          unfold SelectState.onBegin
          cases hd : mode.decide' s.countStructures with
          | none =>
            obtain ⟨a, g1, g2⟩ := (hdec _).1 hd
            exact ⟨fun _ => Or.inr ⟨a, g1, g2, by omega⟩, fun _ => rfl⟩
          | some w =>
            have hno : ¬ ∃ arg, mode = .interval arg ∧ intervalSize arg = 0 := by
              rw [← hdec s.countStructures, hd]
              simp
            show List.foldlM _ _ file = none ↔ _
            rw [ih]
            constructor
            · rintro (h | ⟨a, g1, g2, -⟩)
              · exact Or.inl h
              · exact absurd ⟨a, g1, g2⟩ hno
            · rintro (h | ⟨a, g1, g2, -⟩)
              · exact Or.inl h
              · exact absurd ⟨a, g1, g2⟩ hno
        · rw [if_neg hk, if_neg hk]
          exact ih _
  exact key file _

/-- C94: with an interval of `n`, the number selected is the number of structures divided by `n`, rounded
up. -/
theorem C94_interval_count (n : ℤ) (h : 0 < n ∧ n < 2 ^ 31) (hL : ∀ l ∈ L, IsSection l) :
    ∃ s, select (.interval n) L.flatten = some s ∧
      (s.countSelected : ℤ) = ⌈(L.length : ℚ) / n⌉ := by
  obtain ⟨s, h1, -, -, -, h5⟩ := C94_selected (mode := .interval n) h hL
  refine ⟨s, h1, ?_⟩
  have key : ∀ (L : List (List Str)) (k : ℕ),
      (pickedFrom (fun k : ℕ => n ∣ (k : ℤ)) k L).length + (k + n.toNat - 1) / n.toNat =
        (k + L.length + n.toNat - 1) / n.toNat := by
    intro L
    have hn : 0 < n.toNat := by omega
    have hn' : (n.toNat : ℤ) = n := by omega
    induction L with
    | nil => intro k; simp [pickedFrom_nil]
    | cons l L ih =>
      intro k
      have h2 := ih (k + 1)
      have h3 : (k + 1 + n.toNat - 1) / n.toNat =
          (k + n.toNat - 1) / n.toNat + if n ∣ (k : ℤ) then 1 else 0 := by
        have := Nat.succ_div (a := k + n.toNat - 1) (b := n.toNat)
        rw [show k + n.toNat - 1 + 1 = k + n.toNat by omega] at this
        rw [show k + 1 + n.toNat - 1 = k + n.toNat by omega, this]
        congr 1
        have hd : n.toNat ∣ k + n.toNat ↔ n ∣ (k : ℤ) := by
          rw [Nat.dvd_add_self_right, ← Int.natCast_dvd_natCast, hn']
        by_cases hk : n ∣ (k : ℤ)
        · rw [if_pos hk, if_pos (hd.2 hk)]
        · rw [if_neg hk, if_neg (fun h => hk (hd.1 h))]
      rw [pickedFrom_cons, List.length_cons]
      rw [h3, show k + 1 + L.length = k + (L.length + 1) by omega] at h2
      by_cases hk : n ∣ (k : ℤ)
      · rw [if_pos hk] at h2 ⊢
        rw [List.length_cons]
        omega
      · rw [if_neg hk] at h2 ⊢
        omega
  have h6 := key L 0
  rw [Nat.zero_add, Nat.zero_add, Nat.div_eq_of_lt (by omega), Nat.add_zero] at h6
  rw [h5, picked_eq]
  have h7 : (pickedFrom (SelectMode.interval n).Wants 0 L).length =
      (L.length + n.toNat - 1) / n.toNat := h6
  rw [h7]
  have hn' : (n.toNat : ℤ) = n := by omega
  symm
  rw [Int.ceil_eq_iff]
  have hd := Nat.div_add_mod (L.length + n.toNat - 1) n.toNat
  have hm := Nat.mod_lt (L.length + n.toNat - 1) (show 0 < n.toNat by omega)
  generalize (L.length + n.toNat - 1) / n.toNat = q at hd ⊢
  generalize (L.length + n.toNat - 1) % n.toNat = r at hd hm
  have hq : (n : ℚ) = n.toNat := by
    rw [← Int.cast_natCast, hn']
  have hpos : (0 : ℚ) < n.toNat := by
    rw [← hq]
    exact_mod_cast h.1
  rw [hq, lt_div_iff₀ hpos, div_le_iff₀ hpos]
  have hd' : n.toNat * q + r = L.length + n.toNat - 1 := hd
  have e : (n.toNat : ℚ) * q + r = L.length + n.toNat - 1 := by
    have : n.toNat * q + r + 1 = L.length + n.toNat := by omega
    have h8 : ((n.toNat * q + r + 1 : ℕ) : ℚ) = ((L.length + n.toNat : ℕ) : ℚ) := by rw [this]
    push_cast at h8
    linarith
  have hr : (r : ℚ) + 1 ≤ n.toNat := by exact_mod_cast hm
  have hr0 : (0 : ℚ) ≤ r := Nat.cast_nonneg r
  have hi : ((q : ℤ) : ℚ) = q := Int.cast_natCast q
  rw [hi]
  constructor <;> nlinarith

/-- C94, disagreement: a negative interval is not refused, but selects nothing but the first structure (of
less than `2^63`). -/
theorem C94_negative_interval (n : ℤ) (h1 : n < 0) (h2 : -2 ^ 31 ≤ n) (l : List Str)
    (hL : ∀ x ∈ l :: L, IsSection x) (hn : L.length < 2 ^ 63) :
    ∃ s, select (.interval n) (l :: L).flatten = some s ∧ s.output = l ∧ s.reject = L.flatten := by
  have hi : intervalSize n = (2 ^ 64 + n).toNat := by
    unfold intervalSize
    omega
  have hdec : ∀ k, k < 2 ^ 63 + 1 → (SelectMode.interval n).decide' k = some (decide (k = 0)) := by
    intro k hk
    show (if intervalSize n = 0 then none else some (decide (k % intervalSize n = 0))) = _
    rw [if_neg (by omega), Nat.mod_eq_of_lt (by omega)]
  -- a state in which `k ≥ 1` structures have been seen only collects rejected lines
  have key : ∀ (L : List (List Str)) (s : SelectState), (∀ x ∈ L, IsSection x) →
      1 ≤ s.countStructures → s.countStructures + L.length ≤ 2 ^ 63 →
      ∃ s', L.flatten.foldlM (fun s l => s.line (.interval n) l) s = some s' ∧
        s'.output = s.output ∧ s'.reject = s.reject ++ L.flatten := by
    intro L
    induction L with
    | nil => exact fun s _ _ _ => ⟨s, rfl, rfl, (List.append_nil _).symm⟩
    | cons l L ih =>
      intro s hs hc hl
      rw [List.length_cons] at hl
      obtain ⟨b, body, e, rfl, g1, g2, g3⟩ := hs l (by simp)
      have e0 : s.line (.interval n) b = some
          { s with
            writeStructure := false
            countStructures := s.countStructures + 1
            reject := s.reject ++ [b] } := by
        unfold SelectState.line
        rw [g1]
        show (s.onKey (.interval n) keyBegin).bind _ = _
        unfold SelectState.onKey
        rw [if_pos rfl]
        unfold SelectState.onBegin
        rw [hdec _ (by omega), decide_eq_false (by omega)]
        rfl
      rw [List.flatten_cons, List.foldlM_append, List.foldlM_cons, e0]
      have hb := select_body (.interval n) (body ++ [e]) (by
        intro x hx
        rcases List.mem_append.1 hx with hx | hx
        · obtain ⟨w, k1, k2, -⟩ := g3 x hx
          exact ⟨w, k1, k2⟩
        · rw [List.mem_singleton] at hx
          subst hx
          exact ⟨_, g2, by decide⟩)
        { s with
          writeStructure := false
          countStructures := s.countStructures + 1
          reject := s.reject ++ [b] }
      rw [if_neg (by simp)] at hb
      obtain ⟨s', k1, k2, k3⟩ := ih
        { s with
          writeStructure := false
          countStructures := s.countStructures + 1
          reject := s.reject ++ [b] ++ (body ++ [e]) } (fun x hx => hs x (by simp [hx]))
        (by show 1 ≤ s.countStructures + 1; omega)
        (by show s.countStructures + 1 + L.length ≤ _; omega)
      refine ⟨s', ?_, k2, ?_⟩
      · show Option.bind (List.foldlM _ _ (body ++ [e])) _ = _
        rw [hb]
        exact k1
      · rw [k3]
        simp
  obtain ⟨b, body, e, rfl, g1, g2, g3⟩ := hL l (by simp)
  have e0 : SelectState.start.line (.interval n) b = some ⟨true, 1, 1, [b], []⟩ := by
    unfold SelectState.line
    rw [g1]
    show (SelectState.start.onKey (.interval n) keyBegin).bind _ = _
    unfold SelectState.onKey
    rw [if_pos rfl]
    unfold SelectState.onBegin
    rw [hdec _ (by show 0 < _; omega)]
    rfl
  have hb := select_body (.interval n) (body ++ [e]) (by
    intro x hx
    rcases List.mem_append.1 hx with hx | hx
    · obtain ⟨w, k1, k2, -⟩ := g3 x hx
      exact ⟨w, k1, k2⟩
    · rw [List.mem_singleton] at hx
      subst hx
      exact ⟨_, g2, by decide⟩) ⟨true, 1, 1, [b], []⟩
  rw [if_pos rfl] at hb
  obtain ⟨s, k1, k2, k3⟩ := key L ⟨true, 1, 1, [b] ++ (body ++ [e]), []⟩
    (fun x hx => hL x (by simp [hx])) le_rfl (by show 1 + L.length ≤ _; omega)
  refine ⟨s, ?_, k2, k3⟩
  unfold select
  rw [List.flatten_cons, List.foldlM_append, List.foldlM_cons, e0]
  show Option.bind (List.foldlM _ _ (body ++ [e])) _ = _
  rw [hb]
  exact k1

/-- C94: a ratio of one or more selects everything, a negative ratio nothing. -/
theorem C94_ratio_bounds (ratio : ℝ) (rand : ℕ → ℕ) (randMax : ℕ) (h0 : 0 < randMax)
    (hr : ∀ k, rand k ≤ randMax) (hL : ∀ l ∈ L, IsSection l) :
    ∃ s, select (.random ratio rand randMax) L.flatten = some s ∧
      (1 ≤ ratio → s.output = L.flatten ∧ s.reject = []) ∧
      (ratio < 0 → s.output = [] ∧ s.reject = L.flatten) := by
  obtain ⟨s, h1, h2, h3, -⟩ := C94_selected (mode := .random ratio rand randMax) ⟨h0, hr⟩ hL
  have hpos : (0 : ℝ) < randMax := Nat.cast_pos.2 h0
  have hall : ∀ (wants : ℕ → Prop) (k : ℕ) (L : List (List Str)),
      ((∀ k, wants k) → pickedFrom wants k L = L) ∧
      ((∀ k, ¬ wants k) → pickedFrom wants k L = []) := by
    intro wants k L
    induction L generalizing k with
    | nil => exact ⟨fun _ => rfl, fun _ => rfl⟩
    | cons l L ih =>
      rw [pickedFrom_cons]
      refine ⟨fun h => ?_, fun h => ?_⟩
      · rw [if_pos (h k), (ih _).1 h]
      · rw [if_neg (h k), (ih _).2 h]
  refine ⟨s, h1, fun h => ?_, fun h => ?_⟩
  · have hw : ∀ k, (SelectMode.random ratio rand randMax).Wants k := by
      intro k
      show (rand k : ℝ) ≤ ratio * randMax
      have : (rand k : ℝ) ≤ randMax := by exact_mod_cast hr k
      nlinarith
    rw [h2, h3, picked_eq, picked_eq, (hall _ 0 L).1 hw, (hall _ 0 L).2 fun k => not_not.2 (hw k)]
    exact ⟨rfl, rfl⟩
  · have hw : ∀ k, ¬ (SelectMode.random ratio rand randMax).Wants k := by
      intro k
      show ¬ (rand k : ℝ) ≤ ratio * randMax
      have : (0 : ℝ) ≤ rand k := Nat.cast_nonneg _
      have := mul_neg_of_neg_of_pos h hpos
      linarith
    rw [h2, h3, picked_eq, picked_eq, (hall _ 0 L).2 hw, (hall _ 0 L).1 hw]
    exact ⟨rfl, rfl⟩

/-- C94, disagreement: with a ratio of zero, structures are still selected, if the random number is zero. -/
theorem C94_ratio_zero (rand : ℕ → ℕ) (randMax : ℕ) (h0 : 0 < randMax) (hr : ∀ k, rand k ≤ randMax)
    (hz : rand 0 = 0) (l : List Str) (hL : ∀ x ∈ l :: L, IsSection x) :
    ∃ s, select (.random 0 rand randMax) (l :: L).flatten = some s ∧ l.Sublist s.output := by
  obtain ⟨s, h1, h2, -⟩ := C94_selected (mode := .random 0 rand randMax) ⟨h0, hr⟩ hL
  refine ⟨s, h1, ?_⟩
  rw [h2, picked_eq, pickedFrom_cons, if_pos (by show ((rand 0 : ℕ) : ℝ) ≤ 0 * _; rw [hz]; simp)]
  rw [List.flatten_cons]
  exact List.sublist_append_left _ _

/-- C94: the files written can be used for training again: structure number `i` there is what is read from
the lines of the `i`-th structure selected. -/
theorem C94_trained {Byte : Type} {D : DataSetup Byte} {mode : SelectMode} (hm : mode.Sensible)
    (hD : D.Sane) (hL : ∀ l ∈ L, D.Readable l) (P : ℕ) (hP : 1 ≤ P)
    (hN : P ≤ (picked mode.Wants L).length) :
    ∃ s f, select mode L.flatten = some s ∧ distributeFile D P false false [] s.output = .ok f ∧
      ((List.range P).flatMap fun p => (f.held p).map Structure.index).Perm
        (List.range (picked mode.Wants L).length) ∧
      ∀ p < P, ∀ v ∈ f.held p, ∃ l, (picked mode.Wants L)[v.index]? = some l ∧
        D.Holds l v.index v := by
  obtain ⟨s, h1, h2, -⟩ := C94_selected hm fun l hl => (hL l hl).1
  obtain ⟨f, g1, g2, g3, -⟩ := C93_distributed (Z := []) hD
    (fun l hl => hL l (mem_picked hl)) rfl P false false [] (by simpa using hP) (by simpa using hN)
    (by simp) (by simp)
  rw [List.append_nil, ← h2] at g1
  exact ⟨s, f, h1, g1, g2, g3⟩

/-! ### Examples -/

/-- Two lines. -/
def exSection (c : Char) : List Str := ["begin".toList, "comment ".toList ++ [c], "end".toList]

theorem exSection_ok (c : Char) : IsSection (exSection c) := by
  refine ⟨_, ["comment ".toList ++ [c]], _, rfl, by decide +kernel, by decide +kernel, ?_⟩
  intro x hx
  rw [List.mem_singleton] at hx
  subst hx
  obtain ⟨ts, e⟩ := words_comment keyComment [c] ⟨by decide, by decide⟩
  refine ⟨keyComment, ?_, by decide, by decide⟩
  unfold firstWord
  have : "comment ".toList ++ [c] = keyComment ++ ' ' :: [c] := rfl
  rw [this, e]
  rfl

/-- Every second of five structures. -/
example : ∃ s, select (.interval 2) ([exSection 'a', exSection 'b', exSection 'c', exSection 'd',
      exSection 'e'].flatten) = some s ∧
    s.output = exSection 'a' ++ exSection 'c' ++ exSection 'e' ∧
    s.reject = exSection 'b' ++ exSection 'd' ∧ s.countSelected = 3 := by
  obtain ⟨s, h1, h2, h3, -, h5⟩ := C94_selected (mode := .interval 2) ⟨by norm_num, by norm_num⟩
    (L := [exSection 'a', exSection 'b', exSection 'c', exSection 'd', exSection 'e']) (by
      intro l hl
      simp only [List.mem_cons, List.not_mem_nil, or_false] at hl
      rcases hl with rfl | rfl | rfl | rfl | rfl <;> exact exSection_ok _)
  refine ⟨s, h1, ?_, ?_, ?_⟩
  · rw [h2, picked_eq]
    simp [pickedFrom_cons, pickedFrom_nil, SelectMode.Wants]
  · rw [h3, picked_eq]
    simp [pickedFrom_cons, pickedFrom_nil, SelectMode.Wants]
  · rw [h5, picked_eq]
    simp [pickedFrom_cons, pickedFrom_nil, SelectMode.Wants]

/-- The interval `-3`. -/
example : ∃ s, select (.interval (-3)) [exSection 'a', exSection 'b'].flatten = some s ∧
    s.output = exSection 'a' ∧ s.reject = [exSection 'b'].flatten :=
  C94_negative_interval (-3) (by norm_num) (by norm_num) _ (by
    intro l hl
    simp only [List.mem_cons, List.not_mem_nil, or_false] at hl
    rcases hl with rfl | rfl <;> exact exSection_ok _) (by simp)

/-- The interval 0, and a blank line. -/
example : select (.interval 0) (exSection 'a') = none ∧
    select (.interval 1) (exSection 'a' ++ [[]]) = none :=
  ⟨(C94_fails _ _).2 (Or.inr ⟨0, rfl, by decide, by rw [(exSection_ok 'a').count]; simp⟩),
    (C94_fails _ _).2 (Or.inl ⟨[], by simp, by decide⟩)⟩

/-- Ratio 0: random numbers 0 and 5 of at most 5. -/
example : ∃ s, select (.random 0 (fun k => min (5 * k) 5) 5) [exSection 'a', exSection 'b'].flatten =
    some s ∧ (exSection 'a').Sublist s.output :=
  C94_ratio_zero _ 5 (by norm_num) (fun k => Nat.min_le_right _ _) rfl _ (by
    intro l hl
    simp only [List.mem_cons, List.not_mem_nil, or_false] at hl
    rcases hl with rfl | rfl <;> exact exSection_ok _)

/-- Five structures with an interval of two: three are selected. -/
example : ∃ s, select (.interval 2) ([exSection 'a', exSection 'b', exSection 'c', exSection 'd',
    exSection 'e'].flatten) = some s ∧ (s.countSelected : ℤ) = 3 := by
  obtain ⟨s, h1, h2⟩ := C94_interval_count 2 ⟨by norm_num, by norm_num⟩
    (L := [exSection 'a', exSection 'b', exSection 'c', exSection 'd', exSection 'e']) (by
      intro l hl
      simp only [List.mem_cons, List.not_mem_nil, or_false] at hl
      rcases hl with rfl | rfl | rfl | rfl | rfl <;> exact exSection_ok _)
  refine ⟨s, h1, h2.trans ?_⟩
  rw [Int.ceil_eq_iff]
  norm_num

/-- Lines before the first structure are kept, too. -/
example : ∃ s, select (.interval 2) ("# data".toList :: exSection 'a') = some s ∧
    (s.output ++ s.reject).length = 4 ∧ s.countStructures = 1 := by
  cases h : select (.interval 2) ("# data".toList :: exSection 'a') with
  | none =>
    exfalso
    rcases (C94_fails _ _).1 h with ⟨l, h1, h2⟩ | ⟨n, h1, h2, -⟩
    · have : ∀ l ∈ "# data".toList :: exSection 'a', firstWord l ≠ none := by decide +kernel
      exact this l h1 h2
    · cases h1
      exact absurd h2 (by decide)
  | some s =>
    obtain ⟨h1, -, -, h2⟩ := C94_lines _ _ s h
    exact ⟨s, rfl, h1.length_eq, h2.trans (by decide +kernel)⟩

/-- Ratios 2 and -1 with any random numbers up to 5. -/
example (rand : ℕ → ℕ) (hr : ∀ k, rand k ≤ 5) :
    (∃ s, select (.random 2 rand 5) [exSection 'a', exSection 'b'].flatten = some s ∧ s.reject = []) ∧
    ∃ s, select (.random (-1) rand 5) [exSection 'a', exSection 'b'].flatten = some s ∧ s.output = [] := by
  have hL : ∀ l ∈ [exSection 'a', exSection 'b'], IsSection l := by
    intro l hl
    simp only [List.mem_cons, List.not_mem_nil, or_false] at hl
    rcases hl with rfl | rfl <;> exact exSection_ok _
  obtain ⟨s, h1, h2, -⟩ := C94_ratio_bounds 2 rand 5 (by norm_num) hr hL
  obtain ⟨s', h1', -, h2'⟩ := C94_ratio_bounds (-1) rand 5 (by norm_num) hr hL
  exact ⟨⟨s, h1, (h2 (by norm_num)).2⟩, s', h1', (h2' (by norm_num)).1⟩

/-- One of two water molecules is selected and read for training again. -/
example : ∃ (D : DataSetup (Option (Σ T : MpiType, T.Val))) (L : List (List Str)) (s : SelectState) (f : FileState),
    select (.interval 2) L.flatten = some s ∧ L.length = 2 ∧ distributeFile D 1 false false [] s.output = .ok f ∧
      (f.held 0).map Structure.index = [0] := by
  obtain ⟨m, h1, h2, h3, h4, -⟩ := exFiled_ok
  have hsize : m.size = 2 := by
    obtain ⟨m', g1, g2, -⟩ := emap_sane "O\t H".toList ["O".toList, "H".toList]
      ((C01_tokens_are_words _ _).1 (by decide)) (by decide +kernel) (by decide)
    rw [h1] at g1
    cases g1
    exact g2
  have hbytes : ∀ p q, newMessageBytes exFormat (exFiled p q).atoms.length m.size
      (exFiled p q).comment.length < 2 ^ 31 := by
    intro p q
    rw [hsize]
    show newMessageBytes exFormat 3 2 "water  1".toList.length < 2 ^ 31
    decide
  obtain ⟨l, -, -, g, -⟩ := written_section (D := ⟨exText, m, [5, 1], exFormat, exMachine⟩) exText_sane h2
    (exFiled false 3) true (h3 3) (hbytes _ _)
  obtain ⟨l', -, -, g', -⟩ := written_section (D := ⟨exText, m, [5, 1], exFormat, exMachine⟩) exText_sane h2
    (exFiled true 0) true h4 (hbytes _ _)
  have hp : (picked (SelectMode.interval 2).Wants [l, l']).length = 1 := by
    rw [picked_eq]
    simp [pickedFrom_cons, pickedFrom_nil, SelectMode.Wants]
  obtain ⟨s, f, e1, e2, e3, -⟩ := C94_trained (D := ⟨exText, m, [5, 1], exFormat, exMachine⟩) (L := [l, l'])
    (mode := .interval 2) ⟨by norm_num, by norm_num⟩ ⟨hsize.symm, exMachine_survives⟩ (by
      intro x hx
      simp only [List.mem_cons, List.not_mem_nil, or_false] at hx
      rcases hx with rfl | rfl
      · exact g
      · exact g') 1 le_rfl hp.ge
  refine ⟨_, _, s, f, e1, rfl, e2, ?_⟩
  rw [hp] at e3
  exact List.perm_singleton.1 (by simpa using e3)

end N2P2
