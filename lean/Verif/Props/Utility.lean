import Verif.Lemma.Utility
import Mathlib.Tactic.NormNum

/-! Properties C01, C02 (tokenising) and C03 (integer power). -/

namespace N2P2

/-- C01: the tokens of a line are exactly its words, and they are the only list that qualifies. -/
theorem C01_tokens_are_words (s : Str) (ts : List Str) :
    split (reduce s) = ts ↔ SpecTokens s ts := by
  obtain ⟨us, hus⟩ := tokens_exist s.length s le_rfl
  have hsp : split (reduce s) = us := by
    rw [reduce_of_tokens hus, split_join us (tokens_words hus)]
  constructor
  · rintro rfl; rw [hsp]; exact hus
  · intro h
    rw [reduce_of_tokens h, split_join ts (tokens_words h)]

/-- C01: no token is empty or contains a blank. -/
theorem C01_tokens_nonempty_blankfree (s : Str) :
    ∀ w ∈ split (reduce s), w ≠ [] ∧ ' ' ∉ w ∧ '\t' ∉ w := by
  intro w hw
  have := tokens_words ((C01_tokens_are_words s _).1 rfl) w hw
  refine ⟨this.1, fun h => ?_, fun h => ?_⟩
  · exact absurd (this.2 _ h) (by decide)
  · exact absurd (this.2 _ h) (by decide)

/-- C01: the characters of the tokens are the non-blank characters of the line, in order. -/
theorem C01_tokens_keep_characters (s : Str) :
    (split (reduce s)).flatten = s.filter (fun c => !(c == ' ' || c == '\t')) := by
  have key : ∀ s ts, SpecTokens s ts →
      ts.flatten = s.filter (fun c => !(c == ' ' || c == '\t')) := by
    have hb0 : ∀ b, AllBlank b → b.filter (fun c => !(c == ' ' || c == '\t')) = [] := by
      intro b hb
      rw [List.filter_eq_nil_iff]
      intro c hc
      have := hb c hc
      unfold isBlank at this
      simp [this]
    have hw0 : ∀ w, IsWord w → w.filter (fun c => !(c == ' ' || c == '\t')) = w := by
      intro w hw
      rw [List.filter_eq_self]
      intro c hc
      have := hw.2 c hc
      unfold isBlank at this
      simp [this]
    intro s ts h
    induction h with
    | nil hb => rw [hb0 _ hb]; rfl
    | last hb hw =>
      rw [List.filter_append, hb0 _ hb, hw0 _ hw]; simp
    | @cons b w c s ts hb hw hc _ ih =>
      rw [List.filter_append, List.filter_append, hb0 _ hb, hw0 _ hw, ← ih]; simp
  exact key s _ ((C01_tokens_are_words s _).1 rfl)

/-- C01: lines with the same words give the same tokens, however they are spaced. -/
theorem C01_spacing_irrelevant (s t : Str) (ts : List Str) (hs : SpecTokens s ts)
    (ht : SpecTokens t ts) : split (reduce s) = split (reduce t) := by
  rw [(C01_tokens_are_words s ts).2 hs, (C01_tokens_are_words t ts).2 ht]

example : split (reduce "  ab \t c ".toList) = ["ab".toList, "c".toList] := by decide
example : SpecTokens "ab c".toList ["ab".toList, "c".toList] :=
  (C01_tokens_are_words _ _).1 (by decide)

/-- C02: reducing twice is reducing once. -/
theorem C02_reduce_idempotent (s : Str) : reduce (reduce s) = reduce s := by
  obtain ⟨ts, hts⟩ := tokens_exist s.length s le_rfl
  rw [reduce_of_tokens hts]
  exact reduce_of_tokens (tokens_joinSp ts (tokens_words hts))

/-- C02: a reduced line is its words joined by single spaces. -/
theorem C02_reduce_is_joined_words (s : Str) (ts : List Str) (h : SpecTokens s ts) :
    reduce s = [' '].intercalate ts := by
  rw [reduce_of_tokens h]
  clear h
  induction ts with
  | nil => rfl
  | cons w ts ih =>
    cases ts with
    | nil => simp [joinSp, List.intercalate]
    | cons v vs =>
      rw [joinSp_cons (by simp), ih]
      simp [List.intercalate, List.intersperse]

/-- C02: a reduced line contains no tab, does not start or end with a blank and has no two
consecutive blanks. -/
theorem C02_reduce_normal_form (s : Str) :
    '\t' ∉ reduce s ∧ (reduce s).head? ≠ some ' ' ∧ (reduce s).getLast? ≠ some ' ' ∧
    ∀ a b, reduce s ≠ a ++ ' ' :: ' ' :: b := by
  obtain ⟨ts, hts⟩ := tokens_exist s.length s le_rfl
  rw [reduce_of_tokens hts]
  have hw := tokens_words hts
  clear hts
  exact joinSp_normal ts hw

example : reduce " a\t\t b ".toList = "a b".toList := by decide

/-- C03: the integer power is the mathematical power for every `int` exponent except the most
negative one; a negative exponent needs a non-zero base. -/
theorem C03_pow_int (x : ℝ) (n : Int) (hlo : -(2 ^ 31) < n) (hhi : n < 2 ^ 31)
    (hx : 0 ≤ n ∨ x ≠ 0) : powInt x n = some (x ^ n) := by
  unfold powInt
  rw [if_neg (by omega)]
  by_cases hn : n < 0
  · rw [if_pos hn, powLoop_eq, one_mul]
    obtain ⟨k, rfl⟩ : ∃ k : Nat, n = -(k : Int) := ⟨(-n).toNat, by omega⟩
    simp
  · rw [if_neg hn, powLoop_eq, one_mul]
    obtain ⟨k, rfl⟩ : ∃ k : Nat, n = (k : Int) := ⟨n.toNat, by omega⟩
    simp

/-- C03: for the most negative `int` the code has undefined behaviour (`-n` overflows). -/
theorem C03_int_min_undefined (x : ℝ) : powInt x (-(2 ^ 31)) = none := by
  unfold powInt; simp

example : powInt 3 5 = some 243 := by
  rw [C03_pow_int 3 5 (by norm_num) (by norm_num) (Or.inl (by norm_num))]; norm_num
example : powInt 2 (-3) = some (1 / 8) := by
  rw [C03_pow_int 2 (-3) (by norm_num) (by norm_num) (Or.inr (by norm_num))]; norm_num

end N2P2
