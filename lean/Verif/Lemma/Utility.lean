import Verif.Spec.Utility
import Mathlib.Tactic.Ring
import Mathlib.Tactic.Linarith
import Mathlib.Data.List.Basic

namespace N2P2

/-! ### Word-based description of a line -/

/-- Words separated by single spaces. -/
def joinSp : List Str → Str
  | [] => []
  | [w] => w
  | w :: v :: ws => w ++ ' ' :: joinSp (v :: ws)

/-- Same without outer blanks, at least one word. -/
inductive Core : Str → List Str → Prop
  | last {w} : IsWord w → Core w [w]
  | cons {w b s ts} : IsWord w → AllBlank b → b ≠ [] → Core s ts → Core (w ++ b ++ s) (w :: ts)

theorem dropWhile_all {b : Str} (hb : AllBlank b) (t : Str) :
    (b ++ t).dropWhile isBlank = t.dropWhile isBlank := by
  induction b with
  | nil => rfl
  | cons c cs ih =>
    have h1 : isBlank c = true := hb c (by simp)
    have h2 : AllBlank cs := fun d hd => hb d (by simp [hd])
    simp [h1, ih h2]

theorem dropWhile_word {w : Str} (hw : IsWord w) (t : Str) :
    (w ++ t).dropWhile isBlank = w ++ t := by
  obtain ⟨hne, hb⟩ := hw
  cases w with
  | nil => exact absurd rfl hne
  | cons c cs => simp [hb c (by simp)]

theorem IsWord.reverse {w : Str} (hw : IsWord w) : IsWord w.reverse :=
  ⟨by simpa using hw.1, fun c hc => hw.2 c (by simpa using hc)⟩

theorem AllBlank.reverse {w : Str} (hw : AllBlank w) : AllBlank w.reverse :=
  fun c hc => hw c (by simpa using hc)

theorem AllBlank.append {a b : Str} (ha : AllBlank a) (hb : AllBlank b) : AllBlank (a ++ b) := by
  intro c hc
  rcases List.mem_append.1 hc with h | h
  · exact ha c h
  · exact hb c h

theorem Core.head {s ts} (h : Core s ts) : ∃ w t, IsWord w ∧ s = w ++ t := by
  cases h with
  | last hw => exact ⟨_, [], hw, by simp⟩
  | cons hw _ _ _ => exact ⟨_, _, hw, by simp only [List.append_assoc]; rfl⟩

theorem Core.tail {s ts} (h : Core s ts) : ∃ w t, IsWord w ∧ s = t ++ w := by
  induction h with
  | last hw => exact ⟨_, [], hw, by simp⟩
  | @cons w b s ts hw _ _ _ ih =>
    obtain ⟨v, t, hv, rfl⟩ := ih
    exact ⟨v, w ++ b ++ t, hv, by simp⟩

theorem trim_core {b core b' : Str} {ts} (hb : AllBlank b) (hb' : AllBlank b') (hc : Core core ts) :
    trim (b ++ core ++ b') = core := by
  unfold trim
  obtain ⟨w, t, hw, rfl⟩ := hc.head
  have e : (b ++ (w ++ t) ++ b').dropWhile isBlank = w ++ t ++ b' := by
    rw [List.append_assoc, dropWhile_all hb, List.append_assoc, dropWhile_word hw]
  rw [e]
  obtain ⟨v, u, hv, e2⟩ := hc.tail
  rw [e2, List.reverse_append, dropWhile_all hb'.reverse, List.reverse_append,
    dropWhile_word hv.reverse]
  simp

theorem trim_blank {b : Str} (hb : AllBlank b) : trim b = [] := by
  unfold trim
  have : b.dropWhile isBlank = [] := by
    have := dropWhile_all hb []
    simpa using this
  simp [this]

theorem joinSp_cons {w : Str} {ts : List Str} (h : ts ≠ []) :
    joinSp (w :: ts) = w ++ ' ' :: joinSp ts := by
  cases ts with
  | nil => exact absurd rfl h
  | cons v vs => rfl

theorem Core.ts_ne {s ts} (h : Core s ts) : ts ≠ [] := by cases h <;> simp

theorem reduceFuel_word {w : Str} (hw : ∀ c ∈ w, isBlank c = false) :
    ∀ (n : Nat) (t : Str), reduceFuel (w.length + n) (w ++ t) = w ++ reduceFuel n t := by
  induction w with
  | nil => intro n t; simp
  | cons c cs ih =>
    intro n t
    have h1 : isBlank c = false := hw c (by simp)
    have e : (c :: cs).length + n = (cs.length + n) + 1 := by simp; omega
    rw [e]
    simp only [List.cons_append, reduceFuel, h1]
    rw [ih (fun d hd => hw d (by simp [hd]))]
    simp

theorem reduceFuel_core {s ts} (h : Core s ts) :
    ∀ n, s.length ≤ n → reduceFuel n s = joinSp ts := by
  induction h with
  | @last w hw =>
    intro n hn
    obtain ⟨k, rfl⟩ := Nat.exists_eq_add_of_le hn
    have := reduceFuel_word hw.2 k []
    simp only [List.append_nil] at this
    rw [this]
    cases k <;> simp [reduceFuel, joinSp]
  | @cons w b s ts hw hb hne hs ih =>
    intro n hn
    simp only [List.length_append] at hn
    obtain ⟨k, rfl⟩ : ∃ k, n = w.length + k := ⟨n - w.length, by omega⟩
    rw [List.append_assoc, reduceFuel_word hw.2, joinSp_cons hs.ts_ne]
    cases b with
    | nil => exact absurd rfl hne
    | cons c cs =>
      simp only [List.length_cons] at hn
      obtain ⟨m, rfl⟩ : ∃ m, k = m + 1 := ⟨k - 1, by omega⟩
      have h1 : isBlank c = true := hb c (by simp)
      have h2 : AllBlank cs := fun d hd => hb d (by simp [hd])
      obtain ⟨v, t, hv, hst⟩ := hs.head
      have e : (cs ++ s).dropWhile isBlank = s := by
        rw [dropWhile_all h2, hst, dropWhile_word hv]
      simp only [List.cons_append, reduceFuel, h1, e]
      rw [ih m (by omega)]
      simp

theorem core_append_blank_word {s ts} (h : SpecTokens s ts) :
    (ts = [] ∧ AllBlank s) ∨
    (∃ b core b', AllBlank b ∧ AllBlank b' ∧ s = b ++ core ++ b' ∧ Core core ts) := by
  induction h with
  | nil hb => exact Or.inl ⟨rfl, hb⟩
  | @last b w hb hw =>
    exact Or.inr ⟨b, w, [], hb, by simp [AllBlank], by simp, .last hw⟩
  | @cons b w c s ts hb hw hc _ ih =>
    right
    rcases ih with ⟨rfl, h⟩ | ⟨b1, core, b2, h1, h2, e, hcore⟩
    · exact ⟨b, w, c :: s, hb, h, rfl, .last hw⟩
    · have hne : b1 ≠ [] := by
        rintro rfl
        obtain ⟨v, t, hv, rfl⟩ := hcore.head
        obtain ⟨hv0, hv1⟩ := hv
        cases v with
        | nil => exact hv0 rfl
        | cons d ds =>
          simp only [List.nil_append, List.cons_append, List.cons.injEq] at e
          rw [← e.1] at hv1
          have := hv1 c (by simp)
          rw [hc] at this
          exact Bool.noConfusion this
      refine ⟨b, w ++ b1 ++ core, b2, hb, h2, ?_, .cons hw h1 hne hcore⟩
      rw [e]; simp

theorem reduce_of_tokens {s ts} (h : SpecTokens s ts) : reduce s = joinSp ts := by
  rcases core_append_blank_word h with ⟨rfl, h0⟩ | ⟨b, core, b', hb, hb', rfl, hc⟩
  · unfold reduce; rw [trim_blank h0]; rfl
  · unfold reduce; rw [trim_core hb hb' hc]; exact reduceFuel_core hc _ le_rfl

theorem mem_takeWhile_imp' {p : Char → Bool} {l : Str} {c : Char} (h : c ∈ l.takeWhile p) :
    p c = true := by
  induction l with
  | nil => simp at h
  | cons d ds ih =>
    rw [List.takeWhile_cons] at h
    split at h
    · rcases List.mem_cons.1 h with rfl | h
      · assumption
      · exact ih h
    · simp at h

theorem tokens_exist : ∀ (n : Nat) (s : Str), s.length ≤ n → ∃ ts, SpecTokens s ts := by
  intro n
  induction n with
  | zero => intro s hs; exact ⟨[], .nil (by
      have : s = [] := by simpa using hs
      subst this; simp [AllBlank])⟩
  | succ n ih =>
    intro s hs
    have hsplit : s = s.takeWhile isBlank ++ s.dropWhile isBlank :=
      (List.takeWhile_append_dropWhile).symm
    set b := s.takeWhile isBlank with hb
    set r := s.dropWhile isBlank with hr
    have hbb : AllBlank b := fun c hc => by
      have := mem_takeWhile_imp' (hb ▸ hc); simpa using this
    by_cases hr0 : r = []
    · refine ⟨[], ?_⟩
      rw [hsplit, hr0, List.append_nil]
      exact .nil hbb
    · set w := r.takeWhile (fun c => !isBlank c) with hw
      set t := r.dropWhile (fun c => !isBlank c) with ht
      have hrw : r = w ++ t := (List.takeWhile_append_dropWhile).symm
      have hwb : ∀ c ∈ w, isBlank c = false := fun c hc => by
        have := mem_takeWhile_imp' (hw ▸ hc); simpa using this
      have hwne : w ≠ [] := by
        intro hw0
        cases hrc : r with
        | nil => exact hr0 hrc
        | cons c cs =>
          have h1 : isBlank c = false := by
            have := List.head_dropWhile_not isBlank (l := s) (by rw [← hr]; exact hr0)
            simp only [← hr, hrc, List.head_cons] at this
            exact this
          rw [hw, hrc] at hw0
          simp [h1] at hw0
      have hword : IsWord w := ⟨hwne, hwb⟩
      cases hts : t with
      | nil =>
        refine ⟨[w], ?_⟩
        rw [hsplit, hrw, hts, List.append_nil]
        exact .last hbb hword
      | cons c cs =>
        have hcb : isBlank c = true := by
          have := List.head_dropWhile_not (fun c => !isBlank c) (l := r) (by rw [← ht, hts]; simp)
          simp only [← ht, hts, List.head_cons] at this
          simpa using this
        have hlen : (c :: cs).length ≤ n := by
          have h2 : s.length = b.length + (w.length + t.length) := by
            conv_lhs => rw [hsplit, hrw]
            simp
          have h3 : 0 < w.length := List.length_pos_iff.2 hwne
          rw [← hts]; omega
        obtain ⟨ts, hts'⟩ := ih _ hlen
        refine ⟨w :: ts, ?_⟩
        rw [hsplit, hrw, hts, ← List.append_assoc]
        exact .cons hbb hword hcb hts'

theorem tokens_words {s ts} (h : SpecTokens s ts) : ∀ w ∈ ts, IsWord w := by
  induction h with
  | nil _ => simp
  | last _ hw => simpa using hw
  | cons _ hw _ _ ih => simpa using ⟨hw, ih⟩

theorem takeWhile_word {w : Str} (hw : ∀ c ∈ w, isBlank c = false) (t : Str) :
    (w ++ t).takeWhile (· != ' ') = w ++ t.takeWhile (· != ' ') := by
  induction w with
  | nil => rfl
  | cons c cs ih =>
    have h1 : (c != ' ') = true := by
      have := hw c (by simp)
      simp [isBlank] at this
      simp [this]
    simp only [List.cons_append, List.takeWhile_cons, h1, if_true]
    rw [ih (fun d hd => hw d (by simp [hd]))]

theorem dropWhile_sp_word {w : Str} (hw : ∀ c ∈ w, isBlank c = false) (t : Str) :
    (w ++ t).dropWhile (· != ' ') = t.dropWhile (· != ' ') := by
  induction w with
  | nil => rfl
  | cons c cs ih =>
    have h1 : (c != ' ') = true := by
      have := hw c (by simp)
      simp [isBlank] at this
      simp [this]
    simp only [List.cons_append, List.dropWhile_cons, h1, if_true]
    exact ih (fun d hd => hw d (by simp [hd]))

theorem splitFuel_nil (d : Char) (n : Nat) : splitFuel d n [] = [] := by cases n <;> rfl

theorem splitFuel_step (d : Char) (n : Nat) (s : Str) (h : s ≠ []) :
    splitFuel d (n + 1) s = s.takeWhile (· != d) ::
      splitFuel d n ((s.dropWhile (· != d)).drop 1) := by
  cases s with
  | nil => exact absurd rfl h
  | cons c cs => rfl

theorem splitFuel_join : ∀ (ts : List Str), (∀ w ∈ ts, IsWord w) →
    ∀ n, (joinSp ts).length ≤ n → splitFuel ' ' n (joinSp ts) = ts := by
  intro ts
  induction ts with
  | nil => intro _ n _; exact splitFuel_nil _ _
  | cons w ts ih =>
    intro hw n hn
    have hww : IsWord w := hw w (by simp)
    have hpos : 0 < w.length := List.length_pos_iff.2 hww.1
    have hts := ih (fun v hv => hw v (by simp [hv]))
    by_cases h0 : ts = []
    · subst h0
      simp only [joinSp] at hn ⊢
      obtain ⟨m, rfl⟩ : ∃ m, n = m + 1 := ⟨n - 1, by omega⟩
      rw [splitFuel_step _ _ _ hww.1]
      have e1 := takeWhile_word hww.2 []
      have e2 := dropWhile_sp_word hww.2 []
      simp only [List.append_nil, List.takeWhile_nil, List.dropWhile_nil] at e1 e2
      rw [e1, e2]
      simp [splitFuel_nil]
    · rw [joinSp_cons h0] at hn ⊢
      simp only [List.length_append, List.length_cons] at hn
      obtain ⟨m, rfl⟩ : ∃ m, n = m + 1 := ⟨n - 1, by omega⟩
      rw [splitFuel_step _ _ _ (by simp), takeWhile_word hww.2, dropWhile_sp_word hww.2]
      simp only [List.takeWhile_cons, List.dropWhile_cons, bne_self_eq_false, Bool.false_eq_true,
        if_false, List.append_nil, List.drop_succ_cons, List.drop_zero]
      rw [hts m (by omega)]

theorem split_join (ts : List Str) (h : ∀ w ∈ ts, IsWord w) : split (joinSp ts) = ts :=
  splitFuel_join ts h _ le_rfl

theorem tokens_cons_blank {c : Char} {s ts} (hc : isBlank c = true) (h : SpecTokens s ts) :
    SpecTokens (c :: s) ts := by
  have key : ∀ b : Str, AllBlank b → AllBlank (c :: b) := by
    intro b hb d hd
    rcases List.mem_cons.1 hd with rfl | hd
    · exact hc
    · exact hb d hd
  cases h with
  | nil hb => exact .nil (key _ hb)
  | last hb hv => exact .last (key _ hb) hv
  | cons hb hv hc' hs => exact .cons (key _ hb) hv hc' hs

theorem tokens_joinSp : ∀ (ts : List Str), (∀ w ∈ ts, IsWord w) → SpecTokens (joinSp ts) ts := by
  intro ts
  induction ts with
  | nil => intro _; exact .nil (by simp [AllBlank, joinSp])
  | cons w ts ih =>
    intro h
    have hw := h w (by simp)
    have ht := ih (fun v hv => h v (by simp [hv]))
    by_cases h0 : ts = []
    · subst h0; exact .last (b := []) (by simp [AllBlank]) hw
    · rw [joinSp_cons h0]
      have := tokens_cons_blank (c := ' ') rfl ht
      exact .cons (b := []) (by simp [AllBlank]) hw rfl this

theorem joinSp_normal (ts : List Str) (hw : ∀ w ∈ ts, IsWord w) :
    '\t' ∉ joinSp ts ∧ (joinSp ts).head? ≠ some ' ' ∧ (joinSp ts).getLast? ≠ some ' ' ∧
    ∀ a b, joinSp ts ≠ a ++ ' ' :: ' ' :: b := by
  have hsp : ∀ w, IsWord w → ' ' ∉ w := fun w h hm => absurd (h.2 _ hm) (by decide)
  have htb : ∀ w, IsWord w → '\t' ∉ w := fun w h hm => absurd (h.2 _ hm) (by decide)
  induction ts with
  | nil => simp [joinSp]
  | cons w ts ih =>
    have h1 := hw w (by simp)
    obtain ⟨i1, i2, i3, i4⟩ := ih (fun v hv => hw v (by simp [hv]))
    have hhead : ∀ t, (w ++ t).head? ≠ some ' ' := by
      intro t
      cases hwc : w with
      | nil => exact absurd hwc h1.1
      | cons c cs =>
        have := hsp w h1
        rw [hwc] at this
        simp only [List.cons_append, List.head?_cons, ne_eq, Option.some.injEq]
        rintro rfl
        exact this (by simp)
    by_cases h0 : ts = []
    · subst h0
      simp only [joinSp]
      refine ⟨htb w h1, by simpa using hhead [], ?_, ?_⟩
      · intro h; exact hsp w h1 (List.mem_of_getLast? h)
      · intro a b h; apply hsp w h1; rw [h]; simp
    · rw [joinSp_cons h0]
      have hne : joinSp ts ≠ [] := by
        cases ts with
        | nil => exact absurd rfl h0
        | cons v vs =>
          have := (hw v (by simp)).1
          cases vs with
          | nil => simpa [joinSp] using this
          | cons u us => simp [joinSp]
      refine ⟨?_, hhead _, ?_, ?_⟩
      · simp only [List.mem_append, List.mem_cons, not_or]
        exact ⟨htb w h1, by decide, i1⟩
      · intro h
        apply i3
        rw [List.getLast?_append_of_ne_nil _ (by simp)] at h
        rw [List.getLast?_cons] at h
        cases hj : (joinSp ts).getLast? with
        | none => simp at hj; exact absurd hj hne
        | some c => rw [hj] at h; simpa using h
      · intro a b h
        rcases List.append_eq_append_iff.1 h with ⟨c, hc1, hc2⟩ | ⟨c, hc1, hc2⟩
        · cases c with
          | nil =>
            simp only [List.nil_append, List.cons.injEq, true_and] at hc2
            apply i2; rw [hc2]; simp
          | cons d ds =>
            simp only [List.cons_append, List.cons.injEq] at hc2
            exact i4 ds b hc2.2
        · cases c with
          | nil =>
            simp only [List.nil_append, List.cons.injEq, true_and] at hc2
            apply i2; rw [← hc2]; simp
          | cons d ds =>
            simp only [List.cons_append, List.cons.injEq] at hc2
            apply hsp w h1; rw [hc1, ← hc2.1]; simp

/-! ### Integer power -/

theorem powLoop_eq (m : Nat) : ∀ x r : ℝ, powLoop x r m = r * x ^ m := by
  induction m using Nat.strong_induction_on with
  | _ m ih =>
    intro x r
    rw [powLoop]
    have hm : m = 2 * (m / 2) + m % 2 := by omega
    by_cases h0 : m / 2 = 0
    · rw [if_pos h0]
      have : m = m % 2 := by omega
      rcases Nat.mod_two_eq_zero_or_one m with h | h
      · rw [if_neg (by omega)]; rw [this, h]; simp
      · rw [if_pos h]; rw [this, h]; simp
    · rw [if_neg h0, ih (m / 2) (by omega)]
      have e : x ^ m = (x * x) ^ (m / 2) * x ^ (m % 2) := by
        rw [← pow_two, ← pow_mul, ← pow_add, ← hm]
      rcases Nat.mod_two_eq_zero_or_one m with h | h
      · rw [if_neg (by omega), e, h]; ring
      · rw [if_pos h, e, h]; ring

end N2P2
