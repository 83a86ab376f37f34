import Mathlib.Data.List.Basic

/-! Small facts about lists. -/

namespace N2P2

theorem mapM_some {α β : Type} {f : α → Option β} {l : List α} {m : List β}
    (h : l.mapM f = some m) : m.length = l.length ∧
      ∀ (i : ℕ) a, l[i]? = some a → ∃ b, m[i]? = some b ∧ f a = some b := by
  induction l generalizing m with
  | nil =>
    simp at h; subst h; simp
  | cons a t ih =>
    rw [List.mapM_cons] at h
    simp only [Option.bind_eq_bind, Option.bind_eq_some_iff, Option.pure_def] at h
    obtain ⟨b, hb, m', hm, e⟩ := h
    obtain rfl := Option.some.inj e
    obtain ⟨h1, h2⟩ := ih hm
    refine ⟨by simp [h1], ?_⟩
    intro i x hx
    cases i with
    | zero =>
      simp only [List.getElem?_cons_zero, Option.some.injEq] at hx
      subst hx
      exact ⟨b, rfl, hb⟩
    | succ i =>
      rw [List.getElem?_cons_succ] at hx ⊢
      exact h2 i x hx

theorem mapM_exists {α β : Type} {f : α → Option β} {l : List α}
    (h : ∀ a ∈ l, ∃ b, f a = some b) : ∃ m, l.mapM f = some m := by
  induction l with
  | nil => exact ⟨[], by simp⟩
  | cons a t ih =>
    obtain ⟨b, hb⟩ := h a (by simp)
    obtain ⟨m, hm⟩ := ih (fun x hx => h x (by simp [hx]))
    exact ⟨b :: m, by rw [List.mapM_cons, hb, hm]; rfl⟩

theorem isSome_get {α : Type} (l : List α) (i : ℕ) : (l[i]?).isSome = true ↔ i < l.length := by
  by_cases h : i < l.length
  · simp [h]
  · simp [h]

theorem mapM_none {α β : Type} {f : α → Option β} {l : List α} {a : α} (ha : a ∈ l)
    (h : f a = none) : l.mapM f = none := by
  cases hm : l.mapM f with
  | none => rfl
  | some m =>
    obtain ⟨i, hi⟩ := List.mem_iff_getElem?.1 ha
    obtain ⟨b, -, hb⟩ := (mapM_some hm).2 i a hi
    rw [h] at hb; cases hb

theorem mapM_id {α : Type} {f : α → Option α} {l : List α} (h : ∀ a ∈ l, f a = some a) :
    l.mapM f = some l := by
  induction l with
  | nil => simp
  | cons a t ih =>
    rw [List.mapM_cons, h a (by simp), ih (fun x hx => h x (by simp [hx]))]
    rfl

/-- In a list ordered by `d` the elements up to `c` come first. -/
theorem take_countP_of_sorted {α : Type} {p : α → Bool} {l : List α}
    (hs : l.Pairwise (fun a b => p b = true → p a = true)) :
    l.take (l.countP p) = l.filter p := by
  induction l with
  | nil => rfl
  | cons a t ih =>
    rw [List.pairwise_cons] at hs
    by_cases h : p a = true
    · rw [List.countP_cons_of_pos h, List.filter_cons_of_pos h, List.take_succ_cons, ih hs.2]
    · rw [List.countP_cons_of_neg h, List.filter_cons_of_neg h]
      have h0 : ∀ b ∈ t, ¬ p b = true := fun b hb hpb => h (hs.1 b hb hpb)
      rw [List.countP_eq_zero.2 h0, List.take_zero]
      symm
      rw [List.filter_eq_nil_iff]
      exact h0

end N2P2
