import Verif.Lemma.TrainingJacobian

/-! Helper lemmas for the update plan and the assembly of error vector and Jacobian. -/

namespace N2P2

namespace Training

theorem offsetPerTask_eq (ept : List ℕ) :
    offsetPerTask ept = ((List.range ept.length).map (fun t => (ept.take t).sum), ept.sum) := by
  unfold offsetPerTask
  have : ∀ (ept acc : List ℕ) (s : ℕ),
      ept.foldl (fun (s : List ℕ × ℕ) n => (s.1 ++ [s.2], s.2 + n)) (acc, s)
        = (acc ++ (List.range ept.length).map (fun t => s + (ept.take t).sum), s + ept.sum) := by
    intro ept
    induction ept with
    | nil => intro acc s; simp
    | cons n es ih =>
      intro acc s
      rw [List.foldl_cons, ih]
      simp [List.range_succ_eq_map, Function.comp_def, Nat.add_assoc]
  simpa using this ept [] 0

theorem offsetPerTask_get (ept : List ℕ) {t : ℕ} (ht : t < ept.length) :
    (offsetPerTask ept).1[t]? = some (ept.take t).sum := by
  rw [offsetPerTask_eq]
  simp [ht]

theorem take_succ_sum (l : List ℕ) {t : ℕ} (ht : t < l.length) :
    (l.take (t + 1)).sum = (l.take t).sum + l[t] := by
  rw [List.take_succ_eq_append_getElem ht, List.sum_append, List.sum_singleton]

theorem take_sum_mono (l : List ℕ) {s t : ℕ} (h : s ≤ t) : (l.take s).sum ≤ (l.take t).sum := by
  obtain ⟨k, rfl⟩ := Nat.exists_eq_add_of_le h
  rw [List.take_add]
  simp

theorem exists_task (l : List ℕ) {g : ℕ} (hg : g < l.sum) :
    ∃ t, ∃ ht : t < l.length, ∃ k < l[t], g = (l.take t).sum + k := by
  induction l generalizing g with
  | nil => simp at hg
  | cons n l ih =>
    by_cases h : g < n
    · exact ⟨0, by simp, g, by simpa using h, by simp⟩
    · rw [List.sum_cons] at hg
      obtain ⟨t, ht, k, hk, e⟩ := ih (g := g - n) (by omega)
      refine ⟨t + 1, by simpa using ht, k, by simpa using hk, ?_⟩
      simp only [List.take_succ_cons, List.sum_cons]
      omega

theorem task_unique (l : List ℕ) {s t j k : ℕ} (hs : s < l.length) (ht : t < l.length)
    (hj : j < l[s]) (hk : k < l[t]) (e : (l.take s).sum + j = (l.take t).sum + k) :
    s = t ∧ j = k := by
  rcases lt_trichotomy s t with h | h | h
  · have h1 := take_sum_mono l (show s + 1 ≤ t from h)
    rw [take_succ_sum l hs] at h1; omega
  · subst h; exact ⟨rfl, by omega⟩
  · have h1 := take_sum_mono l (show t + 1 ≤ s from h)
    rw [take_succ_sum l ht] at h1; omega

/-! ### Local arrays -/

theorem localError_sum {jm : JacobianMode} (h : jm ≠ .full) (base nb : ℕ) (e : ℕ → ℝ) :
    localError false jm base nb e base = ∑ b ∈ Finset.range nb, e b := by
  unfold localError
  refine loop_induction (fun n (t : Buf) => t base = ∑ b ∈ Finset.range n, e b) (by simp) ?_
  intro i _ t ht
  simp [h, Buf.set_apply, ht, Finset.sum_range_succ]

theorem localError_assign {jm : JacobianMode} (h : jm ≠ .full) (base nb : ℕ) (e : ℕ → ℝ) :
    localError true jm base (nb + 1) e base = e nb := by
  simp [localError, loop_succ, h, Buf.set_apply]

theorem localError_full (assign : Bool) (base nb : ℕ) (e : ℕ → ℝ) :
    ∀ b < nb, localError assign .full base nb e (base + b) = e b := by
  unfold localError
  have := loop_induction (n := nb) (s := (fun _ => 0 : Buf)) (b := fun b err =>
    let o := base + if JacobianMode.full = .full then b else 0
    Buf.set err o (if assign then e b else err o + e b))
    (fun n (t : Buf) => (∀ b < n, t (base + b) = e b) ∧ ∀ b ≥ n, t (base + b) = 0)
    ⟨by simp, by simp⟩ (by
      intro i _ t ⟨h1, h2⟩
      refine ⟨fun b hb => ?_, fun b hb => ?_⟩
      · simp only [if_true, Buf.set_apply, Nat.add_left_cancel_iff]
        by_cases hbi : b = i
        · rw [if_pos hbi, h2 i le_rfl, hbi]; simp
        · rw [if_neg hbi, h1 b (by omega)]
      · simp only [if_true, Buf.set_apply, Nat.add_left_cancel_iff]
        rw [if_neg (by omega), h2 b (by omega)])
  exact this.1

theorem localJacobian_sum {jm : JacobianMode} (h : jm ≠ .full) (base nw nb : ℕ) (d : ℕ → ℕ → ℝ) :
    ∀ m < nw, localJacobian jm base nw nb d (base * nw + m) = ∑ b ∈ Finset.range nb, d b m := by
  unfold localJacobian
  refine loop_induction (fun n (t : Buf) => ∀ m < nw,
    t (base * nw + m) = ∑ b ∈ Finset.range n, d b m) (by simp) ?_
  intro i _ t ht m hm
  simp only [h, if_false, Nat.add_zero]
  rw [if_pos ⟨by omega, by omega⟩, ht m hm, Finset.sum_range_succ, Nat.add_sub_cancel_left]

theorem row_cond {b i m nw : ℕ} (hm : m < nw) (base : ℕ) :
    (base * nw + i * nw ≤ (base + b) * nw + m ∧ (base + b) * nw + m < base * nw + i * nw + nw)
      ↔ b = i := by
  rw [Nat.add_mul]
  constructor
  · rintro ⟨h1, h2⟩
    rcases lt_trichotomy b i with h | h | h
    · have : (b + 1) * nw ≤ i * nw := Nat.mul_le_mul_right _ h
      rw [Nat.add_mul] at this; omega
    · exact h
    · have : (i + 1) * nw ≤ b * nw := Nat.mul_le_mul_right _ h
      rw [Nat.add_mul] at this; omega
  · rintro rfl; constructor <;> omega

theorem localJacobian_full (base nw nb : ℕ) (d : ℕ → ℕ → ℝ) :
    ∀ b < nb, ∀ m < nw, localJacobian .full base nw nb d ((base + b) * nw + m) = d b m := by
  unfold localJacobian
  have := loop_induction (n := nb) (s := (fun _ => 0 : Buf)) (b := fun b (jac : Buf) =>
    let o := base * nw + if JacobianMode.full = .full then b * nw else 0
    (fun m => if o ≤ m ∧ m < o + nw then jac m + d b (m - o) else jac m : Buf))
    (fun n (t : Buf) => (∀ b < n, ∀ m < nw, t ((base + b) * nw + m) = d b m) ∧
      ∀ b ≥ n, ∀ m < nw, t ((base + b) * nw + m) = 0)
    ⟨by simp, by simp⟩ (by
      intro i _ t ⟨h1, h2⟩
      refine ⟨fun b hb m hm => ?_, fun b hb m hm => ?_⟩
      · simp only [if_true, row_cond hm]
        by_cases hbi : b = i
        · subst hbi
          rw [if_pos rfl, h2 b le_rfl m hm, zero_add]
          congr 1
          rw [Nat.add_mul]; omega
        · rw [if_neg hbi, h1 b (by omega) m hm]
      · simp only [if_true, row_cond hm]
        rw [if_neg (by omega), h2 b (by omega) m hm])
  exact this.1

end Training

end N2P2
