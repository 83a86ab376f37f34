import Verif.Spec.NeuralNetwork
import Mathlib.Tactic.Linarith
import Mathlib.Tactic.Ring

/-! Positions of network parameters, and the loop over all parameters. -/

namespace N2P2

open NetShape

namespace NetShape

theorem offset_succ (n : ℕ → ℕ) (i : ℕ) : offset n (i + 1) = offset n i + (n i + 1) * n (i + 1) := by
  unfold offset; rw [Finset.sum_range_succ]

theorem offset_mono (n : ℕ → ℕ) {i j : ℕ} (h : i ≤ j) : offset n i ≤ offset n j := by
  induction j with
  | zero => simp_all
  | succ j ih =>
    rcases Nat.lt_or_ge i (j + 1) with h' | h'
    · exact (ih (by omega)).trans (by rw [offset_succ]; omega)
    · have : i = j + 1 := by omega
      rw [this]

end NetShape

namespace Param

/-- Block of a parameter. -/
def block : Param → ℕ
  | weight i _ _ => i
  | bias i _ => i

theorem mul_add_lt {j k a b : ℕ} (hj : j < a) (hk : k < b) : j * b + k < a * b := by
  calc j * b + k < j * b + b := by omega
    _ = (j + 1) * b := by ring
    _ ≤ a * b := Nat.mul_le_mul_right _ hj

theorem mul_add_inj {j j' k k' b : ℕ} (hk : k < b) (hk' : k' < b) (h : j * b + k = j' * b + k') :
    j = j' ∧ k = k' := by
  have hb : 0 < b := by omega
  have h1 : (j * b + k) / b = j := by
    rw [mul_comm, Nat.mul_add_div hb, Nat.div_eq_of_lt hk, add_zero]
  have h2 : (j' * b + k') / b = j' := by
    rw [mul_comm, Nat.mul_add_div hb, Nat.div_eq_of_lt hk', add_zero]
  have : j = j' := by rw [← h1, ← h2, h]
  subst this
  exact ⟨rfl, by omega⟩

theorem pos_ge (n : ℕ → ℕ) (p : Param) : offset n p.block ≤ pos n p := by
  cases p <;> simp only [pos, block] <;> omega

theorem pos_lt {L : ℕ} {n : ℕ → ℕ} {p : Param} (h : p.Valid L n) :
    pos n p < offset n (p.block + 1) := by
  rw [offset_succ]
  cases p with
  | weight i j k =>
    obtain ⟨_, hj, hk⟩ := h
    have := mul_add_lt hj hk
    simp only [pos, block, add_mul]; omega
  | bias i k =>
    obtain ⟨_, hk⟩ := h
    simp only [pos, block, add_mul]; omega

theorem Valid.block_lt {L : ℕ} {n : ℕ → ℕ} {p : Param} (h : p.Valid L n) : p.block + 1 < L := by
  cases p <;> exact h.1

theorem pos_lt_total {L : ℕ} {n : ℕ → ℕ} {p : Param} (h : p.Valid L n) :
    pos n p < offset n (L - 1) :=
  (pos_lt h).trans_le (offset_mono n (by have := h.block_lt; omega))

theorem pos_lt_of_block_lt {L : ℕ} {n : ℕ → ℕ} {p q : Param} (hp : p.Valid L n)
    (h : p.block < q.block) : pos n p < pos n q :=
  (pos_lt hp).trans_le ((offset_mono n h).trans (pos_ge n q))

theorem pos_inj {L : ℕ} {n : ℕ → ℕ} {p q : Param} (hp : p.Valid L n) (hq : q.Valid L n)
    (h : pos n p = pos n q) : p = q := by
  rcases lt_trichotomy p.block q.block with hb | hb | hb
  · exact absurd h (pos_lt_of_block_lt hp hb).ne
  · cases p with
    | weight i j k =>
      obtain ⟨_, hj, hk⟩ := hp
      have h1 := mul_add_lt hj hk
      cases q with
      | weight i' j' k' =>
        simp only [block] at hb; subst hb
        obtain ⟨_, _, hk'⟩ := hq
        simp only [pos] at h
        obtain ⟨e1, e2⟩ := mul_add_inj hk hk' (by omega : j * n (i + 1) + k = j' * n (i + 1) + k')
        rw [e1, e2]
      | bias i' k' =>
        simp only [block] at hb; subst hb
        simp only [pos] at h; omega
    | bias i k =>
      cases q with
      | weight i' j' k' =>
        simp only [block] at hb; subst hb
        obtain ⟨_, hj', hk'⟩ := hq
        have h1 := mul_add_lt hj' hk'
        simp only [pos] at h; omega
      | bias i' k' =>
        simp only [block] at hb; subst hb
        simp only [pos] at h
        have : k = k' := by omega
        rw [this]
  · exact absurd h (pos_lt_of_block_lt hq hb).ne'

theorem exists_pos {L : ℕ} {n : ℕ → ℕ} {m : ℕ} (h : m < offset n (L - 1)) :
    ∃ p, p.Valid L n ∧ pos n p = m := by
  have : ∀ B, m < offset n B → ∃ p : Param, p.Valid (B + 1) n ∧ pos n p = m := by
    intro B
    induction B with
    | zero => intro h; simp [offset] at h
    | succ B ih =>
      intro h
      rcases Nat.lt_or_ge m (offset n B) with h' | h'
      · obtain ⟨p, hp, e⟩ := ih h'
        refine ⟨p, ?_, e⟩
        cases p <;> simp only [Valid] at hp ⊢ <;> omega
      · rw [offset_succ, add_mul, one_mul] at h
        obtain ⟨r, rfl⟩ : ∃ r, m = offset n B + r := ⟨m - offset n B, by omega⟩
        rcases Nat.lt_or_ge r (n B * n (B + 1)) with h2 | h2
        · have hb : 0 < n (B + 1) := by
            rcases Nat.eq_zero_or_pos (n (B + 1)) with e | e
            · rw [e] at h2; simp at h2
            · exact e
          refine ⟨.weight B (r / n (B + 1)) (r % n (B + 1)), ⟨by omega, ?_, Nat.mod_lt _ hb⟩, ?_⟩
          · rw [Nat.div_lt_iff_lt_mul hb]; exact h2
          · simp only [pos]
            have := Nat.div_add_mod r (n (B + 1))
            rw [mul_comm] at this
            omega
        · exact ⟨.bias B (r - n B * n (B + 1)), ⟨by omega, by omega⟩, by simp only [pos]; omega⟩
  rcases Nat.eq_zero_or_pos (L - 1) with e | e
  · rw [e] at h; simp [offset] at h
  · obtain ⟨p, hp, hm⟩ := this _ h
    rw [show L - 1 + 1 = L by omega] at hp
    exact ⟨p, hp, hm⟩

/-- Effect of a write to the position of `p` on the position of `q`. -/
theorem set_pos {L : ℕ} {n : ℕ → ℕ} {p q : Param} (hp : p.Valid L n) (hq : q.Valid L n)
    (a : Buf) (v : ℝ) : a.set (pos n p) v (pos n q) = if q = p then v else a (pos n q) := by
  rw [Buf.set_apply]
  by_cases h : q = p
  · simp [h]
  · rw [if_neg h, if_neg (fun e => h (pos_inj hq hp e))]

theorem set_ne {L : ℕ} {n : ℕ → ℕ} {p q : Param} (hp : p.Valid L n) (hq : q.Valid L n)
    (h : q ≠ p) (a : Buf) (v : ℝ) : a.set (pos n p) v (pos n q) = a (pos n q) := by
  rw [set_pos hp hq, if_neg h]

theorem set_ge {L : ℕ} {n : ℕ → ℕ} {p : Param} (hp : p.Valid L n) {m : ℕ}
    (hm : offset n (L - 1) ≤ m) (a : Buf) (v : ℝ) : a.set (pos n p) v m = a m := by
  rw [Buf.set_apply, if_neg]
  have := pos_lt_total hp
  omega

end Param

/-- The loop of setConnections and getConnections over all parameters with a counter. -/
def walk {S : Type*} (L : ℕ) (n : ℕ → ℕ) (visit : Param → ℕ → S → S) (s : S) : S × ℕ :=
  loop (L - 1) (fun i s =>
    loop (n (i + 1)) (fun j s => (visit (.bias i j) s.2 s.1, s.2 + 1))
      (loop (n i) (fun j s =>
        loop (n (i + 1)) (fun k s => (visit (.weight i j k) s.2 s.1, s.2 + 1)) s) s)) (s, 0)

theorem walk_induction {S : Type*} {L : ℕ} {n : ℕ → ℕ} {visit : Param → ℕ → S → S} {s : S}
    (P : ℕ → S → Prop) (h0 : P 0 s)
    (hs : ∀ p : Param, p.Valid L n → ∀ t, P (p.pos n) t → P (p.pos n + 1) (visit p (p.pos n) t)) :
    P (offset n (L - 1)) (walk L n visit s).1 := by
  have key : P (walk L n visit s).2 (walk L n visit s).1 ∧
      (walk L n visit s).2 = offset n (L - 1) := by
    unfold walk
    refine loop_induction (fun i (t : S × ℕ) => P t.2 t.1 ∧ t.2 = offset n i) ⟨h0, rfl⟩ ?_
    intro i hi t ht
    have h1 := loop_induction (n := n i) (s := t)
      (b := fun j s => loop (n (i + 1)) (fun k s => (visit (.weight i j k) s.2 s.1, s.2 + 1)) s)
      (fun j u => P u.2 u.1 ∧ u.2 = offset n i + j * n (i + 1)) (by simpa using ht) (by
        intro j hj u hu
        have := loop_induction (n := n (i + 1)) (s := u)
          (b := fun k (s : S × ℕ) => (visit (.weight i j k) s.2 s.1, s.2 + 1))
          (fun k v => P v.2 v.1 ∧ v.2 = offset n i + j * n (i + 1) + k) (by simpa using hu) (by
            intro k hk v hv
            have e : v.2 = Param.pos n (.weight i j k) := hv.2
            refine ⟨?_, by simp only [e, Param.pos]; omega⟩
            simp only
            rw [e]
            exact hs (.weight i j k) ⟨by omega, hj, hk⟩ _ (e ▸ hv.1))
        refine ⟨this.1, ?_⟩
        rw [this.2]; ring)
    have h2 := loop_induction (n := n (i + 1))
      (s := loop (n i) (fun j s =>
        loop (n (i + 1)) (fun k s => (visit (.weight i j k) s.2 s.1, s.2 + 1)) s) t)
      (b := fun j (s : S × ℕ) => (visit (.bias i j) s.2 s.1, s.2 + 1))
      (fun k v => P v.2 v.1 ∧ v.2 = offset n i + n i * n (i + 1) + k) (by simpa using h1) (by
        intro k hk v hv
        have e : v.2 = Param.pos n (.bias i k) := hv.2
        refine ⟨?_, by simp only [e, Param.pos]; omega⟩
        simp only
        rw [e]
        exact hs (.bias i k) ⟨by omega, hk⟩ _ (e ▸ hv.1))
    refine ⟨h2.1, ?_⟩
    rw [h2.2, offset_succ]; ring
  rw [← key.2]; exact key.1

end N2P2
