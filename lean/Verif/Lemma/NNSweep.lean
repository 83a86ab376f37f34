import Verif.Lemma.NNForward

/-! The backward loops over the flat parameter array. -/

namespace N2P2

open NetShape

/-- One pass of the backward loop for one source neuron. -/
noncomputable def sweepRow (n : ℕ → ℕ) (fw fb : ℕ → ℕ → ℕ → ℝ → ℝ) (i j : ℕ) (s : Buf × ℕ) :
    Buf × ℕ :=
  loop (n (i + 1)) (fun k s =>
    let d := Buf.set s.1 (offset n i + s.2) (fw i j k (s.1 (Param.pos n (.bias i k))))
    let d := if 1 ≤ i then
        Buf.set d (Param.pos n (.bias (i - 1) j)) (d (Param.pos n (.bias (i - 1) j))
          + fb i j k (d (Param.pos n (.bias i k))))
      else d
    (d, s.2 + 1)) s

/-- Backward loop for one layer. -/
noncomputable def sweepLayer (n : ℕ → ℕ) (norm : Bool) (fw fb : ℕ → ℕ → ℕ → ℝ → ℝ) (i : ℕ)
    (d : Buf) : Buf :=
  (loop (n i) (fun j s =>
    let s := sweepRow n fw fb i j s
    if norm = true ∧ 1 ≤ i then
      (Buf.set s.1 (Param.pos n (.bias (i - 1) j))
        (s.1 (Param.pos n (.bias (i - 1) j)) / (n (i - 1) : ℝ)), s.2)
    else s) (d, 0)).1

/-- The whole backward loop. -/
noncomputable def sweep (L : ℕ) (n : ℕ → ℕ) (norm : Bool) (top : ℕ → ℝ)
    (fw fb : ℕ → ℕ → ℕ → ℝ → ℝ) (d : Buf) : Buf :=
  let d := loop (n (L - 1)) (fun k d =>
    let d := Buf.set d (Param.pos n (.bias (L - 2) k)) (top k)
    if norm then
      Buf.set d (Param.pos n (.bias (L - 2) k))
        (d (Param.pos n (.bias (L - 2) k)) / (n (L - 2) : ℝ))
    else d) d
  loopDown (L - 1) (fun i d => sweepLayer n norm fw fb i d) d

/-- Divisor. -/
noncomputable def nrm (norm : Bool) (x : ℕ) : ℝ := if norm then (x : ℝ) else 1

theorem sweepRow_spec {L : ℕ} {n : ℕ → ℕ} {fw fb : ℕ → ℕ → ℕ → ℝ → ℝ} {i j : ℕ} (hi : i + 1 < L)
    (hj : j < n i) (u : Buf) (cnt : ℕ) (hc : cnt = j * n (i + 1)) :
    let s := sweepRow n fw fb i j (u, cnt)
    s.2 = (j + 1) * n (i + 1) ∧
    (∀ k < n (i + 1), s.1 (Param.pos n (.weight i j k))
      = fw i j k (u (Param.pos n (.bias i k)))) ∧
    (1 ≤ i → s.1 (Param.pos n (.bias (i - 1) j)) = u (Param.pos n (.bias (i - 1) j))
      + ∑ k ∈ Finset.range (n (i + 1)), fb i j k (u (Param.pos n (.bias i k)))) ∧
    (∀ q : Param, q.Valid L n → (∀ k, q ≠ .weight i j k) → (1 ≤ i → q ≠ .bias (i - 1) j) →
      s.1 (q.pos n) = u (q.pos n)) ∧
    (∀ m, offset n (L - 1) ≤ m → s.1 m = u m) := by
  have key := loop_induction (n := n (i + 1)) (s := (u, cnt))
    (b := fun k (s : Buf × ℕ) =>
      let d := Buf.set s.1 (offset n i + s.2) (fw i j k (s.1 (Param.pos n (.bias i k))))
      let d := if 1 ≤ i then
          Buf.set d (Param.pos n (.bias (i - 1) j)) (d (Param.pos n (.bias (i - 1) j))
            + fb i j k (d (Param.pos n (.bias i k))))
        else d
      (d, s.2 + 1))
    (fun K s => s.2 = j * n (i + 1) + K ∧
      (∀ k < K, k < n (i + 1) → s.1 (Param.pos n (.weight i j k))
        = fw i j k (u (Param.pos n (.bias i k)))) ∧
      (1 ≤ i → s.1 (Param.pos n (.bias (i - 1) j)) = u (Param.pos n (.bias (i - 1) j))
        + ∑ k ∈ Finset.range K, fb i j k (u (Param.pos n (.bias i k)))) ∧
      (∀ q : Param, q.Valid L n → (∀ k, q ≠ .weight i j k) → (1 ≤ i → q ≠ .bias (i - 1) j) →
        s.1 (q.pos n) = u (q.pos n)) ∧
      (∀ m, offset n (L - 1) ≤ m → s.1 m = u m))
    ⟨by simpa using hc, fun k hk => by omega, fun _ => by simp, fun _ _ _ _ => rfl,
      fun _ _ => rfl⟩ (by
      intro K hK s hs
      obtain ⟨h1, h2, h3, h4, h5⟩ := hs
      have hw : (Param.weight i j K).Valid L n := ⟨hi, hj, hK⟩
      have hbi : (Param.bias i K).Valid L n := ⟨hi, hK⟩
      have hpos : offset n i + s.2 = Param.pos n (.weight i j K) := by
        simp only [Param.pos, h1]; omega
      have hB : s.1 (Param.pos n (.bias i K)) = u (Param.pos n (.bias i K)) :=
        h4 _ hbi (by simp) (by
          intro h e
          simp only [Param.bias.injEq] at e
          omega)
      simp only [hpos, hB]
      by_cases h1i : 1 ≤ i
      · have hb : (Param.bias (i - 1) j).Valid L n :=
          ⟨by omega, by rw [show i - 1 + 1 = i by omega]; exact hj⟩
        simp only [h1i, if_true]
        refine ⟨by omega, ?_, ?_, ?_, ?_⟩
        · intro k hk hk'
          have hv : (Param.weight i j k).Valid L n := ⟨hi, hj, hk'⟩
          rw [Param.set_ne hb hv (by simp), Param.set_pos hw hv]
          by_cases e : k = K
          · subst e; rw [if_pos rfl]
          · rw [if_neg (by simpa using e)]
            exact h2 k (by omega) hk'
        · intro _
          rw [Param.set_pos hb hb, if_pos rfl, Param.set_ne hw hb (by simp),
            Param.set_ne hw hbi (by simp), h3 h1i, hB, Finset.sum_range_succ]
          ring
        · intro q hq hqw hqb
          rw [Param.set_ne hb hq (hqb trivial), Param.set_ne hw hq (hqw K)]
          exact h4 q hq hqw (fun _ => hqb trivial)
        · intro m hm
          rw [Param.set_ge hb hm, Param.set_ge hw hm]
          exact h5 m hm
      · simp only [h1i, if_false]
        refine ⟨by omega, ?_, fun h => h.elim, ?_, ?_⟩
        · intro k hk hk'
          have hv : (Param.weight i j k).Valid L n := ⟨hi, hj, hk'⟩
          rw [Param.set_pos hw hv]
          by_cases e : k = K
          · subst e; rw [if_pos rfl]
          · rw [if_neg (by simpa using e)]
            exact h2 k (by omega) hk'
        · intro q hq hqw _
          rw [Param.set_ne hw hq (hqw K)]
          exact h4 q hq hqw (fun h => absurd h h1i)
        · intro m hm
          rw [Param.set_ge hw hm]
          exact h5 m hm)
  obtain ⟨h1, h2, h3, h4, h5⟩ := key
  exact ⟨by rw [show (j + 1) * n (i + 1) = j * n (i + 1) + n (i + 1) by ring]; exact h1,
    fun k hk => h2 k hk hk, h3, h4, h5⟩

theorem sweepLayer_spec {L : ℕ} {n : ℕ → ℕ} {norm : Bool} {fw fb : ℕ → ℕ → ℕ → ℝ → ℝ} {i : ℕ}
    (hi : i + 1 < L) (d : Buf) :
    let r := sweepLayer n norm fw fb i d
    (∀ j < n i, ∀ k < n (i + 1), r (Param.pos n (.weight i j k))
      = fw i j k (d (Param.pos n (.bias i k)))) ∧
    (1 ≤ i → ∀ j < n i, r (Param.pos n (.bias (i - 1) j)) = (d (Param.pos n (.bias (i - 1) j))
      + ∑ k ∈ Finset.range (n (i + 1)), fb i j k (d (Param.pos n (.bias i k))))
        / nrm norm (n (i - 1))) ∧
    (∀ q : Param, q.Valid L n → (∀ j k, q ≠ .weight i j k) →
      (1 ≤ i → ∀ j, q ≠ .bias (i - 1) j) → r (q.pos n) = d (q.pos n)) ∧
    (∀ m, offset n (L - 1) ≤ m → r m = d m) := by
  have key := loop_induction (n := n i) (s := (d, 0))
    (b := fun j (s : Buf × ℕ) =>
      let s := sweepRow n fw fb i j s
      if norm = true ∧ 1 ≤ i then
        (Buf.set s.1 (Param.pos n (.bias (i - 1) j))
          (s.1 (Param.pos n (.bias (i - 1) j)) / (n (i - 1) : ℝ)), s.2)
      else s)
    (fun J s => s.2 = J * n (i + 1) ∧
      (∀ j < J, j < n i → ∀ k < n (i + 1), s.1 (Param.pos n (.weight i j k))
        = fw i j k (d (Param.pos n (.bias i k)))) ∧
      (1 ≤ i → ∀ j < J, j < n i → s.1 (Param.pos n (.bias (i - 1) j))
        = (d (Param.pos n (.bias (i - 1) j))
        + ∑ k ∈ Finset.range (n (i + 1)), fb i j k (d (Param.pos n (.bias i k))))
          / nrm norm (n (i - 1))) ∧
      (∀ q : Param, q.Valid L n → (∀ j < J, ∀ k, q ≠ .weight i j k) →
        (1 ≤ i → ∀ j < J, q ≠ .bias (i - 1) j) → s.1 (q.pos n) = d (q.pos n)) ∧
      (∀ m, offset n (L - 1) ≤ m → s.1 m = d m))
    ⟨by simp, fun j hj => by omega, fun _ j hj => by omega, fun _ _ _ _ => rfl, fun _ _ => rfl⟩ (by
      intro J hJ s hs
      obtain ⟨h1, h2, h3, h4, h5⟩ := hs
      obtain ⟨r1, r2, r3, r4, r5⟩ := sweepRow_spec (fw := fw) (fb := fb) hi hJ s.1 s.2 h1
      have hsp : (s.1, s.2) = s := rfl
      rw [hsp] at r1 r2 r3 r4 r5
      have hB : ∀ k < n (i + 1), s.1 (Param.pos n (.bias i k)) = d (Param.pos n (.bias i k)) := by
        intro k hk
        refine h4 (.bias i k) ⟨hi, hk⟩ (by simp) ?_
        intro h j _ e
        simp only [Param.bias.injEq] at e
        omega
      -- the state after the row, before normalisation
      have hw : ∀ j < J + 1, j < n i → ∀ k < n (i + 1),
          (sweepRow n fw fb i J s).1 (Param.pos n (.weight i j k))
            = fw i j k (d (Param.pos n (.bias i k))) := by
        intro j hj hj' k hk
        by_cases e : j = J
        · subst e
          rw [r2 k hk, hB k hk]
        · rw [r4 (.weight i j k) ⟨hi, hj', hk⟩ (by intro k' e'; simp only [Param.weight.injEq] at e'; omega)
            (by simp)]
          exact h2 j (by omega) hj' k hk
      have hoff : ∀ q : Param, q.Valid L n → (∀ j < J + 1, ∀ k, q ≠ .weight i j k) →
          (1 ≤ i → ∀ j < J + 1, q ≠ .bias (i - 1) j) →
          (sweepRow n fw fb i J s).1 (q.pos n) = d (q.pos n) := by
        intro q hq hqw hqb
        rw [r4 q hq (hqw J (by omega)) (fun h => hqb h J (by omega))]
        exact h4 q hq (fun j hj => hqw j (by omega)) (fun h j hj => hqb h j (by omega))
      by_cases h1i : 1 ≤ i
      · have hbv : ∀ j < n i, (Param.bias (i - 1) j).Valid L n := fun j hj =>
          ⟨by omega, by rw [show i - 1 + 1 = i by omega]; exact hj⟩
        have hbJ : (sweepRow n fw fb i J s).1 (Param.pos n (.bias (i - 1) J))
            = d (Param.pos n (.bias (i - 1) J))
              + ∑ k ∈ Finset.range (n (i + 1)), fb i J k (d (Param.pos n (.bias i k))) := by
          rw [r3 h1i, h4 (.bias (i - 1) J) (hbv J hJ) (by simp)
            (by intro _ j hj e; simp only [Param.bias.injEq] at e; omega)]
          congr 1
          exact Finset.sum_congr rfl fun k hk => by rw [hB k (Finset.mem_range.mp hk)]
        have hbo : ∀ j < J, j < n i → (sweepRow n fw fb i J s).1 (Param.pos n (.bias (i - 1) j))
            = (d (Param.pos n (.bias (i - 1) j))
              + ∑ k ∈ Finset.range (n (i + 1)), fb i j k (d (Param.pos n (.bias i k))))
                / nrm norm (n (i - 1)) := by
          intro j hj hj'
          rw [r4 (.bias (i - 1) j) (hbv j hj') (by simp)
            (by intro _ e; simp only [Param.bias.injEq] at e; omega)]
          exact h3 h1i j hj hj'
        cases hn : norm with
        | true =>
          simp only [h1i, and_self, if_true]
          refine ⟨r1, ?_, ?_, ?_, ?_⟩
          · intro j hj hj' k hk
            have hv : (Param.weight i j k).Valid L n := ⟨hi, hj', hk⟩
            rw [Param.set_ne (hbv J hJ) hv (by simp)]
            exact hw j hj hj' k hk
          · intro _ j hj hj'
            rw [Param.set_pos (hbv J hJ) (hbv j hj')]
            by_cases e : j = J
            · subst e
              rw [if_pos rfl, hbJ]; simp [nrm]
            · rw [if_neg (by simpa using e)]
              have := hbo j (by omega) hj'
              rw [hn] at this
              exact this
          · intro q hq hqw hqb
            rw [Param.set_ne (hbv J hJ) hq (hqb trivial J (by omega))]
            exact hoff q hq hqw (fun _ => hqb trivial)
          · intro m hm
            rw [Param.set_ge (hbv J hJ) hm, r5 m hm]
            exact h5 m hm
        | false =>
          simp only [Bool.false_eq_true, false_and, if_false]
          refine ⟨r1, hw, ?_, hoff, fun m hm => by rw [r5 m hm]; exact h5 m hm⟩
          intro _ j hj hj'
          by_cases e : j = J
          · subst e
            rw [hbJ]; simp [nrm]
          · have := hbo j (by omega) hj'
            rw [hn] at this
            exact this
      · have hf : ¬ (norm = true ∧ 1 ≤ i) := fun h => h1i h.2
        simp only [hf, if_false]
        exact ⟨r1, hw, fun h => absurd h h1i, hoff, fun m hm => by rw [r5 m hm]; exact h5 m hm⟩)
  obtain ⟨_, h2, h3, h4, h5⟩ := key
  exact ⟨fun j hj => h2 j hj hj, fun h j hj => h3 h j hj hj,
    fun q hq hqw hqb => h4 q hq (fun j _ => hqw j) (fun h j _ => hqb h j), h5⟩

/-- The loop which fills the biases of the output layer. -/
theorem sweepTop_spec {L : ℕ} {n : ℕ → ℕ} {norm : Bool} {top : ℕ → ℝ} (hL : 3 ≤ L) (d : Buf) :
    let r := loop (n (L - 1)) (fun k d =>
      let d := Buf.set d (Param.pos n (.bias (L - 2) k)) (top k)
      if norm then
        Buf.set d (Param.pos n (.bias (L - 2) k))
          (d (Param.pos n (.bias (L - 2) k)) / (n (L - 2) : ℝ))
      else d) d
    (∀ k < n (L - 1), r (Param.pos n (.bias (L - 2) k)) = top k / nrm norm (n (L - 2))) ∧
    (∀ q : Param, q.Valid L n → (∀ k, q ≠ .bias (L - 2) k) → r (q.pos n) = d (q.pos n)) ∧
    (∀ m, offset n (L - 1) ≤ m → r m = d m) := by
  have hbv : ∀ k < n (L - 1), (Param.bias (L - 2) k).Valid L n := fun k hk =>
    ⟨by omega, by rw [show L - 2 + 1 = L - 1 by omega]; exact hk⟩
  have key := loop_induction (n := n (L - 1)) (s := d)
    (b := fun k (d : Buf) =>
      let d := Buf.set d (Param.pos n (.bias (L - 2) k)) (top k)
      if norm then
        Buf.set d (Param.pos n (.bias (L - 2) k))
          (d (Param.pos n (.bias (L - 2) k)) / (n (L - 2) : ℝ))
      else d)
    (fun K r => (∀ k < K, k < n (L - 1) →
        r (Param.pos n (.bias (L - 2) k)) = top k / nrm norm (n (L - 2))) ∧
      (∀ q : Param, q.Valid L n → (∀ k, q ≠ .bias (L - 2) k) → r (q.pos n) = d (q.pos n)) ∧
      (∀ m, offset n (L - 1) ≤ m → r m = d m))
    ⟨fun k hk => by omega, fun _ _ _ => rfl, fun _ _ => rfl⟩ (by
      intro K hK r hr
      obtain ⟨h1, h2, h3⟩ := hr
      cases norm with
      | true =>
        simp only [if_true]
        refine ⟨?_, ?_, ?_⟩
        · intro k hk hk'
          rw [Param.set_pos (hbv K hK) (hbv k hk')]
          by_cases e : k = K
          · subst e
            rw [if_pos rfl, Param.set_pos (hbv k hk') (hbv k hk'), if_pos rfl]; simp [nrm]
          · rw [if_neg (by simpa using e), Param.set_ne (hbv K hK) (hbv k hk') (by simpa using e)]
            exact h1 k (by omega) hk'
        · intro q hq hqb
          rw [Param.set_ne (hbv K hK) hq (hqb K), Param.set_ne (hbv K hK) hq (hqb K)]
          exact h2 q hq hqb
        · intro m hm
          rw [Param.set_ge (hbv K hK) hm, Param.set_ge (hbv K hK) hm]; exact h3 m hm
      | false =>
        simp only [Bool.false_eq_true, if_false]
        refine ⟨?_, ?_, ?_⟩
        · intro k hk hk'
          rw [Param.set_pos (hbv K hK) (hbv k hk')]
          by_cases e : k = K
          · subst e
            rw [if_pos rfl]; simp [nrm]
          · rw [if_neg (by simpa using e)]
            exact h1 k (by omega) hk'
        · intro q hq hqb
          rw [Param.set_ne (hbv K hK) hq (hqb K)]
          exact h2 q hq hqb
        · intro m hm
          rw [Param.set_ge (hbv K hK) hm]; exact h3 m hm)
  exact ⟨fun k hk => key.1 k hk hk, key.2.1, key.2.2⟩

/-- What the backward loop computes from a zero array. -/
theorem sweep_spec {L : ℕ} {n : ℕ → ℕ} {norm : Bool} {top : ℕ → ℝ} {fw fb : ℕ → ℕ → ℕ → ℝ → ℝ}
    (hL : 3 ≤ L) (d : Buf) (hd : ∀ p : Param, p.Valid L n → d (p.pos n) = 0) :
    let r := sweep L n norm top fw fb d
    (∀ k < n (L - 1), r (Param.pos n (.bias (L - 2) k)) = top k / nrm norm (n (L - 2))) ∧
    (∀ l, l + 2 < L → ∀ j < n (l + 1), r (Param.pos n (.bias l j))
      = (∑ k ∈ Finset.range (n (l + 2)), fb (l + 1) j k (r (Param.pos n (.bias (l + 1) k))))
        / nrm norm (n l)) ∧
    (∀ l, l + 1 < L → ∀ j < n l, ∀ k < n (l + 1), r (Param.pos n (.weight l j k))
      = fw l j k (r (Param.pos n (.bias l k)))) ∧
    (∀ m, offset n (L - 1) ≤ m → r m = d m) := by
  unfold sweep
  obtain ⟨t1, t2, t3⟩ := sweepTop_spec (norm := norm) (top := top) hL d (n := n)
  have key := loopDown_induction (n := L - 1)
    (s := loop (n (L - 1)) (fun k d =>
      let d := Buf.set d (Param.pos n (.bias (L - 2) k)) (top k)
      if norm then
        Buf.set d (Param.pos n (.bias (L - 2) k))
          (d (Param.pos n (.bias (L - 2) k)) / (n (L - 2) : ℝ))
      else d) d)
    (b := fun i d => sweepLayer n norm fw fb i d)
    (fun i r => (∀ k < n (L - 1), r (Param.pos n (.bias (L - 2) k))
        = top k / nrm norm (n (L - 2))) ∧
      (∀ l, i ≤ l + 1 → l + 2 < L → ∀ j < n (l + 1), r (Param.pos n (.bias l j))
        = (∑ k ∈ Finset.range (n (l + 2)), fb (l + 1) j k (r (Param.pos n (.bias (l + 1) k))))
          / nrm norm (n l)) ∧
      (∀ l, i ≤ l → l + 1 < L → ∀ j < n l, ∀ k < n (l + 1), r (Param.pos n (.weight l j k))
        = fw l j k (r (Param.pos n (.bias l k)))) ∧
      (∀ l, l + 1 < i → l + 1 < L → ∀ j < n (l + 1), r (Param.pos n (.bias l j)) = 0) ∧
      (∀ m, offset n (L - 1) ≤ m → r m = d m))
    ⟨t1, fun l h1 h2 => by omega, fun l h1 h2 => by omega, fun l h1 h2 j hj => by
      rw [t2 (.bias l j) ⟨by omega, hj⟩ (by intro k e; simp only [Param.bias.injEq] at e; omega)]
      exact hd (.bias l j) ⟨by omega, hj⟩, t3⟩ (by
      intro i hi r hr
      obtain ⟨h1, h2, h3, h4, h5⟩ := hr
      obtain ⟨s1, s2, s3, s4⟩ := sweepLayer_spec (norm := norm) (fw := fw) (fb := fb)
        (show i + 1 < L by omega) r (n := n)
      -- biases of blocks from i on are unchanged
      have hB : ∀ l, i ≤ l → l + 1 < L → ∀ k < n (l + 1),
          sweepLayer n norm fw fb i r (Param.pos n (.bias l k)) = r (Param.pos n (.bias l k)) := by
        intro l hl hl' k hk
        refine s3 (.bias l k) ⟨hl', hk⟩ (by simp) ?_
        intro h j e
        simp only [Param.bias.injEq] at e
        omega
      refine ⟨?_, ?_, ?_, ?_, fun m hm => by rw [s4 m hm]; exact h5 m hm⟩
      · intro k hk
        rw [hB (L - 2) (by omega) (by omega) k (by rw [show L - 2 + 1 = L - 1 by omega]; exact hk)]
        exact h1 k hk
      · intro l hl hl' j hj
        rw [Finset.sum_congr rfl fun k hk => by
          rw [hB (l + 1) (by omega) (by omega) k (Finset.mem_range.mp hk)]]
        by_cases e : i = l + 1
        · subst e
          have := s2 (by omega) j hj
          simp only [Nat.add_sub_cancel] at this
          rw [this, h4 l (by omega) (by omega) j hj, zero_add]
        · rw [hB l (by omega) (by omega) j hj]
          exact h2 l (by omega) hl' j hj
      · intro l hl hl' j hj k hk
        rw [hB l hl hl' k hk]
        by_cases e : l = i
        · subst e
          exact s1 j hj k hk
        · rw [s3 (.weight l j k) ⟨hl', hj, hk⟩ (by intro j' k' e'; simp only [Param.weight.injEq] at e'; omega)
            (by simp)]
          exact h3 l (by omega) hl' j hj k hk
      · intro l hl hl' j hj
        rw [s3 (.bias l j) ⟨hl', hj⟩ (by simp)
          (by intro _ j' e'; simp only [Param.bias.injEq] at e'; omega)]
        exact h4 l (by omega) hl' j hj)
  obtain ⟨k1, k2, k3, _, k5⟩ := key
  exact ⟨k1, fun l => k2 l (by omega), fun l => k3 l (by omega), k5⟩

end N2P2
