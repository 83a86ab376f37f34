import Verif.Lemma.Implicit
import Verif.Lemma.ElecRun

/-! How charges in equilibrium change with electronegativities, hardnesses and interactions. -/

open Filter Topology

namespace N2P2

variable {s : Structure}

/-- The equations of the equilibrium as rows of the matrix of the code. -/
theorem Qeq.Equilibrium.rows {χ J U : ℕ → ℝ} {V : ℕ → ℕ → ℝ} {x : ℕ → ℝ}
    (h : Qeq.Equilibrium s χ J U V x) : ∃ l : ℝ, ∀ z : ℕ → ℝ, (∀ i < s.atoms.length, z i = x i) →
      z s.atoms.length = l → ∀ i < s.atoms.length + 1,
        ∑ j ∈ Finset.range (s.atoms.length + 1),
          borderMatrix s.atoms.length (symMat (fun i => J i + U i) V) i j * z j =
          if i = s.atoms.length then s.chargeRef else -χ i := by
  obtain ⟨c, hc⟩ := h.equal
  refine ⟨-c, fun z hz hl i hi => ?_⟩
  have hsum : ∀ f : ℕ → ℝ, ∑ j ∈ Finset.range s.atoms.length, f j * z j =
      ∑ j ∈ Finset.range s.atoms.length, f j * x j := fun f =>
    Finset.sum_congr rfl fun j hj => by rw [hz j (Finset.mem_range.1 hj)]
  rcases Nat.lt_succ_iff_lt_or_eq.1 hi with hi | rfl
  · rw [border_row _ _ _ hi, hsum, symMat_row _ _ _ _ hi, hl, if_neg hi.ne]
    have := hc i hi
    unfold Qeq.potential at this
    linarith
  · rw [border_last, if_pos rfl, ← h.total]
    exact Finset.sum_congr rfl fun j hj => hz j (Finset.mem_range.1 hj)

/-- Two charge distributions in equilibrium agree. -/
theorem Qeq.Equilibrium.unique {χ J U : ℕ → ℝ} {V : ℕ → ℕ → ℝ} {x x' : ℕ → ℝ}
    (hd : (Matrix.of fun i j : Fin (s.atoms.length + 1) =>
      borderMatrix s.atoms.length (symMat (fun i => J i + U i) V) i j).det ≠ 0)
    (h : Qeq.Equilibrium s χ J U V x) (h' : Qeq.Equilibrium s χ J U V x') {i : ℕ}
    (hi : i < s.atoms.length) : x i = x' i := by
  obtain ⟨l, hl⟩ := h.rows
  obtain ⟨l', hl'⟩ := h'.rows
  have e := unique_of_det hd (x := fun j => if j < s.atoms.length then x j else l)
    (y := fun j => if j < s.atoms.length then x' j else l') (fun k hk => by
      rw [hl _ (fun j hj => if_pos hj) (if_neg (lt_irrefl _)) k hk,
        hl' _ (fun j hj => if_pos hj) (if_neg (lt_irrefl _)) k hk]) (show i < _ by omega)
  simpa [hi] using e

/-- Charges in equilibrium change with rates `y` which solve the equations of the code. -/
theorem equilibrium_deriv {χ J U : ℝ → ℕ → ℝ} {V : ℝ → ℕ → ℕ → ℝ} {x : ℝ → ℕ → ℝ} {χ' D' : ℕ → ℝ}
    {V' : ℕ → ℕ → ℝ} {y : ℕ → ℝ} {t0 : ℝ}
    (hχ : ∀ i < s.atoms.length, HasDerivAt (fun t => χ t i) (χ' i) t0)
    (hD : ∀ i < s.atoms.length, HasDerivAt (fun t => J t i + U t i) (D' i) t0)
    (hV : ∀ i j, i < j → j < s.atoms.length → HasDerivAt (fun t => V t i j) (V' i j) t0)
    (hx : ∀ᶠ t in 𝓝 t0, Qeq.Equilibrium s (χ t) (J t) (U t) (V t) (x t))
    (hd : (Matrix.of fun i j : Fin (s.atoms.length + 1) =>
      borderMatrix s.atoms.length (symMat (fun i => J t0 i + U t0 i) (V t0)) i j).det ≠ 0)
    (hy : ∀ i < s.atoms.length, ∑ j ∈ Finset.range (s.atoms.length + 1),
      borderMatrix s.atoms.length (symMat (fun i => J t0 i + U t0 i) (V t0)) i j * y j =
        -χ' i - D' i * x t0 i - Qeq.potential s V' (x t0) i)
    (hy0 : ∑ j ∈ Finset.range s.atoms.length, y j = 0) {i : ℕ} (hi : i < s.atoms.length) :
    HasDerivAt (fun t => x t i) (y i) t0 := by
  classical
  set n := s.atoms.length with hn
  set l : ℝ → ℝ := fun t => if h : Qeq.Equilibrium s (χ t) (J t) (U t) (V t) (x t)
    then h.rows.choose else 0 with hl
  have key := solution_deriv (n := n + 1)
    (A := fun t => borderMatrix n (symMat (fun i => J t i + U t i) (V t)))
    (A' := fun i j => if i = n ∨ j = n then 0 else symMat D' V' i j)
    (b := fun t i => if i = n then s.chargeRef else -χ t i)
    (b' := fun i => if i = n then 0 else -χ' i)
    (x := fun t i => if i < n then x t i else l t) (y := y) (t0 := t0) ?_ ?_ ?_ hd ?_
    (i := i) (by omega)
  · simpa only [if_pos hi] using key
  · intro a ha b hb
    simp only [borderMatrix_apply]
    by_cases h1 : a = n
    · simpa only [if_pos h1, h1, true_or, if_true] using hasDerivAt_const _ _
    · by_cases h2 : b = n
      · simpa only [if_neg h1, h2, or_true, if_true] using hasDerivAt_const _ _
      · simp only [h1, h2, or_self, if_false]
        unfold symMat
        by_cases h3 : a = b
        · simpa only [if_pos h3] using hD a (by omega)
        · simp only [if_neg h3]
          by_cases h4 : a < b
          · simpa only [if_pos h4] using hV a b h4 (by omega)
          · simpa only [if_neg h4] using hV b a (by omega) (by omega)
  · intro a ha
    by_cases h1 : a = n
    · simpa only [if_pos h1] using hasDerivAt_const _ _
    · simpa only [if_neg h1] using (hχ a (by omega)).fun_neg
  · filter_upwards [hx] with t ht a ha
    refine ht.rows.choose_spec (fun j => if j < n then x t j else l t) (fun j hj => if_pos hj) ?_ a ha
    rw [if_neg (lt_irrefl _), hl]
    exact dif_pos ht
  · intro a ha
    by_cases h1 : a = n
    · subst h1
      rw [border_last, hy0, if_pos rfl]
      simp
    · have ha' : a < n := by omega
      rw [hy a ha', if_neg h1]
      have e : ∑ j ∈ Finset.range (n + 1), (if a = n ∨ j = n then 0 else symMat D' V' a j) *
          (if j < n then x t0 j else l t0) =
          ∑ j ∈ Finset.range n, symMat D' V' a j * x t0 j := by
        rw [Finset.sum_range_succ]
        simp only [or_true, if_true, zero_mul, add_zero, h1, false_or]
        refine Finset.sum_congr rfl fun j hj => ?_
        have := Finset.mem_range.1 hj
        rw [if_neg (by omega), if_pos this]
      rw [e, symMat_row _ _ _ _ ha']
      unfold Qeq.potential
      ring

end N2P2
