import Verif.Lemma.Screening
import Verif.Lemma.QeqList
import Verif.Props.Cutoff
import Verif.Props.Geometry

/-! Example structures for the charge equilibration. -/

namespace N2P2

theorem erf_nonneg {x : ℝ} (h : 0 ≤ x) : 0 ≤ erf x := by
  rcases h.eq_or_lt with rfl | h
  · rw [erf_zero]
  · exact (erf_pos h).le

theorem coulomb_nonneg {q : Qeq} (hε : 0 ≤ q.fourPiEps) {e f : ℕ} (hγ : 0 ≤ q.γ e f) {r : ℝ}
    (hr : 0 ≤ r) : 0 ≤ q.coulomb e f r := by
  unfold Qeq.coulomb
  exact div_nonneg (erf_nonneg (by positivity)) (by positivity)

theorem coulomb_pos {q : Qeq} (hε : 0 < q.fourPiEps) {e f : ℕ} (hγ : 0 < q.γ e f) {r : ℝ}
    (hr : 0 < r) : 0 < q.coulomb e f r := by
  unfold Qeq.coulomb
  exact div_pos (erf_pos (by positivity)) (by positivity)

theorem list_sum_nonpos {l : List ℝ} (h : ∀ x ∈ l, x ≤ 0) : l.sum ≤ 0 := by
  induction l with
  | nil => simp
  | cons a l ih =>
    rw [List.sum_cons]
    have := h a (by simp)
    have := ih fun x hx => h x (List.mem_cons_of_mem _ hx)
    linarith

theorem list_sum_neg {l : List ℝ} (h : ∀ x ∈ l, x ≤ 0) {x : ℝ} (hx : x ∈ l) (h0 : x < 0) :
    l.sum < 0 := by
  induction l with
  | nil => simp at hx
  | cons a l ih =>
    rw [List.sum_cons]
    have ha := h a (by simp)
    have hl : ∀ x ∈ l, x ≤ 0 := fun x hx => h x (List.mem_cons_of_mem _ hx)
    rcases List.mem_cons.1 hx with rfl | hx
    · have := list_sum_nonpos hl
      linarith
    · have := ih hl hx
      linarith

/-- `A⁻¹ b`: a correct solver. -/
noncomputable def invSolve : LinSolve := fun _ A b => A⁻¹.mulVec b

theorem invSolve_correct : invSolve.Correct := by
  intro n A b h
  unfold invSolve
  rw [Matrix.mulVec_mulVec, Matrix.mul_nonsing_inv _ (isUnit_iff_ne_zero.2 h), Matrix.one_mulVec]

/-- Parameters of one element, screening between 1.1 and 1.5. -/
noncomputable def exQeq : Qeq :=
  { hardness := [1]
    qsigma := [1]
    fs := ⟨11 / 10, 3 / 2, 1.0 / (3 / 2 - 11 / 10), ⟨.POLY2, false⟩⟩
    ewald := ⟨1, 1, 1⟩
    fourPiEps := 1 }

theorem exQeq_configured : exQeq.fs.Configured (11 / 10) (3 / 2) := by
  refine ⟨ScreeningFunction.init, ?_⟩
  unfold ScreeningFunction.setInnerOuter
  rw [if_neg (by norm_num)]
  rfl

theorem exQeq_γ (e : ℕ) (h : e = 0) : 0 < exQeq.γ e e := by
  subst h
  unfold Qeq.γ Qeq.σ
  simp [exQeq]

/-- Two atoms with opposite electronegativities. -/
noncomputable def exDimer : Structure :=
  { Structure.init with
    numAtoms := 2
    numElements := 1
    atoms := [{ Atom.init with chi := 1 }, { Atom.init with r := ![1, 0, 0], chi := -1 }] }

theorem exDimer_positive : exQeq.Positive exDimer (exQeq.openU exDimer) (exQeq.openV exDimer) := by
  refine ⟨by simp [exDimer], fun y hy h0 => ?_⟩
  have e : exDimer.atoms.length = 2 := rfl
  rw [e] at hy h0 ⊢
  rw [Finset.sum_range_succ, Finset.sum_range_one] at hy
  have hy1 : y 1 = -y 0 := by linarith
  have hy0 : y 0 ≠ 0 := by
    obtain ⟨i, hi, h⟩ := h0
    interval_cases i
    · exact h
    · rw [hy1] at h; simpa using h
  have e0 : exDimer.elementOf 0 = 0 := rfl
  have e1 : exDimer.elementOf 1 = 0 := rfl
  have hl : len (exDimer.position 0 - exDimer.position 1) = 1 := by
    have p0 : exDimer.position 0 = 0 := rfl
    have p1 : exDimer.position 1 = ![1, 0, 0] := rfl
    rw [p0, p1]
    simp [len, Fin.sum_univ_three]
  have hV : exQeq.openV exDimer 0 1 < 1 := by
    unfold Qeq.openV Qeq.coulomb
    rw [hl]
    have : erf (1 / (√2 * exQeq.γ (exDimer.elementOf 0) (exDimer.elementOf 1))) < 1 := erf_lt_one _
    simpa [exQeq] using this
  have hU : ∀ i, 0 ≤ exQeq.openU exDimer i := by
    intro i
    unfold Qeq.openU Qeq.self Qeq.σ
    have : (0 : ℝ) ≤ [(1 : ℝ)].getD (exDimer.elementOf i) 0 := by
      rcases exDimer.elementOf i with _ | k <;> simp
    have h1 : exQeq.qsigma = [1] := rfl
    have h2 : exQeq.fourPiEps = 1 := rfl
    rw [h1, h2]
    positivity
  unfold Qeq.coulombEnergy
  simp only [Finset.sum_range_succ, Finset.sum_range_zero, zero_add, e0, e1]
  rw [hy1]
  have hJ : exQeq.J 0 = 1 := rfl
  rw [hJ]
  have hsq : 0 < y 0 ^ 2 := by positivity
  nlinarith [hU 0, hU 1, mul_nonneg (hU 0) hsq.le, mul_nonneg (hU 1) hsq.le,
    mul_pos (sub_pos.2 hV) hsq]

/-- One atom with charge 1 in a cubic box of edge `L`. -/
noncomputable def exGrain (L : ℝ) : Structure :=
  { Structure.init with
    numAtoms := 1
    numElements := 1
    isPeriodic := true
    box := cube L
    chargeRef := 1
    maxCutoffRadiusOverall := 2
    atoms := [Atom.init] }

theorem exGrain_boxed {L : ℝ} (h : 0 < L) : Boxed (exGrain L) := by
  intro _
  refine ⟨nonSingular_cube h.ne', ?_⟩
  intro a ha
  have : a = Atom.init := by simpa [exGrain] using ha
  subst this
  refine ⟨0, fun k => ⟨le_rfl, by simp⟩, ?_⟩
  funext k
  simp [cartesian, Atom.init]

theorem calculateNeighborListCutoffs_rest {srt : List Neighbor → List Neighbor} {s s' : Structure}
    {rc : ℝ} {cutoffs : List (List ℝ)}
    (h : s.calculateNeighborListCutoffs srt rc cutoffs = some s') :
    s'.numAtoms = s.numAtoms ∧ s'.chargeRef = s.chargeRef := by
  unfold Structure.calculateNeighborListCutoffs at h
  obtain ⟨t, ht, h⟩ := Option.bind_eq_some_iff.1 h
  have h1 : s'.numAtoms = t.numAtoms ∧ s'.chargeRef = t.chargeRef := by
    unfold Structure.setupNeighborCutoffMap at h
    by_cases hs : t.neighborListIsSorted = true
    · rw [if_neg (by simp [hs])] at h
      obtain ⟨atoms, -, rfl⟩ := Option.map_eq_some_iff.1 h
      exact ⟨rfl, rfl⟩
    · rw [if_pos hs] at h
      cases h
  have h2 : t.numAtoms = s.numAtoms ∧ t.chargeRef = s.chargeRef := by
    unfold Structure.calculateNeighborList at ht
    simp only at ht
    cases hp : s.isPeriodic with
    | true =>
      rw [hp, if_pos rfl] at ht
      obtain ⟨pbc, -, h3⟩ := Option.bind_eq_some_iff.1 ht
      have := Option.some.inj h3
      subst this
      exact ⟨rfl, rfl⟩
    | false =>
      rw [hp] at ht
      have := Option.some.inj ht
      subst this
      exact ⟨rfl, rfl⟩
  exact ⟨h1.1.trans h2.1, h1.2.trans h2.2⟩

theorem len_shift_cube {L : ℝ} (_h : 0 < L) {n : Fin 3 → ℤ} (hn : n ≠ 0) :
    L ≤ len (shift (cube L) n) := by
  obtain ⟨k, hk⟩ : ∃ k, n k ≠ 0 := by
    by_contra hc
    push Not at hc
    exact hn (funext hc)
  have h1 : (1 : ℝ) ≤ (n k : ℝ) ^ 2 := by
    have : (1 : ℤ) ≤ n k ^ 2 := by
      have := sq_nonneg (n k)
      have : n k ^ 2 ≠ 0 := pow_ne_zero 2 hk
      omega
    exact_mod_cast this
  have h2 : shift (cube L) n k = (n k : ℝ) * L := by
    fin_cases k <;> simp [shift, cube, Fin.sum_univ_three]
  unfold len
  refine Real.le_sqrt_of_sq_le ?_
  refine le_trans ?_ (Finset.single_le_sum (f := fun k => shift (cube L) n k ^ 2)
    (fun k _ => sq_nonneg _) (Finset.mem_univ k))
  rw [h2, mul_pow]
  nlinarith [sq_nonneg L]

end N2P2
