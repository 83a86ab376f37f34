import Verif.Lemma.Response
import Verif.Props.QeqDeriv

/-! C81: how the equilibrated charges respond to electronegativities and hardnesses. -/

open Filter Topology

namespace N2P2

variable {ls : LinSolve} {q : Qeq} {s s' : Structure} {U : ℕ → ℝ} {V : ℕ → ℕ → ℝ}
  {buf buf' : ErfcBuf} {d : Bool}

/-- What is left in the structure for the response functions. -/
theorem qeq_matrix (hn : s.numAtoms = s.atoms.length) (hUV : q.IsInteraction s U V)
    (h : chargeEquilibration ls q s buf d = some (s', buf')) :
    s'.atoms.length = s.atoms.length ∧ s'.numAtoms = s.atoms.length ∧
    (∀ i, (s'.atom i).element = s.elementOf i) ∧ s'.numElements = s.numElements ∧
    ∃ B : ℕ → ℕ → ℝ, (∀ a b, a < s.atoms.length → b < s.atoms.length →
      B a b = symMat (fun i => q.J (s.elementOf i) + U i) V a b) ∧
      s'.A = borderMatrix s.atoms.length B := by
  obtain ⟨s1, buf1, h1, hs⟩ := chargeEquilibration_inv h
  obtain ⟨B, buf2, -, hB, e⟩ := elecEnergy_eq ls hn hUV buf
  rw [e] at h1
  obtain ⟨x, -, hx⟩ := Option.map_eq_some_iff.1 h1
  replace hx := (Prod.mk.inj hx).1
  rw [hn] at hx
  refine ⟨?_, ?_, fun i => ?_, ?_, B, hB, ?_⟩
  · rw [hs.count, ← hx]
    exact Structure.storeCharges_length (borderMatrix s.atoms.length B) _
  · rw [hs.num, ← hx]
    exact hn
  · rw [(hs.atom i).2.2.2.1, ← hx, ← Structure.atom_element]
    show ((s.storeCharges (borderMatrix s.atoms.length B) _).atom i).element = _
    unfold Structure.atom Structure.storeCharges
    simp only [List.getD_eq_getElem?_getD, List.getElem?_mapIdx]
    cases s.atoms[i]? with
    | none => rfl
    | some a =>
      simp only [Option.map_some, Option.getD_some]
      split_ifs <;> rfl
  · rw [hs.elements, ← hx]
    rfl
  · rw [hs.A, ← hx]
    rfl

/-- The sums of multiples of solutions. -/
theorem run_superpose (hls : ls.Correct) {N m : ℕ} {A : ℕ → ℕ → ℝ}
    (hd : (Matrix.of fun i j : Fin N => A i j).det ≠ 0) (b : ℕ → ℕ → ℝ) (c : ℕ → ℝ) {a : ℕ}
    (ha : a < N) : ∑ j ∈ Finset.range N, A a j * ∑ i ∈ Finset.range m, ls.run N A (b i) j * c i =
      ∑ i ∈ Finset.range m, b i a * c i := by
  have e : ∀ i ∈ Finset.range m, b i a * c i =
      ∑ j ∈ Finset.range N, A a j * ls.run N A (b i) j * c i := by
    intro i _
    rw [← Finset.sum_mul, LinSolve.run_spec hls (b i) hd ha]
  rw [Finset.sum_congr rfl e, Finset.sum_comm]
  refine Finset.sum_congr rfl fun j _ => ?_
  rw [Finset.mul_sum]
  exact Finset.sum_congr rfl fun i _ => by ring

/-- C81: the equilibrated charges are in equilibrium. -/
theorem C81_equilibrium (hls : ls.Correct) (hn : s.numAtoms = s.atoms.length)
    (hUV : q.IsInteraction s U V) (hS : q.Solvable s U V)
    (h : chargeEquilibration ls q s buf d = some (s', buf')) :
    Qeq.Equilibrium s (fun i => (s.atom i).chi) (fun i => q.J (s.elementOf i)) U V
      (fun i => (s'.atom i).charge) := by
  obtain ⟨h1, h2⟩ := qeq_equations hls hn hUV hS h
  refine ⟨h1, -s'.lambda, fun i hi => ?_⟩
  have := h2 i hi
  rw [symMat_row _ _ _ _ hi] at this
  unfold Qeq.potential
  linarith

/-- The matrix of the code is not singular. -/
theorem qeq_det (hS : q.Solvable s U V) :
    (Matrix.of fun i j : Fin (s.atoms.length + 1) => borderMatrix s.atoms.length
      (symMat (fun i => q.J (s.elementOf i) + U i) V) i j).det ≠ 0 := hS.det fun _ _ _ _ => rfl

theorem borderMatrix_congr_run (ls : LinSolve) {n : ℕ} {A B : ℕ → ℕ → ℝ}
    (h : ∀ a b, a < n → b < n → A a b = B a b) (b : ℕ → ℝ) :
    ls.run (n + 1) (borderMatrix n A) b = ls.run (n + 1) (borderMatrix n B) b := by
  exact LinSolve.run_congr ls (fun i hi j hj => border_congr h i j hi hj) (fun _ _ => rfl)

/-- C81: `calculateDQdChi` gives the derivatives of the charges with respect to the
electronegativities: whenever these vary along a curve and charges follow in equilibrium, each charge
changes with the rate given by the table. -/
theorem C81_electronegativity (hls : ls.Correct) (hn : s.numAtoms = s.atoms.length)
    (hUV : q.IsInteraction s U V) (hS : q.Solvable s U V)
    (h : chargeEquilibration ls q s buf d = some (s', buf'))
    {χ x : ℝ → ℕ → ℝ} {χ' : ℕ → ℝ} {t0 : ℝ}
    (hχ : ∀ i < s.atoms.length, HasDerivAt (fun t => χ t i) (χ' i) t0)
    (hx : ∀ᶠ t in 𝓝 t0, Qeq.Equilibrium s (χ t) (fun i => q.J (s.elementOf i)) U V (x t)) :
    (s'.calculateDQdChi ls).length = s.atoms.length ∧
    (∀ r ∈ s'.calculateDQdChi ls, r.length = s.atoms.length) ∧
    ∀ j < s.atoms.length, HasDerivAt (fun t => x t j)
      (∑ i ∈ Finset.range s.atoms.length, ((s'.calculateDQdChi ls).getD i []).getD j 0 * χ' i) t0 := by
  obtain ⟨-, e1, -, -, B, hB, hA⟩ := qeq_matrix hn hUV h
  have hrow : ∀ i < s.atoms.length, ∀ j < s.atoms.length,
      ((s'.calculateDQdChi ls).getD i []).getD j 0 = ls.run (s.atoms.length + 1)
        (borderMatrix s.atoms.length (symMat (fun i => q.J (s.elementOf i) + U i) V))
        (fun j => if j = i then -1 else 0) j := by
    intro i hi j hj
    unfold Structure.calculateDQdChi
    rw [e1, hA]
    simp only [List.getD_eq_getElem?_getD, List.getElem?_map, List.getElem?_range hi,
      List.getElem?_range hj, Option.map_some, Option.getD_some]
    rw [borderMatrix_congr_run ls hB]
  refine ⟨by simp [Structure.calculateDQdChi, e1], ?_, fun j hj => ?_⟩
  · intro r hr
    unfold Structure.calculateDQdChi at hr
    obtain ⟨i, -, rfl⟩ := List.mem_map.1 hr
    simp [e1]
  set M := borderMatrix s.atoms.length (symMat (fun i => q.J (s.elementOf i) + U i) V) with hM
  set y : ℕ → ℝ := fun j => ∑ i ∈ Finset.range s.atoms.length,
    ls.run (s.atoms.length + 1) M (fun j => if j = i then -1 else 0) j * χ' i with hy
  have hsup : ∀ a < s.atoms.length + 1, ∑ j ∈ Finset.range (s.atoms.length + 1), M a j * y j =
      ∑ i ∈ Finset.range s.atoms.length, (if a = i then -1 else 0) * χ' i := fun a ha =>
    run_superpose hls (qeq_det hS) (fun i j => if j = i then -1 else 0) χ' ha
  have key := equilibrium_deriv (s := s) (χ := χ) (J := fun _ i => q.J (s.elementOf i))
    (U := fun _ => U) (V := fun _ => V) (x := x) (χ' := χ') (D' := 0) (V' := 0) (y := y) (t0 := t0)
    hχ (fun i _ => hasDerivAt_const _ _) (fun i j _ _ => hasDerivAt_const _ _) hx (qeq_det hS)
    (fun i hi => ?_) ?_ hj
  · refine key.congr_deriv (Finset.sum_congr rfl fun i hi => ?_)
    rw [hrow i (Finset.mem_range.1 hi) j hj]
  · rw [hsup i (by omega), Finset.sum_eq_single i]
    · simp [Qeq.potential]
    · intro k _ hk
      rw [if_neg (Ne.symm hk), zero_mul]
    · intro hk
      exact absurd (Finset.mem_range.2 hi) hk
  · have := hsup s.atoms.length (by omega)
    rw [hM, border_last] at this
    rw [this]
    refine Finset.sum_eq_zero fun k hk => ?_
    rw [if_neg (by have := Finset.mem_range.1 hk; omega), zero_mul]

/-- C81: the tables of `calculateDQdChi` conserve the total charge, and are symmetric: the charge of
atom `j` responds to the electronegativity of atom `i` as the charge of `i` to the electronegativity
of `j`. -/
theorem C81_reciprocity (hls : ls.Correct) (hn : s.numAtoms = s.atoms.length)
    (hUV : q.IsInteraction s U V) (hS : q.Solvable s U V)
    (h : chargeEquilibration ls q s buf d = some (s', buf')) {i : ℕ} (hi : i < s.atoms.length) :
    ∑ j ∈ Finset.range s.atoms.length, ((s'.calculateDQdChi ls).getD i []).getD j 0 = 0 ∧
    ∀ j < s.atoms.length, ((s'.calculateDQdChi ls).getD i []).getD j 0 =
      ((s'.calculateDQdChi ls).getD j []).getD i 0 := by
  obtain ⟨-, e1, -, -, B, hB, hA⟩ := qeq_matrix hn hUV h
  set M := borderMatrix s.atoms.length (symMat (fun i => q.J (s.elementOf i) + U i) V) with hM
  have hrow : ∀ i < s.atoms.length, ∀ j < s.atoms.length,
      ((s'.calculateDQdChi ls).getD i []).getD j 0 = ls.run (s.atoms.length + 1) M
        (fun j => if j = i then -1 else 0) j := by
    intro i hi j hj
    unfold Structure.calculateDQdChi
    rw [e1, hA]
    simp only [List.getD_eq_getElem?_getD, List.getElem?_map, List.getElem?_range hi,
      List.getElem?_range hj, Option.map_some, Option.getD_some]
    rw [borderMatrix_congr_run ls hB]
  have hsol : ∀ i, ∀ a < s.atoms.length + 1, ∑ j ∈ Finset.range (s.atoms.length + 1),
      M a j * ls.run (s.atoms.length + 1) M (fun j => if j = i then -1 else 0) j =
        if a = i then -1 else 0 := fun i a ha =>
    LinSolve.run_spec hls _ (qeq_det hS) ha
  refine ⟨?_, fun j hj => ?_⟩
  · rw [Finset.sum_congr rfl fun j hj => hrow i hi j (Finset.mem_range.1 hj)]
    have := hsol i s.atoms.length (by omega)
    rw [hM, border_last, if_neg (by omega)] at this
    exact this
  · rw [hrow i hi j hj, hrow j hj i hi]
    have hsym : ∀ a b, M a b = M b a := by
      intro a b
      rw [hM, borderMatrix_apply, borderMatrix_apply]
      unfold symMat
      by_cases h1 : a = s.atoms.length <;> by_cases h2 : b = s.atoms.length
      · simp [h1, h2]
      · simp [h1, h2]
      · simp [h1, h2]
      · rw [if_neg h1, if_neg h2, if_neg h2, if_neg h1]
        rcases lt_trichotomy a b with h3 | h3 | h3
        · rw [if_neg h3.ne, if_pos h3, if_neg h3.ne', if_neg (by omega)]
        · rw [h3]
        · rw [if_neg h3.ne', if_neg (by omega), if_neg h3.ne, if_pos h3]
    set N := s.atoms.length + 1 with hN
    set u := ls.run N M (fun a => if a = i then -1 else 0) with hu
    set w := ls.run N M (fun a => if a = j then -1 else 0) with hw
    have h1 : ∑ a ∈ Finset.range N, w a * (if a = i then -1 else 0) = -w i := by
      rw [Finset.sum_eq_single i]
      · rw [if_pos rfl]; ring
      · intro k _ hk; rw [if_neg hk, mul_zero]
      · intro hk; exact absurd (Finset.mem_range.2 (by omega)) hk
    have h2 : ∑ a ∈ Finset.range N, u a * (if a = j then -1 else 0) = -u j := by
      rw [Finset.sum_eq_single j]
      · rw [if_pos rfl]; ring
      · intro k _ hk; rw [if_neg hk, mul_zero]
      · intro hk; exact absurd (Finset.mem_range.2 (by omega)) hk
    have h1' : ∑ a ∈ Finset.range N, w a * ∑ b ∈ Finset.range N, M a b * u b = -w i := by
      rw [← h1]
      exact Finset.sum_congr rfl fun a ha => by rw [hsol i a (Finset.mem_range.1 ha)]
    have h2' : ∑ a ∈ Finset.range N, u a * ∑ b ∈ Finset.range N, M a b * w b = -u j := by
      rw [← h2]
      exact Finset.sum_congr rfl fun a ha => by rw [hsol j a (Finset.mem_range.1 ha)]
    have h3 : ∑ a ∈ Finset.range N, w a * ∑ b ∈ Finset.range N, M a b * u b =
        ∑ a ∈ Finset.range N, u a * ∑ b ∈ Finset.range N, M a b * w b := by
      simp only [Finset.mul_sum]
      rw [Finset.sum_comm]
      refine Finset.sum_congr rfl fun a _ => Finset.sum_congr rfl fun b _ => ?_
      rw [hsym b a]
      ring
    linarith

/-- C81: `calculateDQdJ` gives the derivatives of the charges with respect to the hardnesses of the
elements. -/
theorem C81_hardness (hls : ls.Correct) (hn : s.numAtoms = s.atoms.length)
    (hUV : q.IsInteraction s U V) (hS : q.Solvable s U V)
    (hel : ∀ i < s.atoms.length, s.elementOf i < s.numElements)
    (h : chargeEquilibration ls q s buf d = some (s', buf'))
    {J x : ℝ → ℕ → ℝ} {J' : ℕ → ℝ} {t0 : ℝ} (h0 : J t0 = q.J)
    (hJ : ∀ e < s.numElements, HasDerivAt (fun t => J t e) (J' e) t0)
    (hx : ∀ᶠ t in 𝓝 t0, Qeq.Equilibrium s (fun i => (s.atom i).chi)
      (fun i => J t (s.elementOf i)) U V (x t)) :
    (s'.calculateDQdJ ls).length = s.numElements ∧
    (∀ r ∈ s'.calculateDQdJ ls, r.length = s.atoms.length) ∧
    ∀ j < s.atoms.length, HasDerivAt (fun t => x t j)
      (∑ e ∈ Finset.range s.numElements, ((s'.calculateDQdJ ls).getD e []).getD j 0 * J' e) t0 := by
  obtain ⟨-, e1, e2, e3, B, hB, hA⟩ := qeq_matrix hn hUV h
  set M := borderMatrix s.atoms.length (symMat (fun i => q.J (s.elementOf i) + U i) V) with hM
  set rhs : ℕ → ℕ → ℝ := fun e j => if j < s.atoms.length ∧ e = s.elementOf j then
    -(s'.atom j).charge else 0 with hrhs
  have hrow : ∀ e < s.numElements, ∀ j < s.atoms.length,
      ((s'.calculateDQdJ ls).getD e []).getD j 0 = ls.run (s.atoms.length + 1) M (rhs e) j := by
    intro i hi j hj
    unfold Structure.calculateDQdJ
    rw [e1, e3, hA]
    simp only [List.getD_eq_getElem?_getD, List.getElem?_map, List.getElem?_range hi,
      List.getElem?_range hj, Option.map_some, Option.getD_some, e2]
    rw [borderMatrix_congr_run ls hB]
  refine ⟨by simp [Structure.calculateDQdJ, e3], ?_, fun j hj => ?_⟩
  · intro r hr
    unfold Structure.calculateDQdJ at hr
    obtain ⟨i, -, rfl⟩ := List.mem_map.1 hr
    simp [e1]
  set y : ℕ → ℝ := fun j => ∑ e ∈ Finset.range s.numElements,
    ls.run (s.atoms.length + 1) M (rhs e) j * J' e with hy
  have hsup : ∀ a < s.atoms.length + 1, ∑ j ∈ Finset.range (s.atoms.length + 1), M a j * y j =
      ∑ e ∈ Finset.range s.numElements, rhs e a * J' e := fun a ha =>
    run_superpose hls (qeq_det hS) rhs J' ha
  have hdet : (Matrix.of fun i j : Fin (s.atoms.length + 1) => borderMatrix s.atoms.length
      (symMat (fun i => J t0 (s.elementOf i) + U i) V) i j).det ≠ 0 := by
    rw [h0]; exact qeq_det hS
  have hx0 : ∀ i < s.atoms.length, x t0 i = (s'.atom i).charge := by
    intro i hi
    have h1 := hx.self_of_nhds
    have h2 := C81_equilibrium hls hn hUV hS h
    rw [h0] at h1
    exact h1.unique (qeq_det hS) h2 hi
  have key := equilibrium_deriv (s := s) (χ := fun _ i => (s.atom i).chi)
    (J := fun t i => J t (s.elementOf i))
    (U := fun _ => U) (V := fun _ => V) (x := x) (χ' := 0) (D' := fun i => J' (s.elementOf i))
    (V' := 0) (y := y) (t0 := t0)
    (fun i _ => hasDerivAt_const _ _) (fun i hi => (hJ _ (hel i hi)).add_const _)
    (fun i j _ _ => hasDerivAt_const _ _) hx hdet (fun i hi => ?_) ?_ hj
  · refine key.congr_deriv (Finset.sum_congr rfl fun e he => ?_)
    rw [hrow e (Finset.mem_range.1 he) j hj]
  · have := hsup i (by omega)
    rw [hM] at this
    rw [h0, this, Finset.sum_eq_single (s.elementOf i)]
    · rw [hrhs]
      dsimp only
      rw [if_pos ⟨hi, rfl⟩, hx0 i hi]
      simp [Qeq.potential]
      ring
    · intro k _ hk
      rw [hrhs]
      dsimp only
      rw [if_neg (fun h => hk h.2), zero_mul]
    · intro hk
      exact absurd (Finset.mem_range.2 (hel i hi)) hk
  · have := hsup s.atoms.length (by omega)
    rw [hM, border_last] at this
    rw [this]
    refine Finset.sum_eq_zero fun k hk => ?_
    rw [hrhs]
    dsimp only
    rw [if_neg (fun h => lt_irrefl _ h.1), zero_mul]

/-! ### Examples -/

/-- Equilibrium of the dimer with electronegativities `±c` and hardness `J`. -/
theorem exDimer_equilibrium {c J : ℝ} (hJ : J + exQeq.openU exDimer 0 - exQeq.openV exDimer 0 1 ≠ 0) :
    Qeq.Equilibrium exDimer (fun i => if i = 0 then c else -c) (fun _ => J)
      (exQeq.openU exDimer) (exQeq.openV exDimer)
      (fun i => (if i = 0 then -1 else 1) *
        (c / (J + exQeq.openU exDimer 0 - exQeq.openV exDimer 0 1))) := by
  have e : exDimer.atoms.length = 2 := rfl
  have hU : exQeq.openU exDimer 1 = exQeq.openU exDimer 0 := rfl
  have e0 : (Finset.range 2).erase 0 = {1} := by decide +kernel
  have e1 : (Finset.range 2).erase 1 = {0} := by decide +kernel
  set k := J + exQeq.openU exDimer 0 - exQeq.openV exDimer 0 1 with hk
  have hc : c / k * k = c := div_mul_cancel₀ c hJ
  refine ⟨?_, 0, fun i hi => ?_⟩
  · rw [e, Finset.sum_range_succ, Finset.sum_range_one]
    show _ = (0 : ℝ)
    simp
  · rw [e] at hi
    unfold Qeq.potential
    rw [e]
    interval_cases i
    · rw [e0, Finset.sum_singleton]
      simp only [if_true, one_ne_zero, if_false, min_eq_left, zero_le, max_eq_right]
      have : J + exQeq.openU exDimer 0 = k + exQeq.openV exDimer 0 1 := by rw [hk]; ring
      rw [this]
      linear_combination -hc
    · rw [e1, Finset.sum_singleton]
      simp only [if_true, one_ne_zero, if_false, min_eq_right, zero_le, max_eq_left]
      have : J + exQeq.openU exDimer 1 = k + exQeq.openV exDimer 0 1 := by rw [hU, hk]; ring
      rw [this]
      linear_combination hc

theorem Qeq.Equilibrium.congr {χ χ' J J' x : ℕ → ℝ} (h : Qeq.Equilibrium s χ J U V x)
    (hχ : ∀ i < s.atoms.length, χ i = χ' i) (hJ : ∀ i < s.atoms.length, J i = J' i) :
    Qeq.Equilibrium s χ' J' U V x := by
  obtain ⟨h1, c, h2⟩ := h
  refine ⟨h1, c, fun i hi => ?_⟩
  rw [← h2 i hi, hχ i hi, hJ i hi]

theorem exDimer_J : ∀ i < exDimer.atoms.length, exQeq.J (exDimer.elementOf i) = 1 := by
  intro i hi
  have hi : i < 2 := hi
  interval_cases i <;> rfl

theorem exDimer_stiff {J : ℝ} (hJ : 1 ≤ J) :
    0 < J + exQeq.openU exDimer 0 - exQeq.openV exDimer 0 1 := by
  have h := (exDimer_positive.2 (fun i => if i = 0 then 1 else -1) (by
    show ∑ i ∈ Finset.range 2, _ = _
    simp [Finset.sum_range_succ]) ⟨0, by simp [exDimer], by norm_num⟩)
  have e : exDimer.atoms.length = 2 := rfl
  have hU : exQeq.openU exDimer 1 = exQeq.openU exDimer 0 := rfl
  have e0 : exDimer.elementOf 0 = 0 := rfl
  have e1 : exDimer.elementOf 1 = 0 := rfl
  have hJ1 : exQeq.J 0 = 1 := rfl
  unfold Qeq.coulombEnergy at h
  rw [e] at h
  simp [Finset.sum_range_succ, hU, e0, e1, hJ1] at h
  linarith

example : ∃ s' buf', chargeEquilibration invSolve exQeq exDimer ErfcBuf.init true = some (s', buf') ∧
    HasDerivAt (fun t => -((1 + t) / (1 + exQeq.openU exDimer 0 - exQeq.openV exDimer 0 1)))
      (((s'.calculateDQdChi invSolve).getD 0 []).getD 0 0 -
        ((s'.calculateDQdChi invSolve).getD 1 []).getD 0 0) 0 := by
  obtain ⟨s', buf', h⟩ := exDimer_succeeds
  refine ⟨s', buf', h, ?_⟩
  have := (C81_electronegativity (s := exDimer) (q := exQeq) (U := exQeq.openU exDimer)
    (V := exQeq.openV exDimer) invSolve_correct rfl (.cluster rfl) exDimer_positive.solvable h
    (χ := fun t i => if i = 0 then 1 + t else -(1 + t)) (χ' := fun i => if i = 0 then 1 else -1)
    (t0 := 0) (x := fun t i => (if i = 0 then -1 else 1) *
        ((1 + t) / (1 + exQeq.openU exDimer 0 - exQeq.openV exDimer 0 1))) (fun i hi => by
      by_cases h0 : i = 0
      · simpa [h0] using (hasDerivAt_id (0 : ℝ)).const_add 1
      · simpa [h0] using ((hasDerivAt_id (0 : ℝ)).const_add 1).fun_neg)
    (Eventually.of_forall fun t => (exDimer_equilibrium (exDimer_stiff le_rfl).ne').congr
      (fun _ _ => rfl) fun i hi => (exDimer_J i hi).symm)).2.2 0
    (by simp [exDimer])
  have e : exDimer.atoms.length = 2 := rfl
  rw [e] at this
  simpa [Finset.sum_range_succ, sub_eq_add_neg] using this

example : ∃ s' buf', chargeEquilibration invSolve exQeq exDimer ErfcBuf.init true = some (s', buf') ∧
    HasDerivAt (fun t => -(1 / (1 + t ^ 2 + t + exQeq.openU exDimer 0 - exQeq.openV exDimer 0 1)))
      (((s'.calculateDQdJ invSolve).getD 0 []).getD 0 0) 0 := by
  obtain ⟨s', buf', h⟩ := exDimer_succeeds
  refine ⟨s', buf', h, ?_⟩
  have hs := exDimer_stiff le_rfl
  have hcont : ∀ᶠ t : ℝ in 𝓝 0,
      0 < 1 + t ^ 2 + t + exQeq.openU exDimer 0 - exQeq.openV exDimer 0 1 := by
    have : ContinuousAt (fun t : ℝ => 1 + t ^ 2 + t + exQeq.openU exDimer 0 -
      exQeq.openV exDimer 0 1) 0 := by fun_prop
    refine this.eventually (lt_mem_nhds ?_)
    norm_num
    linarith
  have := (C81_hardness (s := exDimer) (q := exQeq) (U := exQeq.openU exDimer)
    (V := exQeq.openV exDimer) invSolve_correct rfl (.cluster rfl) exDimer_positive.solvable
    (fun i hi => by
      have : i < 2 := hi
      interval_cases i <;> exact Nat.one_pos) h
    (J := fun t e => exQeq.J e + (t ^ 2 + t)) (J' := fun _ => 1)
    (t0 := 0) (x := fun t i => (if i = 0 then -1 else 1) *
        (1 / (1 + t ^ 2 + t + exQeq.openU exDimer 0 - exQeq.openV exDimer 0 1)))
    (by funext e; simp) (fun e he => by
      have := ((hasDerivAt_pow 2 (0 : ℝ)).add (hasDerivAt_id (0 : ℝ))).const_add (exQeq.J e)
      simpa using this)
    (by
      filter_upwards [hcont] with t ht
      refine (exDimer_equilibrium (c := 1) (J := 1 + t ^ 2 + t) ht.ne').congr (fun i hi => ?_)
        fun i hi => by rw [exDimer_J i hi, add_assoc]
      have hi : i < 2 := hi
      interval_cases i <;> rfl)).2.2 0 (by simp [exDimer])
  have e : exDimer.numElements = 1 := rfl
  rw [e] at this
  simpa using this

example : ∃ s' buf', chargeEquilibration invSolve exQeq exDimer ErfcBuf.init true = some (s', buf') ∧
    ((s'.calculateDQdChi invSolve).getD 0 []).getD 1 0 =
      ((s'.calculateDQdChi invSolve).getD 1 []).getD 0 0 := by
  obtain ⟨s', buf', h⟩ := exDimer_succeeds
  exact ⟨s', buf', h, (C81_reciprocity (s := exDimer) (q := exQeq) invSolve_correct rfl
    (.cluster rfl) exDimer_positive.solvable h (i := 0) (by simp [exDimer])).2 1 (by simp [exDimer])⟩

end N2P2
