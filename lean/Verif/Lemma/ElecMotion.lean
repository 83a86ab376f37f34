import Verif.Props.QeqResponse
import Verif.Lemma.Mode4GSymFnc

/-! The electrostatic energy along a motion of the atoms, with charges which follow. -/

open Filter Topology

namespace N2P2

variable {ls : LinSolve} {q : Qeq} {s s' : Structure} {U : Structure → ℕ → ℝ}
  {V W : Structure → ℕ → ℕ → ℝ} {buf buf' : ErfcBuf} {ri ro : ℝ}

/-- The screening is differentiable. -/
theorem screening_deriv (hn : s.numAtoms = s.atoms.length) (hfs : q.fs.Configured ri ro)
    (hW : q.IsScreening s W) (hap : s.Apart) : ∃ T : ℕ → ℕ → Vec3, ∀ r v t0, s.Moves r v t0 →
      ∀ i j, i ≤ j → j < s.atoms.length →
        HasDerivAt (fun t => W (s.at r t) i j) ((T i j).dot (v i - v j)) t0 := by
  generalize hs1 : (s.storeCharges (fun _ _ => 0) (fun _ => 1)).withElec 0 = s1
  have l1 : s.SameLists s1 := hs1 ▸ Structure.SameLists.storeCharges s (fun _ _ => 0) (fun _ => 1) 0
  have n1 : s1.numAtoms = s1.atoms.length := by rw [l1.num, l1.count, hn]
  have c1 : ∀ i < s.atoms.length, (s1.atom i).charge = 1 := by
    intro i hi
    rw [← hs1]
    exact storeCharges_charge (fun _ _ => 0) (fun _ => 1) hi hn
  obtain ⟨T, S, -, -, hT⟩ := energyLoop_eq n1 hfs (l1.screening hW) (l1.apart hap)
  refine ⟨T, fun r v t0 hm i j hij hj => ?_⟩
  have := hT r v t0 (l1.moves hm) i j hij (by rw [l1.count]; exact hj)
  have e : ∀ t, W (s1.at r t) = W (s.at r t) := fun t => (l1.at r t).screening_eq hW
  simp only [e] at this
  rw [c1 i (by omega), c1 j hj] at this
  simpa using this

/-- The stored energy along a motion, if the charges change with rates `y`. -/
theorem storedEnergy_deriv (hn : s.numAtoms = s.atoms.length) (hc : q.Covers s)
    (hUV : q.IsField s U V) (hW : q.IsScreening s W) (hfs : q.fs.Configured ri ro) (hap : s.Apart)
    (hfresh : ∀ a ∈ s.atoms, a.dAdrQ = [])
    (he : chargeEquilibration ls q s buf true = some (s', buf'))
    {r : ℕ → ℝ → Vec3} {v : ℕ → Vec3} {t0 : ℝ} (hm : s.Moves r v t0) {x : ℕ → ℝ → ℝ} {y : ℕ → ℝ}
    (hx : ∀ i < s.atoms.length, x i t0 = (s'.atom i).charge ∧ HasDerivAt (x i) (y i) t0) :
    HasDerivAt (fun t => q.storedEnergy s (U (s.at r t)) (V (s.at r t)) (W (s.at r t))
        (fun i => x i t))
      (∑ i ∈ Finset.range s.atoms.length, (s'.atom i).pEelecpr.dot (v i) +
        ∑ i ∈ Finset.range s.atoms.length, (s'.atom i).dEelecdQ * y i) t0 := by
  set n := s.atoms.length with hnd
  obtain ⟨T, hT⟩ := screening_deriv hn hfs hW hap
  obtain ⟨s1, buf1, B, Q, g, T1, h0, R⟩ := qeq_run (ls := ls) hn hc hUV hW hfs hap hfresh buf
  set k : ℕ → ℕ → ℝ := fun i j => (g i j).dot (v i - v j) + (T i j).dot (v i - v j) with hk
  set K : ℕ → ℕ → ℝ → ℝ := fun i j t => V (s.at r t) i j + W (s.at r t) i j with hKd
  have hK : ∀ j < n, ∀ i < j, HasDerivAt (K i j) (k i j) t0 := fun j hj i hi =>
    (R.grad r v t0 hm i j hi hj).add (hT r v t0 hm i j hi.le hj)
  set D : ℕ → ℝ := fun i => U s i - q.self (s.elementOf i) + 2 * W s i i with hD
  have hE : ∀ (t : ℝ) (z : ℕ → ℝ),
      q.storedEnergy s (U (s.at r t)) (V (s.at r t)) (W (s.at r t)) z =
        1 / 2 * ∑ i ∈ Finset.range n, D i * z i ^ 2 +
        ∑ j ∈ Finset.range n, ∑ i ∈ Finset.range j, K i j t * z i * z j := by
    intro t z
    unfold Qeq.storedEnergy Qeq.coulombEnergy
    congr 1
    congr 1
    refine Finset.sum_congr rfl fun i hi => ?_
    have hi := Finset.mem_range.1 hi
    dsimp only
    rw [field_self hUV r t hi, screening_self hW r t hi]
  have hs0 : V (s.at r t0) = V s ∧ W (s.at r t0) = W s ∧ U (s.at r t0) = U s := by
    have ha : s.SameLists (s.at r t0) := by
      refine Structure.SameLists.of_get (at_length _) rfl rfl rfl rfl fun i a b ha hb => ?_
      have hi := (List.getElem?_eq_some_iff.1 ha).1
      have e1 := at_position (r := r) t0 hi
      rw [hm.start i hi, position_eq hb, position_eq ha] at e1
      simp only [Structure.at, Structure.move, List.getElem?_mapIdx, ha, Option.map_some] at hb
      cases hb
      exact ⟨e1, rfl, rfl, rfl, rfl⟩
    exact ⟨(ha.field_eq hUV).2, ha.screening_eq hW, (ha.field_eq hUV).1⟩
  -- fixed charges
  have h1 := C80_positions_partial hn hc hUV hW hfs hap hfresh he hm
  simp only [hE] at h1
  have h1' : HasDerivAt (fun t => 1 / 2 * ∑ i ∈ Finset.range n, D i * (s'.atom i).charge ^ 2 +
        ∑ j ∈ Finset.range n, ∑ i ∈ Finset.range j,
          K i j t * (s'.atom i).charge * (s'.atom j).charge)
      (∑ j ∈ Finset.range n, ∑ i ∈ Finset.range j,
        k i j * (s'.atom i).charge * (s'.atom j).charge) t0 := by
    refine HasDerivAt.const_add _ ?_
    refine HasDerivAt.fun_sum fun j hj => HasDerivAt.fun_sum fun i hi => ?_
    have hj := Finset.mem_range.1 hj
    have hi := Finset.mem_range.1 hi
    exact ((hK j hj i hi).mul_const _).mul_const _
  -- fixed positions
  have h2 := C80_charges hn hc hUV hW hfs hap hfresh he hx
  rw [← hs0.1, ← hs0.2.1, ← hs0.2.2] at h2
  simp only [hE] at h2
  have hdiag : HasDerivAt (fun t => 1 / 2 * ∑ i ∈ Finset.range n, D i * x i t ^ 2)
      (∑ i ∈ Finset.range n, D i * (s'.atom i).charge * y i) t0 := by
    have : HasDerivAt (fun t => ∑ i ∈ Finset.range n, D i * x i t ^ 2)
        (∑ i ∈ Finset.range n, D i * (2 * (s'.atom i).charge * y i)) t0 := by
      refine HasDerivAt.fun_sum fun i hi => ?_
      obtain ⟨a1, a2⟩ := hx i (Finset.mem_range.1 hi)
      refine ((a2.pow 2).const_mul _).congr_deriv ?_
      rw [a1]
      ring
    refine (this.const_mul (1 / 2)).congr_deriv ?_
    rw [Finset.mul_sum]
    exact Finset.sum_congr rfl fun i _ => by ring
  set L : ℝ := ∑ j ∈ Finset.range n, ∑ i ∈ Finset.range j,
    K i j t0 * (y i * (s'.atom j).charge + (s'.atom i).charge * y j) with hL
  have h2' : HasDerivAt (fun t => 1 / 2 * ∑ i ∈ Finset.range n, D i * x i t ^ 2 +
        ∑ j ∈ Finset.range n, ∑ i ∈ Finset.range j, K i j t0 * x i t * x j t)
      (∑ i ∈ Finset.range n, D i * (s'.atom i).charge * y i + L) t0 := by
    refine hdiag.add ?_
    refine HasDerivAt.fun_sum fun j hj => HasDerivAt.fun_sum fun i hi => ?_
    have hj := Finset.mem_range.1 hj
    have hi := Finset.mem_range.1 hi
    obtain ⟨a1, a2⟩ := hx i (by omega)
    obtain ⟨b1, b2⟩ := hx j hj
    refine ((a2.const_mul (K i j t0)).mul b2).congr_deriv ?_
    rw [a1, b1]
    ring
  rw [h1.unique h1', h2.unique h2']
  simp only [hE]
  have h3 : HasDerivAt (fun t => ∑ j ∈ Finset.range n, ∑ i ∈ Finset.range j,
      K i j t * x i t * x j t) (∑ j ∈ Finset.range n, ∑ i ∈ Finset.range j,
        k i j * (s'.atom i).charge * (s'.atom j).charge + L) t0 := by
    have h4 : HasDerivAt (fun t => ∑ j ∈ Finset.range n, ∑ i ∈ Finset.range j,
        K i j t * x i t * x j t) (∑ j ∈ Finset.range n, ∑ i ∈ Finset.range j,
          (k i j * (s'.atom i).charge * (s'.atom j).charge +
            K i j t0 * (y i * (s'.atom j).charge + (s'.atom i).charge * y j))) t0 := by
      refine HasDerivAt.fun_sum fun j hj => HasDerivAt.fun_sum fun i hi => ?_
      have hj := Finset.mem_range.1 hj
      have hi := Finset.mem_range.1 hi
      obtain ⟨a1, a2⟩ := hx i (by omega)
      obtain ⟨b1, b2⟩ := hx j hj
      refine (((hK j hj i hi).fun_mul a2).fun_mul b2).congr_deriv ?_
      rw [a1, b1]
      ring
    refine h4.congr_deriv ?_
    rw [hL, ← Finset.sum_add_distrib]
    exact Finset.sum_congr rfl fun j _ => Finset.sum_add_distrib
  refine (hdiag.add h3).congr_deriv ?_
  ring

/-- The trick with the multipliers: the effect of changing charges is found without these. -/
theorem lambda_trick {N : ℕ} {A : ℕ → ℕ → ℝ} (hsym : ∀ a b, A a b = A b a) {l y g b : ℕ → ℝ}
    (hl : ∀ a < N, ∑ j ∈ Finset.range N, A a j * l j = -g a)
    (hy : ∀ a < N, ∑ j ∈ Finset.range N, A a j * y j = b a) :
    ∑ a ∈ Finset.range N, g a * y a = -∑ a ∈ Finset.range N, l a * b a := by
  have h1 : ∑ a ∈ Finset.range N, g a * y a =
      -∑ a ∈ Finset.range N, y a * ∑ j ∈ Finset.range N, A a j * l j := by
    rw [← Finset.sum_neg_distrib]
    refine Finset.sum_congr rfl fun a ha => ?_
    rw [hl a (Finset.mem_range.1 ha)]
    ring
  have h2 : ∑ a ∈ Finset.range N, l a * b a =
      ∑ a ∈ Finset.range N, l a * ∑ j ∈ Finset.range N, A a j * y j :=
    Finset.sum_congr rfl fun a ha => by rw [hy a (Finset.mem_range.1 ha)]
  rw [h1, h2]
  congr 1
  simp only [Finset.mul_sum]
  rw [Finset.sum_comm]
  refine Finset.sum_congr rfl fun a _ => Finset.sum_congr rfl fun b _ => ?_
  rw [hsym b a]
  ring

theorem borderMatrix_symm (n : ℕ) {B : ℕ → ℕ → ℝ} (h : ∀ a b, B a b = B b a) (a b : ℕ) :
    borderMatrix n B a b = borderMatrix n B b a := by
  rw [borderMatrix_apply, borderMatrix_apply]
  by_cases h1 : a = n <;> by_cases h2 : b = n <;> simp [h1, h2, h]

theorem symMat_symm (D : ℕ → ℝ) (V : ℕ → ℕ → ℝ) (a b : ℕ) : symMat D V a b = symMat D V b a := by
  unfold symMat
  rcases lt_trichotomy a b with h3 | h3 | h3
  · rw [if_neg h3.ne, if_pos h3, if_neg h3.ne', if_neg (by omega)]
  · rw [h3]
  · rw [if_neg h3.ne', if_neg (by omega), if_neg h3.ne, if_pos h3]

end N2P2
