import Verif.Lemma.LengthUnitExample
import Verif.Props.Mode
import Mathlib.Analysis.Calculus.MeanValue

/-! A structure with forces which are not all zero. -/

namespace N2P2

/-- Three atoms, the last one at distance `t` from the first, in the unit of length given by `c`. -/
def exTriple (c t : ℝ) : Structure :=
  exSystem false 0 [(0, ![0, 0, 0]), (1, ![c, 0, 0]), (0, ![0, c * t, 0])]

theorem exTriple_new (c t : ℝ) : (exTriple c t).New 2 :=
  exSystem_new (by simp) nofun

theorem exTriple_length (c t : ℝ) : (exTriple c t).atoms.length = 3 := exSystem_length

theorem exTriple_apart {t : ℝ} (ht : 0 < t) : (exTriple 1 t).Apart := by
  rintro i hi ⟨j, q⟩ ⟨hj, hq, hne⟩ h0
  obtain rfl : q = 0 := hq.resolve_left nofun
  simp only [exTriple, exSystem_length, List.length_cons, List.length_nil] at hi hj
  unfold Structure.separation at h0
  rw [shift_zero] at h0
  simp only [exTriple, exSystem_position] at h0
  have e0 := congrFun h0 0
  have e1 := congrFun h0 1
  interval_cases i <;> interval_cases j <;> simp [ht.ne'] at e0 e1 hne

theorem exTriple_noOwnImages (P : Potential) (c t : ℝ) : P.NoOwnImages (exTriple c t) := by
  intro i _ q hq
  obtain ⟨-, h1 | h1, h2⟩ := hq
  · cases h1
  · exact absurd (by rw [show q = 0 from h1]) h2

theorem exTriple_rescaled (c t : ℝ) : (exTriple 1 t).Rescaled c (exTriple c t) := by
  refine ⟨rfl, fun i hi => ?_, fun i hi => ?_, rfl, nofun, ?_⟩
  · simp only [exTriple, exSystem_length, List.length_cons, List.length_nil] at hi
    simp only [exTriple, exSystem_elementOf]
    interval_cases i <;> rfl
  · simp only [exTriple, exSystem_length, List.length_cons, List.length_nil] at hi
    simp only [exTriple, exSystem_position]
    interval_cases i <;> funext k <;> fin_cases k <;> simp
  · simp [exTriple, exSystem, Structure.init]

/-- The environment of an atom: the two others. -/
def exTripleEnv (t : ℝ) (i : ℕ) : List Site :=
  ((if i = 0 then [1, 2] else if i = 1 then [0, 2] else [0, 1]).map fun j => (j, 0)).map fun p =>
    ⟨(exTriple 1 t).elementOf p.1, (exTriple 1 t).separation i p⟩

theorem exTriple_env (t R : ℝ) (i : ℕ) (hi : i < 3) : IsEnv (exTriple 1 t) R i (exTripleEnv t i) := by
  refine ⟨_, ?_, ?_, ?_, rfl⟩
  · interval_cases i <;> simp
  · intro p hp
    obtain ⟨j, hj, rfl⟩ := List.mem_map.1 hp
    refine ⟨?_, .inr rfl, fun e => ?_⟩
    · rw [exTriple_length]
      interval_cases i <;> simp at hj <;> omega
    · have := (Prod.mk.inj e).1
      interval_cases i <;> simp at hj <;> omega
  · rintro ⟨j, q⟩ ⟨hj, hq, hne⟩ -
    obtain rfl : q = 0 := hq.resolve_left nofun
    rw [exTriple_length] at hj
    have hji : j ≠ i := fun e => hne (by rw [e])
    refine List.mem_map.2 ⟨j, ?_, rfl⟩
    simp only at hj
    interval_cases i <;> interval_cases j <;> simp_all

noncomputable def exTripleEnergy (t : ℝ) : ℝ :=
  ∑ i ∈ Finset.range 3, exPotential.atomic ((exTriple 1 t).elementOf i) (exTripleEnv t i)

theorem exTriple_energy (t R : ℝ) : IsEnergy exPotential R (exTriple 1 t) (exTripleEnergy t) := by
  refine ⟨exTripleEnv t, fun i hi => exTriple_env t R i (by rwa [exTriple_length] at hi), ?_⟩
  rw [exTriple_length]
  rfl

theorem exPotential_atomic_one (env : List Site) : exPotential.atomic 1 env = 0 := by
  simp [Potential.atomic, exPotential, NetShape.forward, NetShape.out, exNet, Activation.fn,
    Activation.ideal, NetShape.divisor]

theorem exFn_fc (r : ℝ) : 0 ≤ (exFn 0).fc.f r ∧ (3 ≤ r → (exFn 0).fc.f r = 0) ∧
    (r = 1 → 0 < (exFn 0).fc.f r) := by
  have h : (exFn 0).fc = mkCutoff .COS 3 0 := rfl
  rw [h]
  unfold CutoffFunction.f CutoffFunction.fInner
  have hc := Real.neg_one_le_cos
  refine ⟨?_, fun h3 => ?_, ?_⟩
  · have := hc (Real.pi * ((r - (mkCutoff .COS 3 0).rci) * (mkCutoff .COS 3 0).iw))
    split
    · norm_num
    · show 0 ≤ if r < (mkCutoff .COS 3 0).rci then (1.0 : ℝ) else 0.5 * (Real.cos
        (Real.pi * ((r - (mkCutoff .COS 3 0).rci) * (mkCutoff .COS 3 0).iw)) + 1.0)
      split
      · norm_num
      · norm_num at this ⊢
        linarith
  · rw [if_pos (show r ≥ (mkCutoff .COS 3 0).rc from h3)]
    norm_num
  · rintro rfl
    simp only [mkCutoff]
    norm_num
    rw [show Real.pi * (1 / 3) = Real.pi / 3 by ring, Real.cos_pi_div_three]
    norm_num

theorem exFn_pairTerm (x y : Site) : (exFn 0).pairTerm x y = (exFn 0).ofPair x y *
    ((exFn 0).angularFactor (cosAngle x.dr y.dr) *
      ((exFn 0).gauss x.dr.norm * (exFn 0).gauss y.dr.norm) *
      ((exFn 0).fc.f x.dr.norm * (exFn 0).fc.f y.dr.norm)) := rfl

theorem exFn_pair_nonneg (x y : Site) : 0 ≤ (exFn 0).pairTerm x y := by
  rw [exFn_pairTerm]
  have h1 : 0 ≤ (exFn 0).ofPair x y := by
    unfold SymFnc.ofPair
    split <;> norm_num
  have h2 : ∀ c, 0 ≤ (exFn 0).angularFactor c := by
    intro c
    unfold SymFnc.angularFactor
    positivity
  have h3 : ∀ r, 0 ≤ (exFn 0).gauss r := fun r => (Real.exp_pos _).le
  have h4 := fun r => (exFn_fc r).1
  exact mul_nonneg h1 (mul_nonneg (mul_nonneg (h2 _) (mul_nonneg (h3 _) (h3 _)))
    (mul_nonneg (h4 _) (h4 _)))

theorem exFn_formula_two (x y : Site) : (exFn 0).formula [x, y] = (exFn 0).pairTerm x y := by
  have h : ∀ z, (exFn 0).siteTerm z = 0 := fun z => rfl
  simp [SymFnc.formula, pairSum, h]

theorem exTripleEnergy_eq (t : ℝ) : exTripleEnergy t =
    (exFn 0).formula (exTripleEnv t 0) + (exFn 0).formula (exTripleEnv t 2) + 4 := by
  unfold exTripleEnergy
  rw [Finset.sum_range_succ, Finset.sum_range_succ, Finset.sum_range_one]
  have e0 : (exTriple 1 t).elementOf 0 = 0 := rfl
  have e1 : (exTriple 1 t).elementOf 1 = 1 := rfl
  have e2 : (exTriple 1 t).elementOf 2 = 0 := rfl
  rw [e0, e1, e2, exPotential_atomic, exPotential_atomic, exPotential_atomic_one]
  ring

theorem exTripleEnv_zero (t : ℝ) : exTripleEnv t 0 = [⟨1, ![-1, 0, 0]⟩, ⟨0, ![0, -t, 0]⟩] := by
  have e1 : (exTriple 1 t).separation 0 (1, 0) = ![-1, 0, 0] := by
    unfold Structure.separation
    rw [shift_zero]
    simp only [exTriple, exSystem_position]
    funext k
    fin_cases k <;> simp
  have e2 : (exTriple 1 t).separation 0 (2, 0) = ![0, -t, 0] := by
    unfold Structure.separation
    rw [shift_zero]
    simp only [exTriple, exSystem_position]
    funext k
    fin_cases k <;> simp
  simp only [exTripleEnv, if_pos, List.map_cons, List.map_nil, e1, e2]
  rfl

theorem exTripleEnv_two (t : ℝ) : ∃ v, exTripleEnv t 2 = [⟨0, ![0, t, 0]⟩, ⟨1, v⟩] := by
  have e1 : (exTriple 1 t).separation 2 (0, 0) = ![0, t, 0] := by
    unfold Structure.separation
    rw [shift_zero]
    simp only [exTriple, exSystem_position]
    funext k
    fin_cases k <;> simp
  refine ⟨(exTriple 1 t).separation 2 (1, 0), ?_⟩
  unfold exTripleEnv
  rw [if_neg (by norm_num), if_neg (by norm_num)]
  simp only [List.map_cons, List.map_nil, e1]
  rfl

theorem exTripleEnergy_near : 4 < exTripleEnergy 1 := by
  rw [exTripleEnergy_eq]
  obtain ⟨v, hv⟩ := exTripleEnv_two 1
  rw [hv, exTripleEnv_zero, exFn_formula_two, exFn_formula_two]
  have h1 := exFn_pair_nonneg ⟨0, ![0, 1, 0]⟩ ⟨1, v⟩
  have h2 : 0 < (exFn 0).pairTerm ⟨1, ![-1, 0, 0]⟩ ⟨0, ![0, -1, 0]⟩ := by
    rw [exFn_pairTerm]
    have n1 : Vec3.norm ![-1, 0, 0] = 1 := by simp [Vec3.norm]
    have n2 : Vec3.norm ![0, -1, 0] = 1 := by simp [Vec3.norm]
    have c0 : cosAngle ![-1, 0, 0] ![0, -1, 0] = 0 := by simp [cosAngle, Vec3.dot]
    simp only [n1, n2, c0]
    have a1 : (exFn 0).ofPair ⟨1, ![-1, 0, 0]⟩ ⟨0, ![0, -1, 0]⟩ = 1 := by
      unfold SymFnc.ofPair
      rw [if_pos (.inr ⟨rfl, rfl⟩)]
    have a2 : 0 < (exFn 0).angularFactor 0 := by
      unfold SymFnc.angularFactor
      simp only [mul_zero, add_zero]
      positivity
    have a3 : 0 < (exFn 0).gauss 1 := Real.exp_pos _
    have a4 := (exFn_fc 1).2.2 rfl
    rw [a1]
    positivity
  linarith

theorem exTripleEnergy_far : exTripleEnergy 4 = 4 := by
  rw [exTripleEnergy_eq]
  obtain ⟨v, hv⟩ := exTripleEnv_two 4
  rw [hv, exTripleEnv_zero, exFn_formula_two, exFn_formula_two, exFn_pairTerm, exFn_pairTerm]
  have n4 : Real.sqrt (4 * 4) = 4 := Real.sqrt_mul_self (by norm_num)
  have n1 : Vec3.norm ![0, -4, 0] = 4 := by simp [Vec3.norm, n4]
  have n2 : Vec3.norm ![0, 4, 0] = 4 := by simp [Vec3.norm, n4]
  have z := (exFn_fc 4).2.1 (by norm_num)
  simp only [n1, n2, z, mul_zero, zero_mul, zero_add]

/-- At some distance the force on the last atom is not zero. -/
theorem exists_force {srt : List Neighbor → List Neighbor} (hsrt : IsSort srt) {M : Mode}
    (hM : M.SetUp exPotential 2) : ∃ t M' s', 0 < t ∧
      M.evaluateNNP srt (exTriple 1 t) true false = some (M', s') ∧ s'.forceOn 2 1 ≠ 0 := by
  have hev : ∀ t, 0 < t → (exTriple 1 t).Evaluable M exPotential 2 := fun t ht =>
    exPotential_evaluable (exTriple_new 1 t) (exTriple_apart ht)
  have hrun : ∀ t, ∃ q : Mode × Structure, 0 < t →
      M.evaluateNNP srt (exTriple 1 t) true false = some q := by
    intro t
    by_cases ht : 0 < t
    · obtain ⟨M', s', he, -⟩ := C74_energy hsrt hM exPotential_fits (by norm_num) (hev t ht) true false
      exact ⟨_, fun _ => he⟩
    · exact ⟨(M, exTriple 1 t), fun h => absurd h ht⟩
  choose q hq using hrun
  have hD : ∀ t, 0 < t → HasDerivAt exTripleEnergy (-((q t).2.forceOn 2 1)) t := by
    intro t ht
    have := C75_forces_partial hsrt hM exPotential_fits (by norm_num) (hev t ht)
      (exPotential_smooth (exTriple_apart ht) _) (exTriple_noOwnImages _ _ _) false (hq t ht)
      (fun i x => (exTriple 1 x).position i) (fun i => if i = 2 then Pi.single 1 1 else 0) t
      (fun i _ => rfl) ?_ 3 ?_ exTripleEnergy ?_
    · refine this.congr_deriv ?_
      rw [exTriple_length, dot_single _ 2 3 (by norm_num)]
      simp [Vec3.dot]
    · intro i hi
      rw [exTriple_length] at hi
      rw [hasDerivAt_pi]
      intro k
      simp only [exTriple, exSystem_position]
      interval_cases i <;> fin_cases k <;> simp [hasDerivAt_const, hasDerivAt_id']
    · intro i _ S hS
      simp only [exPotential, List.mem_singleton] at hS
      rw [hS]
      exact le_rfl
    · intro x
      have hs : SameSystem (exTriple 1 x) ((exTriple 1 t).move fun i => (exTriple 1 x).position i) := by
        refine .of_atoms rfl rfl rfl fun i a ha => ?_
        have hi : i < 3 := by
          have := (List.getElem?_eq_some_iff.1 ha).1
          rwa [exTriple_length] at this
        interval_cases i <;> cases ha <;> exact ⟨_, rfl, rfl, rfl⟩
      exact hs.isEnergy.2 (exTriple_energy x 3)
  obtain ⟨t, ht, he⟩ := exists_hasDerivAt_eq_slope exTripleEnergy (fun t => -((q t).2.forceOn 2 1))
    (show (1 : ℝ) < 4 by norm_num)
    (fun t ht => (hD t (by linarith [ht.1])).continuousAt.continuousWithinAt)
    (fun t ht => hD t (by linarith [ht.1]))
  have h0 : 0 < t := by linarith [ht.1]
  refine ⟨t, (q t).1, (q t).2, h0, hq t h0, fun h => ?_⟩
  rw [h, exTripleEnergy_far] at he
  have := exTripleEnergy_near
  norm_num at he
  linarith

end N2P2
