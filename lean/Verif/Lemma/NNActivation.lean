import Verif.Spec.NeuralNetwork
import Mathlib.Analysis.SpecialFunctions.Trigonometric.Deriv
import Mathlib.Analysis.SpecialFunctions.Trigonometric.DerivHyp
import Mathlib.Analysis.SpecialFunctions.ExpDeriv
import Mathlib.Analysis.SpecialFunctions.Log.Deriv
import Mathlib.Tactic.FieldSimp
import Mathlib.Tactic.Linarith
import Mathlib.Tactic.Ring

/-! Derivatives of the activation functions. -/

namespace N2P2

namespace Activation

/-- Stored first derivative. -/
noncomputable def d1 (a : Activation) (x : ℝ) : ℝ := ((a.eval x).map ActVal.dfdx).getD 0

/-- Stored second derivative. -/
noncomputable def d2 (a : Activation) (x : ℝ) : ℝ := ((a.eval x).map ActVal.d2fdx2).getD 0

theorem eval_eq {a : Activation} (h : a ≠ UNSET) (x : ℝ) :
    a.eval x = some ⟨a.fn x, a.d1 x, a.d2 x⟩ := by
  unfold d1 d2
  cases a with
  | UNSET => exact absurd rfl h
  | LOGISTIC =>
    by_cases h1 : 35 < x
    · simp [eval, fn, EXP_LIMIT, h1]
    · by_cases h2 : x < -35
      · simp [eval, fn, EXP_LIMIT, h1, h2]
      · simp [eval, fn, ideal, EXP_LIMIT, h1, h2]
  | SOFTPLUS =>
    by_cases h1 : 35 < x
    · simp [eval, fn, EXP_LIMIT, h1]
    · by_cases h2 : x < -35
      · simp [eval, fn, EXP_LIMIT, h1, h2]
      · simp [eval, fn, ideal, EXP_LIMIT, h1, h2]
  | RELU =>
    by_cases h : 0 < x
    · simp [eval, fn, ideal, h, h.le]
    · simp [eval, fn, ideal, h, not_lt.mp h]
  | GAUSSIAN =>
    simp only [eval, fn, ideal, Option.map_some, Option.getD_some]
    rw [show -(1 / 2) * x * x = -x ^ 2 / 2 by ring]
  | HARMONIC => simp [eval, fn, ideal, pow_two]
  | _ => simp [eval, fn, ideal]

theorem hasDerivAt_tanh (x : ℝ) :
    HasDerivAt Real.tanh (1 - Real.tanh x * Real.tanh x) x := by
  have h := (Real.hasDerivAt_sinh x).div (Real.hasDerivAt_cosh x) (Real.cosh_pos x).ne'
  have e : Real.tanh = Real.sinh / Real.cosh := by
    funext y; simp [Real.tanh_eq_sinh_div_cosh]
  rw [e]
  refine h.congr_deriv ?_
  have := (Real.cosh_pos x).ne'
  simp only [Pi.div_apply]
  field_simp

/-- The logistic function. -/
noncomputable def sig (x : ℝ) : ℝ := 1 / (1 + Real.exp (-x))

theorem hasDerivAt_sig (x : ℝ) : HasDerivAt sig (sig x * (1 - sig x)) x := by
  have h1 : HasDerivAt (fun y : ℝ => 1 + Real.exp (-y)) (-Real.exp (-x)) x := by
    have := ((hasDerivAt_neg x).exp).const_add 1
    exact this.congr_deriv (by ring)
  have hp : 0 < 1 + Real.exp (-x) := by have := Real.exp_pos (-x); linarith
  have h := h1.inv hp.ne'
  have e : sig = (fun y : ℝ => 1 + Real.exp (-y))⁻¹ := by
    funext y; simp [sig]
  rw [e]
  refine h.congr_deriv ?_
  simp only [Pi.inv_apply]
  field_simp
  ring

theorem sig_eq (x : ℝ) : 1 / (1 + 1 / Real.exp x) = sig x := by
  unfold sig; rw [Real.exp_neg]; simp

theorem hasDerivAt_softplus (x : ℝ) :
    HasDerivAt (fun y : ℝ => Real.log (1 + Real.exp y)) (sig x) x := by
  have hp : 0 < 1 + Real.exp x := by have := Real.exp_pos x; linarith
  have h := ((Real.hasDerivAt_exp x).const_add 1).log hp.ne'
  refine h.congr_deriv ?_
  rw [← sig_eq]
  have := (Real.exp_pos x).ne'
  field_simp
  ring

theorem hasDerivAt_sig2 (x : ℝ) :
    HasDerivAt (fun y => sig y * (1 - sig y)) (sig x * (1 - sig x) * (1 - 2 * sig x)) x := by
  have h := hasDerivAt_sig x
  exact (h.mul (h.const_sub 1)).congr_deriv (by ring)

open Filter Topology in
/-- A function equal to `g` near `x` has the derivative of `g`. -/
theorem hasDerivAt_of_near {f g : ℝ → ℝ} {d x : ℝ} {s : Set ℝ} (hs : IsOpen s) (hx : x ∈ s)
    (h : ∀ y ∈ s, f y = g y) (hg : HasDerivAt g d x) : HasDerivAt f d x :=
  hg.congr_of_eventuallyEq (Filter.eventually_of_mem (hs.mem_nhds hx) h)

theorem isOpen_regular (a : Activation) : IsOpen {x | a.Regular x} := by
  cases a <;> simp only [Regular, Set.ofPred_true, Set.ofPred_false, isOpen_univ, isOpen_empty]
  · exact (isOpen_ne (x := (35 : ℝ))).inter isOpen_ne
  · exact (isOpen_ne (x := (35 : ℝ))).inter isOpen_ne
  · exact isOpen_ne

theorem cases35 {x : ℝ} (h : x ≠ 35 ∧ x ≠ -35) : 35 < x ∨ x < -35 ∨ (-35 < x ∧ x < 35) := by
  rcases lt_or_gt_of_ne h.1 with h1 | h1
  · rcases lt_or_gt_of_ne h.2 with h2 | h2
    · exact Or.inr (Or.inl h2)
    · exact Or.inr (Or.inr ⟨h2, h1⟩)
  · exact Or.inl h1

theorem hasDerivAt_fn {a : Activation} {x : ℝ} (h : a.Regular x) : HasDerivAt a.fn (a.d1 x) x := by
  unfold d1
  cases a with
  | UNSET => exact h.elim
  | IDENTITY => exact (hasDerivAt_id' x).congr_deriv (by simp [eval])
  | TANH => exact (hasDerivAt_tanh x).congr_deriv (by simp [eval])
  | LOGISTIC =>
    rcases cases35 h with h1 | h1 | h1
    · refine hasDerivAt_of_near (g := fun _ => 1) (isOpen_Ioi (a := (35 : ℝ))) h1 ?_ ?_
      · intro y hy; simp [fn, Set.mem_Ioi.mp hy]
      · simpa [eval, EXP_LIMIT, h1] using hasDerivAt_const x (1 : ℝ)
    · have h2 : ¬ 35 < x := by linarith
      refine hasDerivAt_of_near (g := fun _ => 0) (isOpen_Iio (a := (-35 : ℝ))) h1 ?_ ?_
      · intro y hy
        have hy := Set.mem_Iio.mp hy
        have : ¬ 35 < y := by linarith
        simp [fn, this, hy]
      · simpa [eval, EXP_LIMIT, h1, h2] using hasDerivAt_const x (0 : ℝ)
    · refine hasDerivAt_of_near (g := sig) (isOpen_Ioo (a := (-35 : ℝ)) (b := 35)) h1 ?_ ?_
      · intro y hy
        simp [fn, ideal, sig, not_lt.mpr hy.1.le, not_lt.mpr hy.2.le]
      · have := hasDerivAt_sig x
        simpa [eval, EXP_LIMIT, sig, not_lt.mpr h1.1.le, not_lt.mpr h1.2.le] using this
  | SOFTPLUS =>
    rcases cases35 h with h1 | h1 | h1
    · refine hasDerivAt_of_near (g := fun y => y) (isOpen_Ioi (a := (35 : ℝ))) h1 ?_ ?_
      · intro y hy; simp [fn, Set.mem_Ioi.mp hy]
      · simpa [eval, EXP_LIMIT, h1] using hasDerivAt_id' x
    · have h2 : ¬ 35 < x := by linarith
      refine hasDerivAt_of_near (g := fun _ => 0) (isOpen_Iio (a := (-35 : ℝ))) h1 ?_ ?_
      · intro y hy
        have hy := Set.mem_Iio.mp hy
        have : ¬ 35 < y := by linarith
        simp [fn, this, hy]
      · simpa [eval, EXP_LIMIT, h1, h2] using hasDerivAt_const x (0 : ℝ)
    · refine hasDerivAt_of_near (g := fun y => Real.log (1 + Real.exp y))
        (isOpen_Ioo (a := (-35 : ℝ)) (b := 35)) h1 ?_ ?_
      · intro y hy
        simp [fn, ideal, not_lt.mpr hy.1.le, not_lt.mpr hy.2.le]
      · have := hasDerivAt_softplus x
        rw [← sig_eq] at this
        simpa [eval, EXP_LIMIT, not_lt.mpr h1.1.le, not_lt.mpr h1.2.le] using this
  | RELU =>
    rcases lt_or_gt_of_ne h with h1 | h1
    · refine hasDerivAt_of_near (g := fun _ => 0) (isOpen_Iio (a := (0 : ℝ))) h1 ?_ ?_
      · intro y hy; simpa [fn, ideal] using (Set.mem_Iio.mp hy).le
      · simpa [eval, not_lt.mpr h1.le] using hasDerivAt_const x (0 : ℝ)
    · refine hasDerivAt_of_near (g := fun y => y) (isOpen_Ioi (a := (0 : ℝ))) h1 ?_ ?_
      · intro y hy; simpa [fn, ideal] using (Set.mem_Ioi.mp hy).le
      · have h1' : 0 < x := h1
        simpa [eval, h1'] using hasDerivAt_id' x
  | GAUSSIAN =>
    have h := ((hasDerivAt_pow 2 x).neg.div_const 2).exp
    simp only [eval, Option.map_some, Option.getD_some]
    refine h.congr_deriv ?_
    rw [show -(1 / 2) * x * x = -x ^ 2 / 2 by ring]
    simp only [Pi.neg_apply, Nat.cast_ofNat, Nat.add_one_sub_one, pow_one]
    ring
  | COS => exact (Real.hasDerivAt_cos x).congr_deriv (by simp [eval])
  | REVLOGISTIC =>
    have := (hasDerivAt_sig x).const_sub 1
    simp only [eval, Option.map_some, Option.getD_some]
    exact this.congr_deriv (by unfold sig; ring)
  | EXP =>
    have := (hasDerivAt_neg x).exp
    simp only [eval, Option.map_some, Option.getD_some]
    exact this.congr_deriv (by ring)
  | HARMONIC =>
    have := hasDerivAt_pow 2 x
    simp only [eval, Option.map_some, Option.getD_some]
    exact this.congr_deriv (by simp)

theorem hasDerivAt_d1 {a : Activation} {x : ℝ} (h : a.Regular x) : HasDerivAt a.d1 (a.d2 x) x := by
  unfold d2
  cases a with
  | UNSET => exact h.elim
  | IDENTITY =>
    have e : d1 IDENTITY = fun _ => 1 := by funext y; simp [d1, eval]
    rw [e]; simpa [eval] using hasDerivAt_const x (1 : ℝ)
  | TANH =>
    have e : d1 TANH = fun y => 1 - Real.tanh y * Real.tanh y := by funext y; simp [d1, eval]
    rw [e]
    have h := hasDerivAt_tanh x
    refine ((h.mul h).const_sub 1).congr_deriv ?_
    simp only [eval, Option.map_some, Option.getD_some]; ring
  | LOGISTIC =>
    rcases cases35 h with h1 | h1 | h1
    · refine hasDerivAt_of_near (g := fun _ => 0) (isOpen_Ioi (a := (35 : ℝ))) h1 ?_ ?_
      · intro y hy; simp [d1, eval, EXP_LIMIT, Set.mem_Ioi.mp hy]
      · simpa [eval, EXP_LIMIT, h1] using hasDerivAt_const x (0 : ℝ)
    · have h2 : ¬ 35 < x := by linarith
      refine hasDerivAt_of_near (g := fun _ => 0) (isOpen_Iio (a := (-35 : ℝ))) h1 ?_ ?_
      · intro y hy
        have hy := Set.mem_Iio.mp hy
        have : ¬ 35 < y := by linarith
        simp [d1, eval, EXP_LIMIT, this, hy]
      · simpa [eval, EXP_LIMIT, h1, h2] using hasDerivAt_const x (0 : ℝ)
    · refine hasDerivAt_of_near (g := fun y => sig y * (1 - sig y))
        (isOpen_Ioo (a := (-35 : ℝ)) (b := 35)) h1 ?_ ?_
      · intro y hy
        simp [d1, eval, EXP_LIMIT, sig, not_lt.mpr hy.1.le, not_lt.mpr hy.2.le]
      · have := hasDerivAt_sig2 x
        simpa [eval, EXP_LIMIT, sig, not_lt.mpr h1.1.le, not_lt.mpr h1.2.le] using this
  | SOFTPLUS =>
    rcases cases35 h with h1 | h1 | h1
    · refine hasDerivAt_of_near (g := fun _ => 1) (isOpen_Ioi (a := (35 : ℝ))) h1 ?_ ?_
      · intro y hy; simp [d1, eval, EXP_LIMIT, Set.mem_Ioi.mp hy]
      · simpa [eval, EXP_LIMIT, h1] using hasDerivAt_const x (1 : ℝ)
    · have h2 : ¬ 35 < x := by linarith
      refine hasDerivAt_of_near (g := fun _ => 0) (isOpen_Iio (a := (-35 : ℝ))) h1 ?_ ?_
      · intro y hy
        have hy := Set.mem_Iio.mp hy
        have : ¬ 35 < y := by linarith
        simp [d1, eval, EXP_LIMIT, this, hy]
      · simpa [eval, EXP_LIMIT, h1, h2] using hasDerivAt_const x (0 : ℝ)
    · refine hasDerivAt_of_near (g := sig) (isOpen_Ioo (a := (-35 : ℝ)) (b := 35)) h1 ?_ ?_
      · intro y hy
        rw [← sig_eq]
        simp [d1, eval, EXP_LIMIT, not_lt.mpr hy.1.le, not_lt.mpr hy.2.le]
      · have := hasDerivAt_sig x
        refine this.congr_deriv ?_
        rw [← sig_eq]
        simp [eval, EXP_LIMIT, not_lt.mpr h1.1.le, not_lt.mpr h1.2.le]
  | RELU =>
    rcases lt_or_gt_of_ne h with h1 | h1
    · refine hasDerivAt_of_near (g := fun _ => 0) (isOpen_Iio (a := (0 : ℝ))) h1 ?_ ?_
      · intro y hy; simp [d1, eval, not_lt.mpr (Set.mem_Iio.mp hy).le]
      · simpa [eval, not_lt.mpr h1.le] using hasDerivAt_const x (0 : ℝ)
    · have h1' : 0 < x := h1
      refine hasDerivAt_of_near (g := fun _ => 1) (isOpen_Ioi (a := (0 : ℝ))) h1 ?_ ?_
      · intro y hy; simp [d1, eval, Set.mem_Ioi.mp hy]
      · simpa [eval, h1'] using hasDerivAt_const x (1 : ℝ)
  | GAUSSIAN =>
    have e : d1 GAUSSIAN = fun y => -y * Real.exp (-y ^ 2 / 2) := by
      funext y
      simp only [d1, eval, Option.map_some, Option.getD_some]
      rw [show -(1 / 2) * y * y = -y ^ 2 / 2 by ring]
    rw [e]
    have h := ((hasDerivAt_pow 2 x).neg.div_const 2).exp
    have h2 := (hasDerivAt_neg x).mul h
    refine h2.congr_deriv ?_
    simp only [eval, Option.map_some, Option.getD_some]
    rw [show -(1 / 2) * x * x = -x ^ 2 / 2 by ring]
    simp only [Pi.neg_apply, Nat.cast_ofNat, Nat.add_one_sub_one, pow_one]
    ring
  | COS =>
    have e : d1 COS = fun y => -Real.sin y := by funext y; simp [d1, eval]
    rw [e]; exact (Real.hasDerivAt_sin x).neg.congr_deriv (by simp [eval])
  | REVLOGISTIC =>
    have e : d1 REVLOGISTIC = fun y => -(sig y * (1 - sig y)) := by
      funext y
      simp only [d1, eval, sig, Option.map_some, Option.getD_some]; ring
    rw [e]
    refine (hasDerivAt_sig2 x).neg.congr_deriv ?_
    simp only [eval, sig, Option.map_some, Option.getD_some]; ring
  | EXP =>
    have e : d1 EXP = fun y => -Real.exp (-y) := by funext y; simp [d1, eval]
    rw [e]
    refine ((hasDerivAt_neg x).exp).neg.congr_deriv ?_
    simp only [eval, Option.map_some, Option.getD_some]; ring
  | HARMONIC =>
    have e : d1 HARMONIC = fun y => 2 * y := by funext y; simp [d1, eval]
    rw [e]
    refine ((hasDerivAt_id' x).const_mul 2).congr_deriv ?_
    simp [eval]

theorem deriv_fn_eventually {a : Activation} {x : ℝ} (h : a.Regular x) :
    deriv a.fn =ᶠ[nhds x] a.d1 :=
  Filter.eventually_of_mem ((isOpen_regular a).mem_nhds h) fun _ hy => (hasDerivAt_fn hy).deriv

theorem fn_ideal_le (a : Activation) (x : ℝ) : |a.fn x - a.ideal x| ≤ Real.exp (-35) := by
  have hpos := (Real.exp_pos (-35 : ℝ)).le
  cases a with
  | LOGISTIC =>
    simp only [fn, ideal]
    have hp : 0 < 1 + Real.exp (-x) := by have := Real.exp_pos (-x); linarith
    split_ifs with h1 h2
    · have e : 1 - 1 / (1 + Real.exp (-x)) = Real.exp (-x) / (1 + Real.exp (-x)) := by
        field_simp; ring
      rw [e, abs_of_nonneg (by positivity)]
      refine (div_le_self (Real.exp_pos _).le (by have := Real.exp_pos (-x); linarith)).trans ?_
      exact Real.exp_le_exp.mpr (by linarith)
    · rw [zero_sub, abs_neg, abs_of_nonneg (by positivity)]
      have : 1 / (1 + Real.exp (-x)) ≤ 1 / Real.exp (-x) :=
        one_div_le_one_div_of_le (Real.exp_pos _) (by linarith)
      refine this.trans ?_
      rw [one_div, ← Real.exp_neg, neg_neg]
      exact Real.exp_le_exp.mpr (by linarith)
    · simpa using hpos
  | SOFTPLUS =>
    simp only [fn, ideal]
    have hp : 0 < 1 + Real.exp x := by have := Real.exp_pos x; linarith
    split_ifs with h1 h2
    · have e : Real.log (1 + Real.exp x) = x + Real.log (1 + Real.exp (-x)) := by
        have : 1 + Real.exp x = Real.exp x * (1 + Real.exp (-x)) := by
          rw [mul_add, ← Real.exp_add]; simp; ring
        have hp' : 1 + Real.exp (-x) ≠ 0 := by have := Real.exp_pos (-x); linarith
        rw [this, Real.log_mul (Real.exp_pos x).ne' hp', Real.log_exp]
      have h0 : 0 ≤ Real.log (1 + Real.exp (-x)) :=
        Real.log_nonneg (by have := Real.exp_pos (-x); linarith)
      have h3 : Real.log (1 + Real.exp (-x)) ≤ Real.exp (-x) := by
        have := Real.log_le_sub_one_of_pos (show 0 < 1 + Real.exp (-x) by positivity)
        linarith
      rw [e, show x - (x + Real.log (1 + Real.exp (-x))) = -Real.log (1 + Real.exp (-x)) by ring,
        abs_neg, abs_of_nonneg h0]
      exact h3.trans (Real.exp_le_exp.mpr (by linarith))
    · have h0 : 0 ≤ Real.log (1 + Real.exp x) :=
        Real.log_nonneg (by have := Real.exp_pos x; linarith)
      have h3 : Real.log (1 + Real.exp x) ≤ Real.exp x := by
        have := Real.log_le_sub_one_of_pos hp
        linarith
      rw [zero_sub, abs_neg, abs_of_nonneg h0]
      exact h3.trans (Real.exp_le_exp.mpr (by linarith))
    · simpa using hpos
  | _ => simpa [fn] using hpos

theorem fn_eq_ideal {a : Activation} {x : ℝ} (h1 : -35 ≤ x) (h2 : x ≤ 35) : a.fn x = a.ideal x := by
  cases a <;> simp [fn, not_lt.mpr h1, not_lt.mpr h2]

end Activation

end N2P2
