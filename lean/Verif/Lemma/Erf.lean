import Mathlib.MeasureTheory.Integral.IntervalIntegral.FundThmCalculus
import Mathlib.MeasureTheory.Integral.IntegralEqImproper
import Mathlib.Analysis.Calculus.Deriv.MeanValue
import Mathlib.Tactic.Positivity
import Verif.Model.Kspace

/-! The error function. -/

namespace N2P2

theorem gauss_continuous : Continuous fun t : ℝ => Real.exp (-t ^ 2) := by fun_prop

theorem hasDerivAt_erf (x : ℝ) : HasDerivAt erf (2 / √Real.pi * Real.exp (-x ^ 2)) x := by
  unfold erf
  exact (gauss_continuous.integral_hasStrictDerivAt 0 x).hasDerivAt.const_mul _

theorem hasDerivAt_erfc (x : ℝ) : HasDerivAt erfc (-(2 / √Real.pi * Real.exp (-x ^ 2))) x := by
  unfold erfc
  exact (hasDerivAt_erf x).const_sub 1

theorem erf_strictMono : StrictMono erf := by
  refine strictMono_of_deriv_pos fun x => ?_
  rw [(hasDerivAt_erf x).deriv]
  have := Real.pi_pos
  positivity

theorem erf_zero : erf 0 = 0 := by simp [erf]

theorem tendsto_erf : Filter.Tendsto erf Filter.atTop (nhds 1) := by
  have hi : MeasureTheory.IntegrableOn (fun t : ℝ => Real.exp (-t ^ 2)) (Set.Ioi 0) := by
    have := (integrable_exp_neg_mul_sq (b := 1) one_pos).integrableOn (s := Set.Ioi 0)
    simpa using this
  have h := MeasureTheory.intervalIntegral_tendsto_integral_Ioi 0 hi Filter.tendsto_id
  have e : ∫ t in Set.Ioi (0 : ℝ), Real.exp (-t ^ 2) = √Real.pi / 2 := by
    have := integral_gaussian_Ioi 1
    simpa using this
  rw [e] at h
  have h2 := h.const_mul (2 / √Real.pi)
  have hp : √Real.pi ≠ 0 := (Real.sqrt_pos.2 Real.pi_pos).ne'
  rw [show 2 / √Real.pi * (√Real.pi / 2) = 1 by field_simp] at h2
  exact h2

theorem erf_lt_one (x : ℝ) : erf x < 1 :=
  lt_of_lt_of_le (erf_strictMono (lt_add_one x))
    (erf_strictMono.monotone.ge_of_tendsto tendsto_erf _)

theorem erf_pos {x : ℝ} (h : 0 < x) : 0 < erf x := erf_zero ▸ erf_strictMono h

theorem erfc_pos (x : ℝ) : 0 < erfc x := by
  have := erf_lt_one x
  unfold erfc
  linarith

theorem erfc_ne (x : ℝ) : erfc x ≠ -1 := by
  have := erfc_pos x
  intro h
  linarith

end N2P2
