import Mathlib.Analysis.Calculus.Deriv.Add
import Mathlib.Analysis.Calculus.Deriv.Mul
import Mathlib.Analysis.Calculus.Deriv.Pi
import Mathlib.Analysis.Calculus.Deriv.Slope
import Mathlib.Topology.Instances.Matrix
import Verif.Lemma.Qeq

/-! Derivatives of the solutions of linear systems which depend on a parameter. -/

namespace N2P2

open Filter Topology

theorem implicit_deriv {n : ℕ} {A : ℝ → Matrix (Fin n) (Fin n) ℝ} {A' : Matrix (Fin n) (Fin n) ℝ}
    {b x : ℝ → Fin n → ℝ} {b' : Fin n → ℝ} {t0 : ℝ}
    (hA : ∀ i j, HasDerivAt (fun t => A t i j) (A' i j) t0)
    (hb : ∀ i, HasDerivAt (fun t => b t i) (b' i) t0)
    (hx : ∀ᶠ t in 𝓝 t0, (A t).mulVec (x t) = b t) (hd : (A t0).det ≠ 0) :
    HasDerivAt x ((A t0)⁻¹.mulVec (b' - A'.mulVec (x t0))) t0 := by
  have hA0 : ContinuousAt A t0 := by
    refine continuousAt_pi.2 fun i => continuousAt_pi.2 fun j => (hA i j).continuousAt
  have hdet : ContinuousAt (fun t => (A t).det) t0 :=
    ((continuous_id (X := Matrix (Fin n) (Fin n) ℝ)).matrix_det.continuousAt (x := A t0)).comp hA0
  have hadj : ContinuousAt (fun t => (A t).adjugate) t0 :=
    ((continuous_id (X := Matrix (Fin n) (Fin n) ℝ)).matrix_adjugate.continuousAt (x := A t0)).comp hA0
  have hinv : ContinuousAt (fun t => (A t)⁻¹) t0 := by
    have : (fun t => (A t)⁻¹) = fun t => (A t).det⁻¹ • (A t).adjugate := by
      funext t
      rw [Matrix.inv_def, Ring.inverse_eq_inv']
    rw [this]
    exact (hdet.inv₀ hd).smul hadj
  have hne : ∀ᶠ t in 𝓝 t0, (A t).det ≠ 0 := hdet.eventually_ne hd
  -- the defect of the old solution
  have hh : HasDerivAt (fun t => b t - (A t).mulVec (x t0)) (b' - A'.mulVec (x t0)) t0 := by
    rw [hasDerivAt_pi]
    intro i
    refine (hb i).sub ?_
    show HasDerivAt (fun t => ∑ j, A t i j * x t0 j) (∑ j, A' i j * x t0 j) t0
    exact HasDerivAt.fun_sum fun j _ => (hA i j).mul_const _
  rw [hasDerivAt_iff_tendsto_slope] at hh ⊢
  have h0 : b t0 - (A t0).mulVec (x t0) = 0 := by rw [hx.self_of_nhds, sub_self]
  have hlim : Tendsto (fun t => (A t)⁻¹.mulVec (slope (fun t => b t - (A t).mulVec (x t0)) t0 t))
      (𝓝[≠] t0) (𝓝 ((A t0)⁻¹.mulVec (b' - A'.mulVec (x t0)))) := by
    have c : Continuous fun p : Matrix (Fin n) (Fin n) ℝ × (Fin n → ℝ) => p.1.mulVec p.2 :=
      continuous_fst.matrix_mulVec continuous_snd
    exact (c.tendsto _).comp ((hinv.tendsto.mono_left nhdsWithin_le_nhds).prodMk_nhds hh)
  refine hlim.congr' ?_
  filter_upwards [nhdsWithin_le_nhds hx, nhdsWithin_le_nhds hne] with t ht hdt
  rw [slope_def_module, slope_def_module, Matrix.mulVec_smul, h0, sub_zero, ← ht,
    ← Matrix.mulVec_sub, Matrix.mulVec_mulVec, Matrix.nonsing_inv_mul _ (isUnit_iff_ne_zero.2 hdt),
    Matrix.one_mulVec]

/-- Derivative `y` of the solutions, given by a linear system with the same matrix. -/
theorem solution_deriv {n : ℕ} {A : ℝ → ℕ → ℕ → ℝ} {A' : ℕ → ℕ → ℝ} {b x : ℝ → ℕ → ℝ}
    {b' y : ℕ → ℝ} {t0 : ℝ}
    (hA : ∀ i < n, ∀ j < n, HasDerivAt (fun t => A t i j) (A' i j) t0)
    (hb : ∀ i < n, HasDerivAt (fun t => b t i) (b' i) t0)
    (hx : ∀ᶠ t in 𝓝 t0, ∀ i < n, ∑ j ∈ Finset.range n, A t i j * x t j = b t i)
    (hd : (Matrix.of fun i j : Fin n => A t0 i j).det ≠ 0)
    (hy : ∀ i < n, ∑ j ∈ Finset.range n, A t0 i j * y j =
      b' i - ∑ j ∈ Finset.range n, A' i j * x t0 j) {i : ℕ} (hi : i < n) :
    HasDerivAt (fun t => x t i) (y i) t0 := by
  have h := implicit_deriv (A := fun t => Matrix.of fun i j : Fin n => A t i j)
    (A' := Matrix.of fun i j : Fin n => A' i j) (b := fun t i => b t i) (x := fun t i => x t i)
    (b' := fun i => b' i) (t0 := t0) (fun i j => hA i i.2 j j.2) (fun i => hb i i.2) ?_ hd
  · have h2 := (hasDerivAt_pi.1 h) ⟨i, hi⟩
    refine h2.congr_deriv ?_
    have e : (fun i : Fin n => b' i) - (Matrix.of fun i j : Fin n => A' i j).mulVec (fun i => x t0 i) =
        (Matrix.of fun i j : Fin n => A t0 i j).mulVec (fun j => y j) := by
      funext k
      have := hy k k.2
      rw [Finset.sum_range, Finset.sum_range] at this
      exact this.symm
    rw [e, Matrix.mulVec_mulVec, Matrix.nonsing_inv_mul _ (isUnit_iff_ne_zero.2 hd),
      Matrix.one_mulVec]
  · filter_upwards [hx] with t ht
    funext k
    have := ht k k.2
    rw [Finset.sum_range] at this
    exact this

end N2P2
