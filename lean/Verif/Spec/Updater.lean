import Verif.Model.Updater

/-! Specification vocabulary for updaters: histories of updates, exponentially weighted moments and
the regularised least-squares objective. -/

namespace N2P2

namespace GradientDescent

/-- `t` updates with errors `e 0, e 1, …` and gradients `g 0, g 1, …`. -/
noncomputable def after {N : ℕ} (u : GradientDescent N) (e : ℕ → ℝ) (g : ℕ → Fin N → ℝ) :
    ℕ → GradientDescent N
  | 0 => u
  | t + 1 => (after u e g t).update (e t) (g t)

end GradientDescent

/-- Exponentially weighted moment of the values `x 0, …, x (t-1)`, the latest with weight 1 - β. -/
noncomputable def moment (β : ℝ) (x : ℕ → ℝ) (t : ℕ) : ℝ :=
  (1 - β) * ∑ s ∈ Finset.range t, β ^ (t - 1 - s) * x s

namespace KalmanFilter

open Matrix

/-- `k'` arises from `k` by `t` updates with any numbers of observations, errors and Jacobians. -/
inductive Run {N : ℕ} (k : KalmanFilter N) : ℕ → KalmanFilter N → Prop
  | start : Run k 0 k
  | step {t : ℕ} {k' : KalmanFilter N} {M : ℕ} (xi : Fin M → ℝ) (H : Matrix (Fin N) (Fin M) ℝ) :
      Run k t k' → Run k (t + 1) (k'.update xi H)

/-- Parameters of the standard filter. -/
structure StdParams where
  epsilon : ℝ
  q0 : ℝ
  qtau : ℝ
  qmin : ℝ
  eta0 : ℝ
  etatau : ℝ
  etamax : ℝ

/-- Positive covariance scale and learning rate, nonnegative noise. -/
def StdParams.Valid (p : StdParams) : Prop := 0 < p.epsilon ∧ 0 ≤ p.q0 ∧ 0 < p.eta0

/-- Constructed as standard filter and initialised. -/
def StartsStandard {N : ℕ} (p : StdParams) (k : KalmanFilter N) : Prop :=
  ∃ w k0, create .STANDARD w = some k0 ∧
    k = k0.setParametersStandard p.epsilon p.q0 p.qtau p.qmin p.eta0 p.etatau p.etamax

/-- Parameters of the fading memory filter. -/
structure FadParams where
  epsilon : ℝ
  q0 : ℝ
  qtau : ℝ
  qmin : ℝ
  lambda : ℝ
  nu : ℝ

/-- Positive covariance scale, nonnegative noise, forgetting factor in (0, 1], 0 ≤ nu ≤ 1. -/
def FadParams.Valid (p : FadParams) : Prop :=
  0 < p.epsilon ∧ 0 ≤ p.q0 ∧ 0 < p.lambda ∧ p.lambda ≤ 1 ∧ 0 ≤ p.nu ∧ p.nu ≤ 1

/-- Constructed as fading memory filter and initialised. -/
def StartsFading {N : ℕ} (p : FadParams) (k : KalmanFilter N) : Prop :=
  ∃ w k0, create .FADINGMEMORY w = some k0 ∧
    k = k0.setParametersFadingMemory p.epsilon p.q0 p.qtau p.qmin p.lambda p.nu

/-- Weighted least squares: a step `d` costs dᵀ P⁻¹ d plus the remaining linearised errors squared,
divided by the measurement noise `r`. -/
noncomputable def cost {N M : ℕ} (P : Matrix (Fin N) (Fin N) ℝ) (r : ℝ) (xi : Fin M → ℝ)
    (H : Matrix (Fin N) (Fin M) ℝ) (d : Fin N → ℝ) : ℝ :=
  d ⬝ᵥ (P⁻¹ *ᵥ d) + r⁻¹ * ((xi - Hᵀ *ᵥ d) ⬝ᵥ (xi - Hᵀ *ᵥ d))

end KalmanFilter

end N2P2
