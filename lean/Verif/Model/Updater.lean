import Mathlib.Data.Matrix.Basic
import Mathlib.LinearAlgebra.Matrix.NonsingularInverse
import Mathlib.Analysis.SpecialFunctions.Exp
import Mathlib.Analysis.SpecialFunctions.Sqrt

/-! Weight updaters: gradient descent and Kalman filter. `double` is ℝ; Eigen matrices are Mathlib
matrices; the external arrays `state`, `error`, `jacobian` are arguments of `update`. -/

namespace N2P2

/-! ### Gradient descent -/

/-- GradientDescent.h:32-39 `DescentType`. -/
inductive DescentType
  | FIXED | ADAM
  deriving DecidableEq

/-- GradientDescent.h:117-143 members; `state` is the array given to `setState`. -/
structure GradientDescent (N : ℕ) where
  type : DescentType
  eta : ℝ
  beta1 : ℝ
  beta2 : ℝ
  epsilon : ℝ
  eta0 : ℝ
  beta1t : ℝ
  beta2t : ℝ
  state : Fin N → ℝ
  m : Fin N → ℝ
  v : Fin N → ℝ

namespace GradientDescent

/-- GradientDescent.cpp:25-56 constructor, followed by `setState` (58-63); `none` is the exception
for an empty state. `eta0` is not initialised by the code; here it starts as an argument. -/
def create {N : ℕ} (type : DescentType) (state : Fin N → ℝ) (eta0 : ℝ) :
    Option (GradientDescent N) :=
  if N < 1 then none
  else some
    { type := type, eta := 0, beta1 := 0, beta2 := 0, epsilon := 0, eta0 := eta0, beta1t := 0,
      beta2t := 0, state := state, m := fun _ => 0, v := fun _ => 0 }

/-- GradientDescent.cpp:120-125 `setParametersFixed`. -/
def setParametersFixed {N : ℕ} (u : GradientDescent N) (eta : ℝ) : GradientDescent N :=
  { u with eta := eta }

/-- GradientDescent.cpp:127-142 `setParametersAdam`. -/
def setParametersAdam {N : ℕ} (u : GradientDescent N) (eta beta1 beta2 epsilon : ℝ) :
    GradientDescent N :=
  { u with
    eta := eta, beta1 := beta1, beta2 := beta2, epsilon := epsilon, eta0 := eta,
    beta1t := beta1, beta2t := beta2 }

/-- GradientDescent.cpp:81-118 `update`. The loop body touches only the entries with the loop
index and sets `eta` to the same value in each pass. -/
noncomputable def update {N : ℕ} (u : GradientDescent N) (error : ℝ) (gradient : Fin N → ℝ) :
    GradientDescent N :=
  match u.type with
  | .FIXED => { u with state := fun i => u.state i - u.eta * error * -gradient i }
  | .ADAM =>
    let g := fun i => error * -gradient i
    let m := fun i => u.beta1 * u.m i + (1 - u.beta1) * g i
    let v := fun i => u.beta2 * u.v i + (1 - u.beta2) * g i * g i
    let eta := u.eta0 * Real.sqrt (1 - u.beta2t) / (1 - u.beta1t)
    { u with
      m := m
      v := v
      eta := eta
      state := fun i => u.state i - eta * m i / (Real.sqrt (v i) + u.epsilon)
      beta1t := u.beta1t * u.beta1
      beta2t := u.beta2t * u.beta2 }

end GradientDescent

/-! ### Kalman filter -/

/-- KalmanFilter.h:34-40 `KalmanType`. -/
inductive KalmanType
  | STANDARD | FADINGMEMORY
  deriving DecidableEq

/-- KalmanFilter.h:194-237 members; `w` is the array given to `setState`. The work matrix `X` and
the pointers `xi`, `H` are local to `update`. -/
structure KalmanFilter (N : ℕ) where
  type : KalmanType
  numUpdates : ℕ
  epsilon : ℝ
  q : ℝ
  q0 : ℝ
  qtau : ℝ
  qmin : ℝ
  eta : ℝ
  eta0 : ℝ
  etatau : ℝ
  etamax : ℝ
  lambda : ℝ
  nu : ℝ
  gamma : ℝ
  w : Fin N → ℝ
  P : Matrix (Fin N) (Fin N) ℝ

namespace KalmanFilter

open Matrix

/-- KalmanFilter.cpp:27-70 constructor, followed by `setState` (83-88); `none` is the exception for
an empty state. -/
def create {N : ℕ} (type : KalmanType) (w : Fin N → ℝ) : Option (KalmanFilter N) :=
  if N < 1 then none
  else some
    { type := type, numUpdates := 0, epsilon := 0, q := 0, q0 := 0, qtau := 0, qmin := 0, eta := 0,
      eta0 := 0, etatau := 0, etamax := 0, lambda := 0, nu := 0, gamma := 0, w := w, P := 1 }

/-- KalmanFilter.cpp:199-220 `setParametersStandard`. -/
noncomputable def setParametersStandard {N : ℕ} (k : KalmanFilter N)
    (epsilon q0 qtau qmin eta0 etatau etamax : ℝ) : KalmanFilter N :=
  { k with
    epsilon := epsilon, q0 := q0, qtau := qtau, qmin := qmin, eta0 := eta0, etatau := etatau,
    etamax := etamax, q := q0, eta := eta0, P := epsilon⁻¹ • k.P }

/-- KalmanFilter.cpp:222-241 `setParametersFadingMemory`. -/
noncomputable def setParametersFadingMemory {N : ℕ} (k : KalmanFilter N)
    (epsilon q0 qtau qmin lambda nu : ℝ) : KalmanFilter N :=
  { k with
    epsilon := epsilon, q0 := q0, qtau := qtau, qmin := qmin, lambda := lambda, nu := nu,
    q := q0, P := epsilon⁻¹ • k.P, gamma := 1 }

/-- Eigen's `selfadjointView<Lower>()`: the lower triangle, mirrored. -/
def lowerView {N : ℕ} (P : Matrix (Fin N) (Fin N) ℝ) : Matrix (Fin N) (Fin N) ℝ :=
  fun i j => if j ≤ i then P i j else P j i

open Classical in
/-- KalmanFilter.cpp:142 the value of `eta` in an update. -/
noncomputable def nextEta {N : ℕ} (k : KalmanFilter N) : ℝ :=
  if k.type = .STANDARD ∧ k.eta < k.etamax then k.eta * Real.exp k.etatau else k.eta

/-- KalmanFilter.cpp:132-153 the matrix which `update` inverts (`A` after adding the measurement
noise), with `X = P H`. -/
noncomputable def scalingMatrix {N M : ℕ} (k : KalmanFilter N) (H : Matrix (Fin N) (Fin M) ℝ) :
    Matrix (Fin M) (Fin M) ℝ :=
  Hᵀ * (lowerView k.P * H) + diagonal fun _ =>
    match k.type with
    | .STANDARD => 1 / k.nextEta
    | .FADINGMEMORY => k.lambda

/-- KalmanFilter.cpp:155-158 the gain `K = X A⁻¹`. Mathlib's inverse is zero for a singular matrix,
where Eigen's result is unspecified. -/
noncomputable def gain {N M : ℕ} (k : KalmanFilter N) (H : Matrix (Fin N) (Fin M) ℝ) :
    Matrix (Fin N) (Fin M) ℝ :=
  lowerView k.P * H * (k.scalingMatrix H)⁻¹

open Classical in
/-- KalmanFilter.cpp:126-197 `update`, for `M` observations with errors `xi` and Jacobian `H`. -/
noncomputable def update {N M : ℕ} (k : KalmanFilter N) (xi : Fin M → ℝ)
    (H : Matrix (Fin N) (Fin M) ℝ) : KalmanFilter N :=
  let X := lowerView k.P * H
  let K := k.gain H
  let P := k.P - K * Xᵀ
  let P := if k.type = .FADINGMEMORY then (1 / k.lambda) • P else P
  let lambda := if k.type = .FADINGMEMORY then k.nu * k.lambda + 1 - k.nu else k.lambda
  { k with
    eta := k.nextEta
    P := P + diagonal fun _ => k.q
    w := k.w + K *ᵥ xi
    q := if k.qmin < k.q then k.q * Real.exp (-k.qtau) else k.q
    lambda := lambda
    gamma := if k.type = .FADINGMEMORY then 1 / (1 + lambda / k.gamma) else k.gamma
    numUpdates := k.numUpdates + 1 }

end KalmanFilter

end N2P2
