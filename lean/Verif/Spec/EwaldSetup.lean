import Verif.Model.EwaldSetup

/-! What the parameters of the Ewald summation are chosen for. -/

namespace N2P2

/-- The estimate of Kolafa and Perram for the error of a force if the sum in real space is cut off at
`r`: `q` is the largest charge, `e` is four times pi times epsilon, `V` the volume, `N` the number of atoms,
`eta` the width. The factors are those of the code. -/
noncomputable def realSpaceError (q e V : ℝ) (N : ℕ) (eta r : ℝ) : ℝ :=
  2 * q ^ 2 * √(N / V) / e * √(2 / r) * Real.exp (-(r / eta) ^ 2 / 2)

/-- The same for the sum in reciprocal space cut off at `k`. -/
noncomputable def kSpaceError (q e V : ℝ) (N : ℕ) (eta k : ℝ) : ℝ :=
  2 * q ^ 2 * √(N / V) / e * (√2 / (eta * √k)) * Real.exp (-(k * eta) ^ 2 / 2)

/-- All parameters are positive. -/
def EwaldParameters.Usable (p : EwaldParameters) : Prop := 0 < p.eta ∧ 0 < p.rCut ∧ 0 < p.kCut

/-- The same parameters if lengths are multiplied by `c`. -/
def EwaldParameters.InUnit (p p' : EwaldParameters) (c : ℝ) : Prop :=
  p'.eta = c * p.eta ∧ p'.rCut = c * p.rCut ∧ p.kCut = c * p'.kCut

/-- Structures (volume and number of atoms) handled one after the other, all without an error. -/
inductive EwaldSetup.Handles : EwaldSetup → List (ℝ × ℕ) → EwaldSetup → Prop
  | nil (E : EwaldSetup) : Handles E [] E
  | cons {E F G : EwaldSetup} {V : ℝ} {N : ℕ} {l : List (ℝ × ℕ)} (hV : 0 < V)
      (h : E.calculateParameters V N = (F, none)) (hl : Handles F l G) : Handles E ((V, N) :: l) G

end N2P2
