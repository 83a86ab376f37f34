import Verif.Model.CheckForces
import Verif.Spec.Prediction
import Verif.Spec.OwnImages
import Mathlib.Analysis.Calculus.Deriv.Basic

/-! What is expected from nnp-checkf. -/

namespace N2P2

/-- Atom `i` displaced by `t` along the axis `j`. -/
noncomputable def Structure.along (u : Structure) (i : ℕ) (j : Fin 3) (t : ℝ) : Structure :=
  u.displace i (Pi.single j t)

/-- The file with the forces of `k` atoms: `F` analytic, `G` numeric. -/
def forceTable (k : ℕ) (F G : ℕ → Fin 3 → ℝ) : List CheckRow :=
  (List.range k).flatMap fun i => (List.finRange 3).map fun j : Fin 3 => ⟨i, j.val, F i j, G i j⟩

/-- The potential can be evaluated for the structure and all displaced copies: proper box, no atoms at the same place, triplets in
order, no displacement by billions of boxes. -/
structure Checkable (q : Prediction) (P : Potential) (modes : List Mode) (u : Structure) (delta : ℝ) : Prop where
  original : ∀ M ∈ modes, Prediction.Suits { q with mode := M } P u
  apart : ∀ i < u.atoms.length, ∀ j, ∀ t, |t| = |delta| → (u.along i j t).Apart
  triplets : ∀ i < u.atoms.length, ∀ j, ∀ t, |t| = |delta| → ∀ M ∈ modes,
    P.TripletsOK M.maxCutoffRadius ((u.along i j t).scaled q.lengthUnit)
  near : u.isPeriodic = true → ∀ i < u.atoms.length, ∀ j, ∀ t, |t| = |delta| →
    ∃ f, (u.along i j t).position i = cartesian u.box f ∧ ∀ k, -2147483649 < f k ∧ f k < 2147483648

/-- All processes were set up for the potential `P` with `n` elements. -/
structure CheckReady (q : Prediction) (P : Potential) (n : ℕ) (modes : List Mode) : Prop where
  processes : modes ≠ []
  setup : ∀ M ∈ modes, M.SetUp P n
  emap : q.emap.size = n
  energyUnit : q.energyUnit ≠ 0
  lengthUnit : q.lengthUnit ≠ 0

/-- The result for the structure `u`: one line for each atom and axis with the analytic force, which is minus the derivative of the
energy wherever the potential is differentiable (see `C75_own_images` for atoms next to their own images), and the central difference
of the energy. `c`: cutoff radius of the neighbour lists. -/
def ForcesChecked (q : Prediction) (P : Potential) (c : ℝ) (u : Structure) (delta : ℝ) (res : CheckResult) : Prop :=
  ∃ F : ℕ → Fin 3 → ℝ,
    (∀ G : ℕ → Fin 3 → ℝ, (∀ i < u.atoms.length, ∀ j, ∃ R Xp Xm, P.Within R u ∧
      q.IsEnergy P R (u.along i j delta) Xp ∧ q.IsEnergy P R (u.along i j (-delta)) Xm ∧
      G i j = -((Xp - Xm) / (2 * delta))) → res.rows = forceTable u.atoms.length F G) ∧
    (P.Smooth c (u.scaled q.lengthUnit) → P.NoOwnImages (u.scaled q.lengthUnit) →
      ∀ i < u.atoms.length, ∀ j R, P.Within R u → ∀ X : ℝ → ℝ, (∀ t, q.IsEnergy P R (u.along i j t) (X t)) →
      HasDerivAt X (-F i j) 0)

end N2P2
