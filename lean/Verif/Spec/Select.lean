import Verif.Model.Select
import Verif.Spec.DataFile

/-! What is expected from the selection of structures. -/

namespace N2P2

/-- The structure in position `k` (from 0) is wanted: every `n`-th, or a random number below the ratio. -/
def SelectMode.Wants : SelectMode → ℕ → Prop
  | .interval n, k => n ∣ k
  | .random ratio rand randMax, k => (rand k : ℝ) ≤ ratio * randMax

/-- Sensible arguments: the interval is a positive `int`, random numbers have a positive maximum. -/
def SelectMode.Sensible : SelectMode → Prop
  | .interval n => 0 < n ∧ n < 2 ^ 31
  | .random _ rand randMax => 0 < randMax ∧ ∀ k, rand k ≤ randMax

open Classical in
/-- The members of the list in wanted positions. -/
noncomputable def picked {α : Type} (wants : ℕ → Prop) (L : List α) : List α :=
  (L.zipIdx.filter fun x => decide (wants x.2)).map Prod.fst

end N2P2
