import Verif.Model.Scaling
import Mathlib.Order.Interval.Set.Defs

/-! Specification vocabulary for extrapolation warnings and statistics. -/

namespace N2P2

/-- The part of a history after its last call satisfying `p`. -/
def sinceLast {α : Type} (p : α → Bool) (h : List α) : List α :=
  (h.reverse.takeWhile (fun e => !p e)).reverse

/-- Calls that reset the collected statistics. -/
def StatEvent.clearsStatistics : StatEvent → Bool
  | .resetStatistics => true
  | .clear => true
  | _ => false

/-- Calls that reset the collected warnings. -/
def StatEvent.clearsWarnings : StatEvent → Bool
  | .resetEW => true
  | .clear => true
  | _ => false

/-- The symmetry functions and their values processed by a call (none if the atom is refused). -/
def StatEvent.processed (el : StatElement) : StatEvent → List (SymFncScaling × ℝ)
  | .update a =>
    if a.element = el.index ∧ a.numSymmetryFunctions = el.symmetryFunctions.length then
      el.symmetryFunctions.zip a.G
    else []
  | _ => []

/-- The unscaled value lies outside the training range widened by `eps`. -/
def Outside (eps : ℝ) (p : SymFncScaling × ℝ) : Prop :=
  p.1.unscale p.2 ∉ Set.Icc (p.1.Gmin - eps) (p.1.Gmax + eps)

/-- Every processed atom has as many symmetry function values as it says. -/
def StatEvent.WellFormed : StatEvent → Prop
  | .update a => a.G.length = a.numSymmetryFunctions
  | _ => True

end N2P2
