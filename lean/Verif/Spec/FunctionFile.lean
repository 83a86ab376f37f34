import Verif.Model.FunctionFile
import Verif.Spec.DataFile
import Verif.Spec.Histogram

/-! What is expected from the file with symmetry functions. -/

namespace N2P2

/-- Lines for a structure with the given energy and atoms (element and values of symmetry functions). -/
noncomputable def functionRows (N : NumberText) (Z : ℕ → ℕ) (energy : ℝ) (atoms : List (ℕ × List ℝ)) :
    List (List Str) :=
  [natText atoms.length] :: atoms.map (fun a => natText (Z a.1) :: a.2.map N.print) ++
    [[N.print 0, N.print (energy / atoms.length), N.print (energy / atoms.length), N.print 0]]

/-- Structures are stored with increasing numbers on every process. -/
def IncreasingIndex (procs : List (List Structure)) : Prop :=
  ∀ ss ∈ procs, (ss.map Structure.index).Pairwise (· < ·)

/-- `w` is `v` in the units used by the program. -/
def InUnits (U : ModeUnits) (normalize : Bool) (v w : Structure) : Prop :=
  if normalize then v.toNormalizedUnits U.meanEnergy U.convEnergy U.convLength U.convCharge = some w
  else v = w

end N2P2
