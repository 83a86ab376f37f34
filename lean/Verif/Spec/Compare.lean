import Verif.Model.Compare
import Verif.Spec.Sensitivity
import Verif.Spec.StructureFile

/-! What is expected from a comparison of two potentials. -/

namespace N2P2

/-- Mean of absolute values. -/
noncomputable def meanAbs (vs : List ℝ) : ℝ := (vs.map fun v => |v|).sum / vs.length

/-- All components of the reference forces. -/
def Structure.refComponents (s : Structure) : List ℝ := s.atoms.flatMap fun a => [a.fRef 0, a.fRef 1, a.fRef 2]

/-- The structure with other reference forces. -/
def Structure.withForces (s : Structure) (g : Atom → Vec3) : Structure :=
  { s with atoms := s.atoms.map fun a => { a with fRef := g a } }

/-- The number `n` is the second word of the comment. -/
def WarningsNoted (s : Structure) (n : ℕ) : Prop := ∃ w rest, s.comment = w ++ ' ' :: natText n ++ rest ∧
  ' ' ∉ w ∧ (rest = [] ∨ ∃ t, rest = ' ' :: t)

/-- Reasons for selecting a structure with `n` warnings. A threshold which is not positive is not used. -/
def ManyWarnings (T : CompareLimits) (n : ℕ) : Prop := 0 < T.ew ∧ T.ew ≤ n
def EnergyDiffers (T : CompareLimits) (s : Structure) : Prop :=
  0 < T.energy ∧ T.energy * s.atoms.length < |s.energyRef|
def ForcesDiffer (T : CompareLimits) (s : Structure) : Prop := 0 < T.force ∧ ∃ f ∈ s.refComponents, T.force < |f|

/-- Any reason. -/
def Disagrees (T : CompareLimits) (p : Structure × ℕ) : Prop :=
  ManyWarnings T p.2 ∨ EnergyDiffers T p.1 ∨ ForcesDiffer T p.1

open Classical in
/-- 1 for yes, 0 for no. -/
noncomputable def yesNo (p : Prop) : Str := if p then ['1'] else ['0']

open Classical in
/-- Columns of `select.out` for structure number `k`. Force differences are only shown if there is a threshold. -/
noncomputable def selectRow (N : NumberText) (T : CompareLimits) (p : Structure × ℕ) (k : ℕ) : List Str :=
  [natText k, yesNo (Disagrees T p), yesNo (ManyWarnings T p.2), yesNo (EnergyDiffers T p.1),
    yesNo (ForcesDiffer T p.1), natText p.2, natText p.1.atoms.length,
    N.print (p.1.energyRef / p.1.atoms.length),
    natText (if 0 < T.force then p.1.refComponents.countP fun f => T.force < |f| else 0),
    N.print (if 0 < T.force then meanAbs p.1.refComponents else 0),
    N.print (if 0 < T.force then largestAbs p.1.refComponents else 0)]

/-- `u` is structure `s` of the first potential with the differences to the results `t` of the second one. -/
structure Difference (s t u : Structure) : Prop where
  energy : u.energyRef = s.energy - t.energy
  forces : u.atoms = List.zipWith (fun a b : Atom => { a with fRef := fun i => a.f i - b.f i }) s.atoms t.atoms
  warnings : WarningsNoted u (s.numElementsPresent + t.numElementsPresent)
  comment : u.comment =
    "EWSUM ".toList ++ natText (s.numElementsPresent + t.numElementsPresent) ++ ' ' :: s.comment
  rest : { u with
    energyRef := s.energyRef
    atoms := s.atoms
    comment := s.comment
    numElementsPresent := s.numElementsPresent } = s

end N2P2
