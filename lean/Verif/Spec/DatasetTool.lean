import Verif.Model.DatasetTool
import Verif.Spec.LearningCurve
import Verif.Spec.StructureFile

/-! What is expected from the program nnp-dataset. -/

namespace N2P2

open Training (Key)

namespace DatasetTool

/-- Physical units in units of the potential. -/
noncomputable def energyUnit (D : DatasetTool) : ℝ := if D.normalize then D.units.convEnergy else 1
noncomputable def lengthUnit (D : DatasetTool) : ℝ := if D.normalize then D.units.convLength else 1
noncomputable def chargeUnit (D : DatasetTool) : ℝ := if D.normalize then D.units.convCharge else 1

/-- Physical energy of the atoms which the potential does not describe: energies of the free atoms, and the mean energy removed
by normalization. -/
noncomputable def baseEnergy (D : DatasetTool) (s : Structure) : ℝ :=
  (s.atoms.map fun a => (if D.normalize then D.units.meanEnergy else 0) + D.offs.getD a.element 0).sum

/-- `s` is the structure `r` in the units of the potential. -/
structure Normalized (D : DatasetTool) (r s : Structure) : Prop where
  index : s.index = r.index
  comment : s.comment = r.comment
  numAtoms : s.numAtoms = r.numAtoms
  counts : s.numAtomsPerElement = r.numAtomsPerElement
  periodic : s.isPeriodic = r.isPeriodic
  box : s.isPeriodic = true → ∀ k, s.box k = D.lengthUnit • r.box k
  energyRef : s.energyRef = (r.energyRef - D.baseEnergy r) * D.energyUnit
  atoms : List.Forall₂ (fun a b : Atom => b.element = a.element ∧ b.index = a.index ∧
    b.indexStructure = a.indexStructure ∧ b.r = D.lengthUnit • a.r ∧
    b.fRef = (D.energyUnit / D.lengthUnit) • a.fRef) r.atoms s.atoms

end DatasetTool

/-- `v` agrees with `s` except for what is calculated by evaluation. -/
structure Structure.KeptBy (s v : Structure) : Prop where
  index : v.index = s.index
  comment : v.comment = s.comment
  numAtoms : v.numAtoms = s.numAtoms
  counts : v.numAtomsPerElement = s.numAtomsPerElement
  periodic : v.isPeriodic = s.isPeriodic
  box : v.box = s.box
  energyRef : v.energyRef = s.energyRef
  atoms : List.Forall₂ (fun a b : Atom => b.element = a.element ∧ b.index = a.index ∧
    b.indexStructure = a.indexStructure ∧ b.r = a.r ∧ b.fRef = a.fRef) s.atoms v.atoms

namespace DatasetTool

/-- The structure `r` with calculated values as in `v`, in physical units and with the base energies. -/
noncomputable def predicted (D : DatasetTool) (r v : Structure) : Structure :=
  { r with
    energy := v.energy / D.energyUnit + D.baseEnergy r
    charge := v.charge / D.chargeUnit
    atoms := List.zipWith (fun a b : Atom => { a with
      f := fun i => b.f i * D.lengthUnit / D.energyUnit
      charge := b.charge / D.chargeUnit }) r.atoms v.atoms }

/-- The structure `r` of the data set, of which `v` is the evaluation. -/
def Evaluation (D : DatasetTool) (r v : Structure) : Prop :=
  ∃ s, D.Normalized r s ∧ D.evaluate s = some v ∧ s.KeptBy v

/-- A structure as it is read: with atoms, which are counted, and no results so far. Numbers are of type `size_t`. -/
structure Input (D : DatasetTool) (r : Structure) : Prop where
  atoms : 0 < r.atoms.length
  numAtoms : r.numAtoms = r.atoms.length
  size : r.index < 2 ^ 64 ∧ r.numAtoms < 2 ^ 64 ∧ ∀ a ∈ r.atoms, a.index < 2 ^ 64 ∧ a.indexStructure < 2 ^ 64
  counts : r.numAtomsPerElement = (List.range D.m.size).map fun e => r.atoms.countP (fun a => a.element = e)
  element : ∀ a ∈ r.atoms, a.element < D.m.size
  fresh : ∀ a ∈ r.atoms, a.hasSymmetryFunctionDerivatives = false
  evaluates : ∀ s, D.Normalized r s → ∃ v, D.evaluate s = some v ∧ s.KeptBy v

/-- The program is set up: an offset for every element, and positive units. -/
structure Ready (D : DatasetTool) : Prop where
  numbers : D.N.Data
  elements : D.m.Sane
  offsets : D.offs.length = D.m.size
  units : D.normalize = true → D.units.Positive

/-- Line of energy.comp for the structure `p` in physical units, which is `v` in units of the potential. -/
noncomputable def energyWords (D : DatasetTool) (p v : Structure) : List Str :=
  [natText p.index, natText p.atoms.length, D.N.print p.energyRef, D.N.print p.energy] ++
    if D.normalize then [D.N.print v.energyRef, D.N.print v.energy] else []

/-- Lines of forces.comp for an atom. -/
noncomputable def forceWords (D : DatasetTool) (a b : Atom) : List (List Str) :=
  [0, 1, 2].map fun i : Fin 3 =>
    [natText a.indexStructure, natText a.index, D.N.print (a.fRef i), D.N.print (a.f i)] ++
      if D.normalize then [D.N.print (b.fRef i), D.N.print (b.f i)] else []

/-- Lines of forces.comp for all atoms of a structure. -/
noncomputable def allForceWords (D : DatasetTool) (p v : Structure) : List (List Str) :=
  (List.zipWith D.forceWords p.atoms v.atoms).flatten

end DatasetTool

/-- The structures read one after the other are `ss`, up to the precision of numbers. -/
def ReadsAs (N : NumberText) (m : EMap) : ℕ → List Str → List Structure → Prop
  | _, lines, [] => lines = []
  | k, lines, s :: ss => ∃ u rest, (Structure.forReading m k).readFromFile N m lines = some (u, rest) ∧
      s.FileCopy N m false k u ∧ ReadsAs N m (k + 1) rest ss

end N2P2
