import Verif.Model.Prediction
import Verif.Spec.Mode
import Verif.Spec.StructureFile

/-! What is expected from a prediction: energy and forces in physical units. -/

namespace N2P2

/-- The same arrangement with all lengths multiplied by `c`. -/
def Structure.scaled (c : ℝ) (s : Structure) : Structure :=
  { s with
    box := if s.isPeriodic then fun k => c • s.box k else s.box
    atoms := s.atoms.map fun a => { a with r := c • a.r } }

namespace Prediction

/-- One physical unit of length in units of the potential. -/
noncomputable def lengthUnit (p : Prediction) : ℝ := if p.normalize then p.units.convLength else 1

/-- One physical unit of energy in units of the potential. -/
noncomputable def energyUnit (p : Prediction) : ℝ := if p.normalize then p.units.convEnergy else 1

/-- Energy which normalization removes from each atom. -/
noncomputable def meanEnergy (p : Prediction) : ℝ := if p.normalize then p.units.meanEnergy else 0

/-- Physical energy of an atom which the potential does not describe. -/
noncomputable def baseEnergy (p : Prediction) (e : ℕ) : ℝ := p.meanEnergy + p.offsets.getD e 0

/-- `X` is the physical energy of the structure `u` (in physical units): the potential gives the energy of
the arrangement in its own units, atoms add their base energy. -/
def IsEnergy (p : Prediction) (P : Potential) (R : ℝ) (u : Structure) (X : ℝ) : Prop :=
  ∃ E, N2P2.IsEnergy P R (u.scaled p.lengthUnit) E ∧
    X = E / p.energyUnit + ∑ i ∈ Finset.range u.atoms.length, p.baseEnergy (u.elementOf i)

/-- The object was set up for the potential `P` with `n` elements. Its structure may have any past with
potentials of the second generation, in which the electrostatic energy and the overall cutoff radius keep
the initial value. -/
structure Ready (p : Prediction) (P : Potential) (n : ℕ) : Prop where
  setup : p.mode.SetUp P n
  emap : p.emap.size = n
  offsets : p.offsets.length = n
  energyUnit : p.energyUnit ≠ 0
  lengthUnit : p.lengthUnit ≠ 0
  elec : p.structure'.energyElec = 0
  radius : p.structure'.maxCutoffRadiusOverall = 0

/-- The potential can be evaluated for the structure: proper box if periodic, no coinciding atoms, triplets
in order. -/
structure Suits (p : Prediction) (P : Potential) (u : Structure) : Prop where
  box : u.isPeriodic = true → NonSingular u.box
  apart : u.Apart
  triplets : P.TripletsOK p.mode.maxCutoffRadius (u.scaled p.lengthUnit)

/-- `v` holds the same atoms and reference data as `u`. -/
structure SameData (u v : Structure) : Prop where
  periodic : v.isPeriodic = u.isPeriodic
  box : v.box = u.box
  energyRef : v.energyRef = u.energyRef
  length : v.atoms.length = u.atoms.length
  atom : ∀ (i : ℕ) (a : Atom), u.atoms[i]? = some a → ∃ b, v.atoms[i]? = some b ∧ b.r = a.r ∧
    b.element = a.element ∧ b.fRef = a.fRef ∧ b.index = a.index ∧ b.tag = a.tag

end Prediction

end N2P2
