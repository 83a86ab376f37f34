import Verif.Model.Mode
import Verif.Model.Units
import Verif.Model.StructureFile
import Verif.Model.Settings

/-! Predictions for structures in files (Prediction.cpp) with a potential of the second generation, and
`Structure::reset`. -/

namespace N2P2

/-- Structure.cpp:1319-1354 `reset`. `k` is the size of the element map of the structure. Not touched:
`neighborListIsSorted`, `energyShort`, `energyElec`, `hasCharges`, `maxCutoffRadiusOverall`, `lambda`,
`hasAMatrix`, `A`. -/
def Structure.reset (s : Structure) (k : ℕ) : Structure :=
  { s with
    isPeriodic := false
    isTriclinic := false
    hasNeighborList := false
    hasSymmetryFunctions := false
    hasSymmetryFunctionDerivatives := false
    index := 0
    numAtoms := 0
    numElementsPresent := 0
    energy := 0
    energyRef := 0
    charge := 0
    chargeRef := 0
    volume := 0
    sampleType := .unknown
    comment := []
    pbc := 0
    box := 0
    invbox := 0
    numElements := k
    numAtomsPerElement := List.replicate k 0
    atoms := [] }

/-- Prediction.h and Mode.h: the members used. `offsets` are the elements' `getAtomicEnergyOffset`,
`mapSize` is the size of the element map of the member `structure`. -/
structure Prediction where
  mode : Mode
  emap : EMap
  offsets : List ℝ
  normalize : Bool
  units : ModeUnits
  structure' : Structure
  mapSize : ℕ

/-- Conversion with `Structure::toNormalizedUnits` if units are normalized. -/
noncomputable def Prediction.toNormalized (p : Prediction) (s : Structure) : Option Structure :=
  if p.normalize then
    s.toNormalizedUnits p.units.meanEnergy p.units.convEnergy p.units.convLength p.units.convCharge
  else some s

/-- Conversion with `Structure::toPhysicalUnits` if units are normalized. -/
noncomputable def Prediction.toPhysical (p : Prediction) (s : Structure) : Option Structure :=
  if p.normalize then
    s.toPhysicalUnits p.units.meanEnergy p.units.convEnergy p.units.convLength p.units.convCharge
  else some s

/-- Prediction.cpp:49-63 `readStructureFromFile` for a file with the given text (Structure.cpp:97-111;
a file which cannot be opened gives an exception). `none`: exception. -/
noncomputable def Prediction.readStructureFromFile (N : NumberText) (p : Prediction) (text : Str) :
    Option Prediction := do
  let s := (p.structure'.reset p.mapSize).setElementMap p.emap
  let r ← s.readFromFile N p.emap (readLines text)
  let s ← removeEnergyOffset p.offsets r.1 true
  let s ← p.toNormalized s
  some { p with
    structure' := s
    mapSize := p.emap.size }

/-- Prediction.cpp:65-76 `predict`. -/
noncomputable def Prediction.predict (srt : List Neighbor → List Neighbor) (p : Prediction) :
    Option Prediction := do
  let r ← p.mode.evaluateNNP srt p.structure' true true
  let s ← p.toPhysical r.2
  let s ← addEnergyOffset p.offsets s false
  let s ← addEnergyOffset p.offsets s true
  some { p with
    mode := r.1
    structure' := s }

end N2P2
