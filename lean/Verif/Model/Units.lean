import Verif.Model.Structure
import Mathlib.Algebra.BigOperators.Group.List.Basic

/-! Unit conversion (Atom.cpp, Structure.cpp, Mode.cpp) and energy offsets (Mode.cpp). -/

namespace N2P2

/-- Apply `g` to the first `n` elements. -/
def onPrefix {α : Type} (n : Nat) (g : α → α) (l : List α) : List α :=
  (l.take n).map g ++ l.drop n

/-- The `at` calls of the conversion functions succeed (Atom.cpp:90-102 and 135-147). -/
def Atom.derivativesAllocated (a : Atom) : Bool :=
  !a.hasSymmetryFunctionDerivatives ||
    (decide (a.numSymmetryFunctions + (if a.useChargeNeuron then 1 else 0) ≤ a.dEdG.length) &&
      decide (a.numSymmetryFunctions ≤ a.dGdr.length))

/-- Atom.cpp:78-121 `toNormalizedUnits`; `none` if an `at` throws. The loop over neighbours
rescales the *atom's* `dGdr` once per neighbour (line 114). -/
noncomputable def Atom.toNormalizedUnits (a : Atom) (cE cL cQ : ℝ) : Option Atom :=
  if a.derivativesAllocated then
    let dEdG := if a.hasSymmetryFunctionDerivatives then
        (let l := onPrefix a.numSymmetryFunctions (· * cE) a.dEdG
         if a.useChargeNeuron then l.modify a.numSymmetryFunctions (· * (cE / cQ)) else l)
      else a.dEdG
    let dGdr := if a.hasSymmetryFunctionDerivatives then
        onPrefix a.numSymmetryFunctions (fun v => v.div cL) a.dGdr
      else a.dGdr
    let dGdr := if a.hasNeighborList && a.hasSymmetryFunctionDerivatives then
        a.neighbors.foldl (fun g _ => g.map (fun v => Vec3.div v cL)) dGdr
      else dGdr
    some { a with
      energy := a.energy * cE
      r := cL • a.r
      f := (cE / cL) • a.f
      fRef := (cE / cL) • a.fRef
      charge := a.charge * cQ
      chargeRef := a.chargeRef * cQ
      dEdG := dEdG
      dGdr := dGdr
      neighbors := if a.hasNeighborList then
          a.neighbors.map (fun n => { n with d := n.d * cL, dr := cL • n.dr })
        else a.neighbors }
  else none

/-- Atom.cpp:123-166 `toPhysicalUnits`; `none` if an `at` throws. -/
noncomputable def Atom.toPhysicalUnits (a : Atom) (cE cL cQ : ℝ) : Option Atom :=
  if a.derivativesAllocated then
    let dEdG := if a.hasSymmetryFunctionDerivatives then
        (let l := onPrefix a.numSymmetryFunctions (· / cE) a.dEdG
         if a.useChargeNeuron then l.modify a.numSymmetryFunctions (· / (cE / cQ)) else l)
      else a.dEdG
    let dGdr := if a.hasSymmetryFunctionDerivatives then
        onPrefix a.numSymmetryFunctions (fun v => cL • v) a.dGdr
      else a.dGdr
    let dGdr := if a.hasNeighborList && a.hasSymmetryFunctionDerivatives then
        a.neighbors.foldl (fun g _ => g.map (fun v => cL • v)) dGdr
      else dGdr
    some { a with
      energy := a.energy / cE
      r := a.r.div cL
      f := a.f.div (cE / cL)
      fRef := a.fRef.div (cE / cL)
      charge := a.charge / cQ
      chargeRef := a.chargeRef / cQ
      dEdG := dEdG
      dGdr := dGdr
      neighbors := if a.hasNeighborList then
          a.neighbors.map (fun n => { n with d := n.d / cL, dr := n.dr.div cL })
        else a.neighbors }
  else none

/-- Structure.cpp:1249-1276 `toNormalizedUnits`. -/
noncomputable def Structure.toNormalizedUnits (s : Structure) (mE cE cL cQ : ℝ) :
    Option Structure :=
  (s.atoms.mapM (fun a : Atom => a.toNormalizedUnits cE cL cQ)).map fun atoms =>
    { s with
      box := if s.isPeriodic then fun i => cL • s.box i else s.box
      invbox := if s.isPeriodic then fun i => (s.invbox i).div cL else s.invbox
      energyRef := (s.energyRef - s.numAtoms * mE) * cE
      energy := (s.energy - s.numAtoms * mE) * cE
      chargeRef := s.chargeRef * cQ
      charge := s.charge * cQ
      volume := s.volume * (cL * cL * cL)
      atoms := atoms }

/-- Structure.cpp:1278-1305 `toPhysicalUnits`. -/
noncomputable def Structure.toPhysicalUnits (s : Structure) (mE cE cL cQ : ℝ) :
    Option Structure :=
  (s.atoms.mapM (fun a : Atom => a.toPhysicalUnits cE cL cQ)).map fun atoms =>
    { s with
      box := if s.isPeriodic then fun i => (s.box i).div cL else s.box
      invbox := if s.isPeriodic then fun i => cL • s.invbox i else s.invbox
      energyRef := s.energyRef / cE + s.numAtoms * mE
      energy := s.energy / cE + s.numAtoms * mE
      chargeRef := s.chargeRef / cQ
      charge := s.charge / cQ
      volume := s.volume / (cL * cL * cL)
      atoms := atoms }

/-! ### Mode.cpp -/

/-- Mode.cpp:2018-2035 `addEnergyOffset`; `offs` are the elements' `getAtomicEnergyOffset`.
`none` if `numAtomsPerElement.at` throws. -/
noncomputable def addEnergyOffset (offs : List ℝ) (s : Structure) (ref : Bool) :
    Option Structure :=
  if s.numAtomsPerElement.length < offs.length then none
  else if ref then
    some { s with energyRef :=
      (List.zip s.numAtomsPerElement offs).foldl (fun e p => e + (p.1 : ℝ) * p.2) s.energyRef }
  else
    some { s with energy :=
      (List.zip s.numAtomsPerElement offs).foldl (fun e p => e + (p.1 : ℝ) * p.2) s.energy }

/-- Mode.cpp:2037-2054 `removeEnergyOffset`. -/
noncomputable def removeEnergyOffset (offs : List ℝ) (s : Structure) (ref : Bool) :
    Option Structure :=
  if s.numAtomsPerElement.length < offs.length then none
  else if ref then
    some { s with energyRef :=
      (List.zip s.numAtomsPerElement offs).foldl (fun e p => e - (p.1 : ℝ) * p.2) s.energyRef }
  else
    some { s with energy :=
      (List.zip s.numAtomsPerElement offs).foldl (fun e p => e - (p.1 : ℝ) * p.2) s.energy }

/-- Mode.cpp:2056-2067 `getEnergyOffset`. -/
noncomputable def getEnergyOffset (offs : List ℝ) (s : Structure) : Option ℝ :=
  if s.numAtomsPerElement.length < offs.length then none
  else some ((List.zip s.numAtomsPerElement offs).foldl (fun e p => e + (p.1 : ℝ) * p.2) 0)

/-- Mode.cpp:2069-2082 `getEnergyWithOffset`. -/
noncomputable def getEnergyWithOffset (offs : List ℝ) (s : Structure) (ref : Bool) : Option ℝ :=
  if s.numAtomsPerElement.length < offs.length then none
  else some ((List.zip s.numAtomsPerElement offs).foldl (fun e p => e + (p.1 : ℝ) * p.2)
    (if ref then s.energyRef else s.energy))

/-- `Mode` members used by the conversions. -/
structure ModeUnits where
  meanEnergy : ℝ
  convEnergy : ℝ
  convLength : ℝ
  convCharge : ℝ

/-- Mode.cpp:2084-2094 `normalized`; `none` is the unknown-property exception. -/
noncomputable def ModeUnits.normalized (m : ModeUnits) (property : String) (v : ℝ) : Option ℝ :=
  if property = "energy" then some (v * m.convEnergy)
  else if property = "force" then some (v * m.convEnergy / m.convLength)
  else if property = "charge" then some (v * m.convCharge)
  else if property = "hardness" then some (v * m.convEnergy / m.convCharge ^ 2)
  else if property = "negativity" then some (v * m.convEnergy / m.convCharge)
  else none

/-- Mode.cpp:2110-2120 `physical`. -/
noncomputable def ModeUnits.physical (m : ModeUnits) (property : String) (v : ℝ) : Option ℝ :=
  if property = "energy" then some (v / m.convEnergy)
  else if property = "force" then some (v * m.convLength / m.convEnergy)
  else if property = "charge" then some (v / m.convCharge)
  else if property = "hardness" then some (v / (m.convEnergy / m.convCharge ^ 2))
  else if property = "negativity" then some (v * m.convCharge / m.convEnergy)
  else none

/-- Mode.cpp:2096-2108 `normalizedEnergy`. -/
noncomputable def ModeUnits.normalizedEnergy (m : ModeUnits) (s : Structure) (ref : Bool) : ℝ :=
  if ref then (s.energyRef - s.numAtoms * m.meanEnergy) * m.convEnergy
  else (s.energy - s.numAtoms * m.meanEnergy) * m.convEnergy

/-- Mode.cpp:2122-2133 `physicalEnergy`. -/
noncomputable def ModeUnits.physicalEnergy (m : ModeUnits) (s : Structure) (ref : Bool) : ℝ :=
  if ref then s.energyRef / m.convEnergy + s.numAtoms * m.meanEnergy
  else s.energy / m.convEnergy + s.numAtoms * m.meanEnergy

end N2P2
