import Verif.Model.Mode
import Verif.Model.Units

/-! The LAMMPS interface (libnnpif/LAMMPS/InterfaceLammps.cpp) and the pair style which calls it
(interface/LAMMPS/src/ML-HDNNP/pair_hdnnp.cpp) for potentials of the second generation, build with
`N2P2_NO_SF_GROUPS`. Extrapolation warnings, log output and the virial are left out. -/

namespace N2P2

/-- InterfaceLammps.h and Mode.h: the members used. `typeToElement t` is `none` if `ignoreType[t]` is set,
otherwise `mapTypeToElement[t]` (InterfaceLammps.cpp:220-240: exactly the types without an entry in the map are
ignored). `indexMap` has `none` for the largest number of type `size_t`. `offsets` are the elements'
`getAtomicEnergyOffset`. -/
structure Lammps where
  mode : Mode
  offsets : List ℝ
  normalize : Bool
  units : ModeUnits
  cflength : ℝ
  cfenergy : ℝ
  typeToElement : ℕ → Option ℕ
  myRank : ℕ
  structure' : Structure
  indexMap : List (Option ℕ)

/-- The arrays of LAMMPS on one process: positions, types and tags of local atoms (the first `nlocal`) and
ghost atoms, and the neighbour list (indices masked with `NEIGHMASK`). -/
structure Domain where
  nlocal : ℕ
  x : List Vec3
  type : List ℕ
  tag : List ℤ
  ilist : List ℕ
  firstneigh : ℕ → List ℕ

namespace Lammps

/-- InterfaceLammps.cpp:287-302: one atom of the loop in `setLocalAtoms`. `none`: beyond the end of an
array. -/
def addLocalAtom (type : List ℕ) (L : Lammps) (i : ℕ) : Option Lammps := do
  let t ← type[i]?
  match L.typeToElement t with
  | none => some L
  | some e =>
    let s := L.structure'
    let c ← s.numAtomsPerElement[e]?
    if L.indexMap.length ≤ i then none
    else some { L with
      indexMap := L.indexMap.set i (some s.numAtoms)
      structure' := { s with
        numAtoms := s.numAtoms + 1
        numAtomsPerElement := s.numAtomsPerElement.set e (c + 1)
        atoms := s.atoms ++ [{ Atom.init with
          index := i
          indexStructure := L.myRank
          element := e
          numNeighborsPerElement := List.replicate L.mode.elements.length 0 }] } }

/-- InterfaceLammps.cpp:267-305 `setLocalAtoms`. -/
def setLocalAtoms (L : Lammps) (numAtomsLocal : ℕ) (type : List ℕ) : Option Lammps :=
  let s := L.structure'
  let k := L.mode.elements.length
  if s.numAtomsPerElement.length < k then none
  else (List.range numAtomsLocal).foldlM (addLocalAtom type) { L with
    indexMap := List.replicate numAtomsLocal none
    structure' := { s with
      numAtomsPerElement := List.replicate k 0 ++ s.numAtomsPerElement.drop k
      index := L.myRank
      numAtoms := 0
      hasNeighborList := false
      hasSymmetryFunctions := false
      hasSymmetryFunctionDerivatives := false
      energy := 0
      atoms := [] } }

/-- The factor for lengths: `cflength`, and `convLength` if units are normalized. -/
noncomputable def length (L : Lammps) (v : ℝ) : ℝ :=
  if L.normalize then v * L.cflength * L.units.convLength else v * L.cflength

/-- InterfaceLammps.cpp:307-322 `setLocalAtomPositions`: entry `i` of the array for atom `i` of the structure. -/
noncomputable def setLocalAtomPositions (L : Lammps) (x : List Vec3) : Option Lammps := do
  let atoms ← L.structure'.atoms.zipIdx.mapM fun p => do
    let v ← x[p.2]?
    some { p.1 with r := fun k => L.length (v k) }
  some { L with structure' := { L.structure' with atoms := atoms } }

/-- InterfaceLammps.cpp:324-343 `setLocalTags`: entry `i` of the array for atom `i` of the structure. -/
def setLocalTags (L : Lammps) (tag : List ℤ) : Option Lammps := do
  let atoms ← L.structure'.atoms.zipIdx.mapM fun p => do
    let t ← tag[p.2]?
    some { p.1 with tag := t }
  some { L with structure' := { L.structure' with atoms := atoms } }

/-- InterfaceLammps.cpp:405-440 `addNeighbor`. `none`: `at` out of range. -/
noncomputable def addNeighbor (L : Lammps) (i j : ℕ) (tag : ℤ) (type : ℕ) (dr : Vec3) (d2 : ℝ) :
    Option Lammps :=
  match L.typeToElement type with
  | none => some L
  | some e => do
    match ← L.indexMap[i]? with
    | none => some L
    | some k =>
      let a ← L.structure'.atoms[k]?
      let c ← a.numNeighborsPerElement[e]?
      let a' : Atom := { a with
        numNeighbors := a.numNeighbors + 1
        numNeighborsPerElement := a.numNeighborsPerElement.set e (c + 1)
        neighbors := a.neighbors ++ [{
          index := j
          tag := tag
          element := e
          d := L.length (Real.sqrt d2)
          dr := fun k => L.length (dr k)
          cache := []
          dGdr := [] }] }
      some { L with structure' := { L.structure' with atoms := L.structure'.atoms.set k a' } }

/-- InterfaceLammps.cpp:463-486 `process`. -/
noncomputable def process (L : Lammps) : Option Lammps := do
  let s ← L.mode.calculateSymmetryFunctions L.structure' true
  let r ← calculateAtomicNeuralNetworks L.mode.elements s.atoms true
  let s := ({ s with atoms := r.2 } : Structure).calculateEnergy
  let s := if L.normalize then { s with energy := L.units.physicalEnergy s false } else s
  let s ← addEnergyOffset L.offsets s false
  some { L with
    mode := { L.mode with elements := r.1 }
    structure' := s }

/-- InterfaceLammps.cpp:488-492 `getMaxCutoffRadius`. -/
noncomputable def getMaxCutoffRadius (L : Lammps) : ℝ :=
  if L.normalize then L.mode.maxCutoffRadius / L.units.convLength / L.cflength
  else L.mode.maxCutoffRadius / L.cflength

/-- InterfaceLammps.cpp:509-512 `getEnergy`. -/
noncomputable def getEnergy (L : Lammps) : ℝ := L.structure'.energy / L.cfenergy

/-- InterfaceLammps.cpp:514-529 `getAtomicEnergy`. `none`: `at` out of range. -/
noncomputable def getAtomicEnergy (L : Lammps) (index : ℕ) : Option ℝ := do
  let a ← L.structure'.atoms[index]?
  let o ← L.offsets[a.element]?
  if L.normalize then
    let v ← L.units.physical "energy" a.energy
    some ((v + L.units.meanEnergy + o) / L.cfenergy)
  else some ((a.energy + o) / L.cfenergy)

/-- InterfaceLammps.cpp:786-791 `add3DVecToArray` for entry `i`. -/
noncomputable def add3DVec (F : List Vec3) (i : ℕ) (v : Vec3) : Option (List Vec3) := do
  let f ← F[i]?
  some (F.set i (f + v))

/-- InterfaceLammps.cpp:546-579: the loop body of `getForces` for one atom. `q` is `cfforce * convForce`. -/
noncomputable def addForces (M : Mode) (q : ℝ) (F : List Vec3) (a : Atom) : Option (List Vec3) := do
  let f ← a.calculateSelfForceShort
  let F ← add3DVec F a.index (q • f)
  let e ← M.elements[a.element]?
  let num := a.getStoredMinNumNeighbors M.maxCutoffRadius
  if a.neighbors.length < num then none
  else (a.neighbors.take num).foldlM (fun F n => do
    let f ← a.calculatePairForceShort n e.symmetryFunctionTable
    add3DVec F n.index (q • f)) F

/-- InterfaceLammps.cpp:531-613 `getForces` for the second generation. -/
noncomputable def getForces (L : Lammps) (F : List Vec3) : Option (List Vec3) :=
  let cfforce := L.cflength / L.cfenergy
  let convForce := if L.normalize then L.units.convLength / L.units.convEnergy else 1
  L.structure'.atoms.foldlM (addForces L.mode (cfforce * convForce)) F

open Classical in
/-- pair_hdnnp.cpp:281-288: neighbour `j` of atom `i`. -/
noncomputable def transferNeighbor (D : Domain) (rc2 : ℝ) (i : ℕ) (L : Lammps) (j : ℕ) :
    Option Lammps := do
  let xi ← D.x[i]?
  let xj ← D.x[j]?
  let dr := xi - xj
  let d2 := dr 0 * dr 0 + dr 1 * dr 1 + dr 2 * dr 2
  if d2 ≤ rc2 then
    let tag ← D.tag[j]?
    let type ← D.type[j]?
    L.addNeighbor i j tag type dr d2
  else some L

/-- pair_hdnnp.cpp:274-290 `transferNeighborList`. -/
noncomputable def transferNeighborList (L : Lammps) (D : Domain) (rc : ℝ) : Option Lammps :=
  D.ilist.foldlM (fun L i => (D.firstneigh i).foldlM (transferNeighbor D (rc * rc) i) L) L

/-- pair_hdnnp.cpp:81-114 `compute` up to the forces: the new state of the interface and of the force array.
`rc` is the cutoff radius of the pair style. -/
noncomputable def compute (L : Lammps) (D : Domain) (rc : ℝ) (F : List Vec3) :
    Option (Lammps × List Vec3) := do
  let L ← L.setLocalAtoms D.nlocal D.type
  let L ← L.setLocalTags D.tag
  let L ← L.transferNeighborList D rc
  let L ← L.process
  let F ← L.getForces F
  some (L, F)

/-- pair_hdnnp.cpp:109-110: atomic energies of all local atoms. -/
noncomputable def atomicEnergies (L : Lammps) (D : Domain) : Option (List ℝ) :=
  (List.range D.nlocal).mapM L.getAtomicEnergy

end Lammps

end N2P2
