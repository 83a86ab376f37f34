import Verif.Model.LearningCurve

/-! The program nnp-dataset: comparison of energies and forces, and the predicted data set (nnp-dataset.cpp:84-398). The
analysis of sensitivities (nnp-dataset.cpp:107-119, 217-225, 404-495) is in `Model/Sensitivity`. -/

namespace N2P2

open Training (Key)

/-- What the program works with: format of numbers, elements, their `getAtomicEnergyOffset`, units, whether the
settings have the keyword "use_short_forces", and `Mode::evaluateNNP`, which is described by C74 and C79 and is a
parameter here. `none`: exception. -/
structure DatasetTool where
  N : NumberText
  m : EMap
  offs : List ℝ
  normalize : Bool
  units : ModeUnits
  useForces : Bool
  evaluate : Structure → Option Structure

namespace DatasetTool

/-- Dataset.cpp:952-961 `toNormalizedUnits` on one structure, called in nnp-dataset.cpp:90. -/
noncomputable def toNormalized (D : DatasetTool) (s : Structure) : Option Structure :=
  if D.normalize then
    s.toNormalizedUnits D.units.meanEnergy D.units.convEnergy D.units.convLength D.units.convCharge
  else some s

/-- nnp-dataset.cpp:304-310. -/
noncomputable def toPhysical (D : DatasetTool) (s : Structure) : Option Structure :=
  if D.normalize then
    s.toPhysicalUnits D.units.meanEnergy D.units.convEnergy D.units.convLength D.units.convCharge
  else some s

/-- Dataset.cpp:820, 828, 848, 856 (`removeEnergyOffset` in `distributeStructures`) and nnp-dataset.cpp:89-90: a structure as it
was read, prepared for evaluation. How structures are distributed is in `Model/DataFile`. -/
noncomputable def load (D : DatasetTool) (r : Structure) : Option Structure := do
  let s ← removeEnergyOffset D.offs r true
  D.toNormalized s

end DatasetTool

/-- nnp-dataset.cpp:226-257: memory is freed. -/
def Atom.cleared (a : Atom) : Atom :=
  { a with
    numNeighborsUnique := 0
    neighborsUnique := []
    numNeighborsPerElement := []
    G := []
    dEdG := []
    dGdr := []
    numNeighbors := 0
    neighbors := []
    hasNeighborList := false
    hasSymmetryFunctions := false
    hasSymmetryFunctionDerivatives := false }

/-- nnp-dataset.cpp:213-261. -/
def Structure.cleared (s : Structure) : Structure :=
  { s with
    atoms := s.atoms.map Atom.cleared
    hasNeighborList := false
    hasSymmetryFunctions := false
    hasSymmetryFunctionDerivatives := false }

/-- `strpr("%10zu %10zu", i, j)`. -/
def numbersHead (i j : ℕ) : Option Str := strpr (padLeft 10 (natText i) ++ ' ' :: padLeft 10 (natText j))

/-- `%16.8E` for each number. -/
def realFields (N : NumberText) (xs : List ℝ) : List Str := xs.map fun x => padLeft 16 (N.print x)

namespace DatasetTool

/-- nnp-dataset.cpp:264-279: the numbers printed. -/
noncomputable def energyValues (D : DatasetTool) (s : Structure) : Option (List ℝ) :=
  if D.normalize then do
    let offset ← getEnergyOffset D.offs s
    some [D.units.physicalEnergy s true + offset, D.units.physicalEnergy s false + offset, s.energyRef, s.energy]
  else do
    let ref ← getEnergyWithOffset D.offs s true
    let nnp ← getEnergyWithOffset D.offs s false
    some [ref, nnp]

/-- nnp-dataset.cpp:263-279: the line of a structure in the file energy.comp. -/
noncomputable def energyLine (D : DatasetTool) (s : Structure) : Option Str := do
  let head ← numbersHead s.index s.numAtoms
  let values ← D.energyValues s
  let tail ← strpr (fieldLine [] (realFields D.N values))
  some (head ++ tail)

/-- nnp-dataset.cpp:291-297. -/
noncomputable def forceMiddle (D : DatasetTool) (a : Atom) (i : Fin 3) : Option Str :=
  if D.normalize then do
    let ref ← D.units.physical "force" (a.fRef i)
    let nnp ← D.units.physical "force" (a.f i)
    strpr ((realFields D.N [ref, nnp]).flatMap (' ' :: ·))
  else some []

/-- nnp-dataset.cpp:286-300: a line of the file forces.comp. -/
noncomputable def forceLine (D : DatasetTool) (a : Atom) (i : Fin 3) : Option Str := do
  let head ← numbersHead a.indexStructure a.index
  let middle ← D.forceMiddle a i
  let tail ← strpr (fieldLine [] (realFields D.N [a.fRef i, a.f i]))
  some (head ++ middle ++ tail)

/-- nnp-dataset.cpp:280-303. -/
noncomputable def forceText (D : DatasetTool) (s : Structure) : Option Str := do
  let ls ← s.atoms.mapM fun a => [0, 1, 2].mapM (D.forceLine a)
  some ls.flatten.flatten

/-- nnp-dataset.cpp:304-312: what is written to the file output.data. -/
noncomputable def outputText (D : DatasetTool) (s : Structure) : Option Str := do
  let w ← D.toPhysical s
  let w ← addEnergyOffset D.offs w false
  w.writeToFile D.N D.m false

/-- Header of energy.comp, nnp-dataset.cpp:125-158. -/
def energyHeader (normalize : Bool) : Option (List Str) :=
  createFileHeader ["Energy comparison.".toList] ([10, 10, 16, 16] ++ if normalize then [16, 16] else [])
    (["index".toList, "N".toList, "Eref_phys".toList, "Ennp_phys".toList] ++
      if normalize then ["Eref_int".toList, "Ennp_int".toList] else [])
    (["Structure index.".toList, "Number of atoms in structure.".toList,
      "Reference potential energy (physical units, atomic energy offsets added).".toList,
      "NNP potential energy (physical units, atomic energy offsets added).".toList] ++
      if normalize then ["Reference potential energy (internal units).".toList,
        "NNP potential energy (internal units).".toList] else []) '#'

/-- Header of forces.comp, nnp-dataset.cpp:164-200. -/
def forceHeader (normalize : Bool) : Option (List Str) :=
  createFileHeader ["Force comparison.".toList] ([10, 10, 16, 16] ++ if normalize then [16, 16] else [])
    (["index_s".toList, "index_a".toList, "Fref_phys".toList, "Fnnp_phys".toList] ++
      if normalize then ["Fref_int".toList, "Fnnp_int".toList] else [])
    (["Structure index.".toList, "Atom index (x, y, z components in consecutive lines).".toList,
      "Reference force (physical units).".toList, "NNP force (physical units).".toList] ++
      if normalize then ["Reference force (internal units).".toList,
        "NNP force (internal units).".toList] else []) '#'

end DatasetTool

/-- What one process has written, and its errors. -/
structure ToolState where
  energy : Str
  forces : Str
  output : Str
  errorEnergy : ErrAcc
  errorForce : ErrAcc

namespace DatasetTool

/-- nnp-dataset.cpp:121-204 on the process with number `rank`. -/
def start (D : DatasetTool) (rank : ℕ) : Option ToolState := do
  let energy ← onlyIf (rank == 0) (energyHeader D.normalize)
  let forces ← onlyIf (D.useForces && rank == 0) (forceHeader D.normalize)
  some ⟨energy.flatten, forces.flatten, [], .zero, .zero⟩

/-- nnp-dataset.cpp:206-313 for one structure. -/
noncomputable def step (D : DatasetTool) (t : ToolState) (s : Structure) : Option ToolState := do
  let v ← D.evaluate s
  let energy ← D.energyLine v.cleared
  let forces ← onlyIf D.useForces (D.forceText v.cleared)
  let output ← D.outputText v.cleared
  some ⟨t.energy ++ energy, t.forces ++ forces, t.output ++ output, updateErrorEnergy t.errorEnergy v.cleared,
    if D.useForces then updateErrorForce t.errorForce v.cleared else t.errorForce⟩

/-- One process with the structures given as they were read. -/
noncomputable def process (D : DatasetTool) (rank : ℕ) (raw : List Structure) : Option ToolState := do
  let structures ← raw.mapM D.load
  let t ← D.start rank
  structures.foldlM D.step t

/-- nnp-dataset.cpp:351-397: a line of the table of errors in the log file, physical units first. Without
normalization there are no other units. -/
noncomputable def logRow (D : DatasetTool) (k : Key) (e : ErrAcc) : Option (List (Option ℝ)) :=
  if D.normalize then do
    let physical ← k.metrics.mapM fun m => physicalValue D.units k (e.value m)
    some (physical ++ k.metrics.map e.value)
  else some (k.metrics.map e.value)

/-- nnp-dataset.cpp:315-397: files afterwards, and the lines "ENERGY" and "FORCES" of the log file. The files have different
names, so that each is written by all processes and put together before the next one here. -/
noncomputable def run (D : DatasetTool) (procs : List (List Structure)) (fs : Files) :
    Option (Files × List (List (Option ℝ))) := do
  let ts ← procs.zipIdx.mapM fun p => D.process p.2 p.1
  let fs ← comparisonFile "energy.comp".toList (ts.map ToolState.energy) fs
  let fs ← if D.useForces then comparisonFile "forces.comp".toList (ts.map ToolState.forces) fs else some fs
  let fs ← comparisonFile "output.data".toList (ts.map ToolState.output) fs
  let energy ← D.logRow .energy (collectError (ts.map ToolState.errorEnergy))
  let force ← D.logRow .force (collectError (ts.map ToolState.errorForce))
  some (fs, if D.useForces then [energy, force] else [energy])

end DatasetTool

end N2P2
