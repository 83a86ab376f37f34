import Verif.Model.DataFile
import Verif.Model.Training
import Verif.Model.LearningCurve

/-! Files with the training and the test set: Training.cpp:82-112 with the contents of the structures and
230-290. -/

namespace N2P2

/-- `Model/Training` has its own copy of Structure.h:`SampleType`. -/
def SampleType.forTraining : SampleType → Training.SampleType
  | .unknown => .unknown
  | .training => .training
  | .validation => .validation
  | .test => .test

/-- The other direction. -/
def Training.SampleType.toStructure : Training.SampleType → N2P2.SampleType
  | .unknown => .unknown
  | .training => .training
  | .validation => .validation
  | .test => .test

/-- What `Training.selectSets` looks at. -/
def Structure.forSelection (s : Structure) : Training.Struct :=
  ⟨s.sampleType.forTraining, s.numAtoms, s.atoms.map Atom.index⟩

/-- Training.cpp:103-112 on one process: only the sets of the structures change. -/
noncomputable def selectStructures (nnp : Training.NNPType) (fraction : ℝ) (rnd : ℕ → ℝ)
    (p : Training.PropertyMap) (structures : List Structure) : List Structure :=
  List.zipWith (fun s t => { s with sampleType := t.sampleType.toStructure }) structures
    (Training.selectSets nnp fraction rnd (structures.map Structure.forSelection) p).1

/-- Text in the files of one process. -/
structure SetTexts where
  train : Str
  test : Str

/-- Training.cpp:260-267: one structure is written to one of the files. -/
noncomputable def SetTexts.add (N : NumberText) (m : EMap) (t : SetTexts) (s : Structure) : Option SetTexts :=
  match s.sampleType with
  | .training => (s.writeToFile N m true).map fun text => { t with train := t.train ++ text }
  | .test => (s.writeToFile N m true).map fun text => { t with test := t.test ++ text }
  | _ => some t

/-- Training.cpp:254-270 on one process: the texts and the structures afterwards. `none`: exception. -/
noncomputable def writeSetLoop (N : NumberText) (m : EMap) (offs : List ℝ) :
    SetTexts → List Structure → Option (SetTexts × List Structure)
  | t, [] => some (t, [])
  | t, s :: ss => do
    let u ← addEnergyOffset offs s true
    let t ← t.add N m u
    let v ← removeEnergyOffset offs u true
    let r ← writeSetLoop N m offs t ss
    some (r.1, v :: r.2)

def trainDataName : Str := "train.data".toList
def testDataName : Str := "test.data".toList

/-- Training.cpp:230-290 `writeSetsToFiles`, all processes together: structures and files afterwards.
All files can be opened. `none`: exception. -/
noncomputable def writeSetsToFiles (N : NumberText) (m : EMap) (offs : List ℝ)
    (procs : List (List Structure)) (fs : Files) : Option (List (List Structure) × Files) := do
  let rs ← procs.mapM fun ss => writeSetLoop N m offs ⟨[], []⟩ ss
  let fs ← writeProcFiles trainDataName 0 (rs.map (·.1.train)) fs
  let fs ← writeProcFiles testDataName 0 (rs.map (·.1.test)) fs
  let fs ← combineFiles procs.length trainDataName fs
  let fs ← combineFiles procs.length testDataName fs
  some (rs.map (·.2), fs)

end N2P2
