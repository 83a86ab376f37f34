import Verif.Model.WeightFile
import Verif.Model.Dataset
import Verif.Model.Training

/-! Errors reported during training: `Training::calculateError`, `Training::calculateErrorEpoch`,
`Training::writeLearningCurve`, `Dataset::combineFiles`. Simplifications: opening a file for writing
succeeds and what is written arrives in the file. The calculation of energies, forces and charges of a
structure (Training.cpp:1422-1453) is a parameter. Each property occurs once in `pk`. -/

namespace N2P2

open Training (Key NNPType)

/-- Keys of the maps `errorTrain` and `errorTest`. -/
inductive Metric
  | RMSEpa | RMSE | MAEpa | MAE
  deriving DecidableEq

/-- The text of the key. -/
def Metric.name : Metric → Str
  | .RMSEpa => "RMSEpa".toList
  | .RMSE => "RMSE".toList
  | .MAEpa => "MAEpa".toList
  | .MAE => "MAE".toList

/-- Training.cpp:4110, 4116, 4122. -/
def Training.Key.tiny : Key → Str
  | .energy => "E".toList
  | .force => "F".toList
  | .charge => "Q".toList

/-- Training.cpp:4111, 4117, 4123. -/
def Training.Key.plural : Key → Str
  | .energy => "energies".toList
  | .force => "forces".toList
  | .charge => "charges".toList

/-- Training.cpp:4112, 4118, 4124 `errorMetrics`. -/
def Training.Key.metrics : Key → List Metric
  | .energy => [.RMSEpa, .RMSE, .MAEpa, .MAE]
  | .force => [.RMSE, .MAE]
  | .charge => [.RMSE, .MAE]

/-- The property key. -/
def Training.Key.text : Key → String
  | .energy => "energy"
  | .force => "force"
  | .charge => "charge"

/-- `error.at(m)`. -/
def ErrAcc.at (e : ErrAcc) : Metric → ℝ
  | .RMSEpa => e.RMSEpa
  | .RMSE => e.RMSE
  | .MAEpa => e.MAEpa
  | .MAE => e.MAE

/-- The value after `collectError`, Dataset.cpp:1723-1726, 1733-1734; `none`: NaN, from 0/0. -/
noncomputable def ErrAcc.value (e : ErrAcc) (m : Metric) : Option ℝ :=
  if e.count = 0 then none else some (e.at m)

/-- Structure.cpp:1386-1414 `updateError`. -/
noncomputable def updateError (k : Key) (e : ErrAcc) (s : Structure) : ErrAcc :=
  match k with
  | .energy => updateErrorEnergy e s
  | .force => updateErrorForce e s
  | .charge => updateErrorCharge e s

/-! ### Lines of comparison files -/

/-- Structure.cpp:1416-1422 `getEnergyLine`; numbers are printed with `%16.8E`. -/
noncomputable def Structure.getEnergyLine (N : NumberText) (s : Structure) : Option Str :=
  strpr (fieldLine (padLeft 10 (natText s.index))
    [padLeft 16 (N.print (s.energyRef / s.numAtoms)), padLeft 16 (N.print (s.energy / s.numAtoms))])

/-- `"%10zu %10zu %16.8E %16.8E\n"`. -/
def atomLine (N : NumberText) (a : Atom) (x y : ℝ) : Option Str :=
  strpr (fieldLine (padLeft 10 (natText a.indexStructure))
    [padLeft 10 (natText a.index), padLeft 16 (N.print x), padLeft 16 (N.print y)])

/-- Atom.cpp:446-459 `getForcesLines`. -/
def Atom.getForcesLines (N : NumberText) (a : Atom) : Option (List Str) :=
  [0, 1, 2].mapM fun i : Fin 3 => atomLine N a (a.fRef i) (a.f i)

/-- Atom.cpp:461-468 `getChargeLine`. -/
def Atom.getChargeLine (N : NumberText) (a : Atom) : Option Str := atomLine N a a.chargeRef a.charge

/-- Training.cpp:1474-1485: what is written for a structure; Structure.cpp:1424-1447. -/
noncomputable def comparisonText (N : NumberText) (k : Key) (s : Structure) : Option Str :=
  match k with
  | .energy => s.getEnergyLine N
  | .force => do
    let ls ← s.atoms.mapM fun a => a.getForcesLines N
    some ls.flatten.flatten
  | .charge => do
    let ls ← s.atoms.mapM fun a => a.getChargeLine N
    some ls.flatten

/-- Training.cpp:1360-1415. -/
def comparisonHeader : Key → Option (List Str)
  | .energy => createFileHeader ["Energy comparison.".toList] [10, 16, 16]
      ["index".toList, "Eref".toList, "Ennp".toList]
      ["Structure index.".toList,
        "Reference potential energy per atom (training units).".toList,
        "NNP potential energy per atom (training units).".toList] '#'
  | .force => createFileHeader ["Force comparison.".toList] [10, 10, 16, 16]
      ["index_s".toList, "index_a".toList, "Fref".toList, "Fnnp".toList]
      ["Structure index.".toList,
        "Atom index (x, y, z components in consecutive lines).".toList,
        "Reference force (training units).".toList, "NNP force (training units).".toList] '#'
  | .charge => createFileHeader ["Charge comparison.".toList] [10, 10, 16, 16]
      ["index_s".toList, "index_a".toList, "Qref".toList, "Qnnp".toList]
      ["Structure index.".toList, "Atom index.".toList, "Reference charge.".toList,
        "NNP charge.".toList] '#'

/-! ### Errors of one process -/

/-- One property on one process: errors, and text of the comparison files of this process. -/
structure PropState where
  train : ErrAcc
  test : ErrAcc
  fileTrain : Str
  fileTest : Str

/-- `if (c) …`, where lines are written. -/
def onlyIf {α : Type} (c : Bool) (x : Option (List α)) : Option (List α) := if c then x else some []

/-- Training.cpp:1335-1417: everything is reset, process 0 writes headers to the files (`k` in
`write`). -/
def PropState.start (k : Key) (doWrite : Bool) (rank : ℕ) : Option PropState := do
  let header ← onlyIf (doWrite && rank == 0) (comparisonHeader k)
  some ⟨.zero, .zero, header.flatten, header.flatten⟩

/-- Training.cpp:1457-1486, one property of one structure. `none`: null pointer dereferenced. -/
noncomputable def PropState.update (N : NumberText) (k : Key) (doWrite : Bool) (p : PropState)
    (s : Structure) : Option PropState := do
  let text ← onlyIf doWrite (comparisonText N k s)
  match s.sampleType with
  | .training => some { p with
      train := updateError k p.train s
      fileTrain := p.fileTrain ++ text }
  | .test => some { p with
      test := updateError k p.test s
      fileTest := p.fileTest ++ text }
  | _ => none

/-- Training.cpp:1419-1489 on the process with number `rank`, for property `k`. `structures` are the
structures of this process with energies, forces and charges calculated. -/
noncomputable def PropState.run (N : NumberText) (k : Key) (doWrite : Bool) (rank : ℕ)
    (structures : List Structure) : Option PropState := do
  let p ← PropState.start k doWrite rank
  structures.foldlM (PropState.update N k doWrite) p

/-! ### Files of all processes -/

/-- `"%s.%04d"`. -/
def procFileName (file : Str) (rank : ℕ) : Option Str :=
  strpr (file ++ ['.'] ++ (List.replicate (4 - (natText rank).length) '0' ++ natText rank))

/-- `remove(name)`. -/
def Files.remove (fs : Files) (name : Str) : Files := Function.update fs name none

/-- Dataset.cpp:1752-1769, file of one process. `none`: exception. The combined file is open, its contents
are in `fs` at once. -/
def combineFile (file : Str) (fs : Files) (rank : ℕ) : Option Files := do
  let name ← procFileName file rank
  let text ← fs name
  let all ← fs file
  some ((fs.write file (all ++ text)).remove name)

/-- Dataset.cpp:1744-1773 `combineFiles`. -/
def combineFiles (numProcs : ℕ) (file : Str) (fs : Files) : Option Files :=
  (List.range numProcs).foldlM (combineFile file) (fs.write file [])

/-- The processes write their files (numbered from `rank`). -/
def writeProcFiles (file : Str) : ℕ → List Str → Files → Option Files
  | _, [], fs => some fs
  | rank, text :: texts, fs => do
    let name ← procFileName file rank
    writeProcFiles file (rank + 1) texts (fs.write name text)

/-- Training.cpp:1346-1350, 1496-1505: files of all processes, written and then combined by process 0. -/
def comparisonFile (file : Str) (texts : List Str) (fs : Files) : Option Files := do
  let fs ← writeProcFiles file 0 texts fs
  combineFiles texts.length file fs

/-- Errors of one property: training and test set. -/
structure PropErrors where
  train : ErrAcc
  test : ErrAcc

/-- Training.cpp:1310-1513 `calculateError` for one property. `names` are the names of the comparison
files, if there are any. All processes get the same errors. `none`: exception or undefined. -/
noncomputable def calculateErrorOf (N : NumberText) (k : Key) (names : Option (Str × Str))
    (procs : List (List Structure)) (fs : Files) : Option (PropErrors × Files) := do
  let ps ← procs.zipIdx.mapM fun p => PropState.run N k names.isSome p.2 p.1
  let errors : PropErrors := ⟨collectError (ps.map (·.train)), collectError (ps.map (·.test))⟩
  match names with
  | none => some (errors, fs)
  | some (train, test) =>
    if train = [] ∨ test = [] then none
    else do
      let fs ← comparisonFile train (ps.map (·.fileTrain)) fs
      let fs ← comparisonFile test (ps.map (·.fileTest)) fs
      some (errors, fs)

/-- Training.cpp:1525-1528. -/
def Training.Key.middle : Key → Str
  | .energy => "points".toList
  | .force => "forces".toList
  | .charge => "charges".toList

/-- `"train%s.%06zu.out"`, `"test%s.%06zu.out"`. -/
def comparisonName (set : Str) (k : Key) (epoch : ℕ) : Str :=
  set ++ k.middle ++ ['.'] ++ (List.replicate (6 - (natText epoch).length) '0' ++ natText epoch) ++
    ".out".toList

/-- Training.cpp:1515-1543 `calculateErrorEpoch`: names of the comparison files of this epoch. -/
def comparisonNames (writeCompEvery writeCompAlways : Key → ℕ) (epoch : ℕ) (k : Key) :
    Option (Str × Str) :=
  if writeCompEvery k > 0 ∧ (epoch % writeCompEvery k = 0 ∨ epoch ≤ writeCompAlways k) then
    some (comparisonName "train".toList k epoch, comparisonName "test".toList k epoch)
  else none

/-- Training.cpp:1310-1543 for all properties. -/
noncomputable def calculateErrorEpoch (N : NumberText) (writeCompEvery writeCompAlways : Key → ℕ)
    (epoch : ℕ) (procs : List (List Structure)) :
    List Key → Files → Option (List (Key × PropErrors) × Files)
  | [], fs => some ([], fs)
  | k :: pk, fs => do
    let r ← calculateErrorOf N k (comparisonNames writeCompEvery writeCompAlways epoch k) procs fs
    let r' ← calculateErrorEpoch N writeCompEvery writeCompAlways epoch procs pk r.2
    some ((k, r.1) :: r'.1, r'.2)

/-! ### Learning curve -/

/-- Training.cpp:1764-1768, with the words put in. -/
def metricInfo (m : Metric) (set : Str) (plural : Str) (units : Str) : Str :=
  (match m with
    | .RMSEpa => "RMSE of ".toList ++ set ++ [' '] ++ plural ++ " per atom".toList
    | .RMSE => "RMSE of ".toList ++ set ++ [' '] ++ plural
    | .MAEpa => "MAE of ".toList ++ set ++ [' '] ++ plural ++ " per atom".toList
    | .MAE => "MAE of ".toList ++ set ++ [' '] ++ plural) ++ units

/-- Training.cpp:1773-1783, 1794-1804: names and descriptions of the two columns. -/
def metricColumns (k : Key) (unit units : Str) (m : Metric) : List (Str × Str) :=
  [(m.name ++ ['_'] ++ k.tiny ++ "train_".toList ++ unit,
    metricInfo m "training".toList k.plural units),
   (m.name ++ ['_'] ++ k.tiny ++ "test_".toList ++ unit,
    metricInfo m "test".toList k.plural units)]

/-- Training.cpp:1769-1807: the columns after the first. -/
def curveColumns (normalize : Bool) (pk : List Key) : List (Str × Str) :=
  pk.flatMap (fun k => k.metrics.flatMap (metricColumns k "pu".toList " (physical units)".toList)) ++
  if normalize then
    pk.flatMap fun k => k.metrics.flatMap (metricColumns k "iu".toList " (training units)".toList)
  else []

/-- Training.cpp:1748-1810. -/
def curveHeader (normalize : Bool) (pk : List Key) : Option (List Str) :=
  createFileHeader
    ("Learning curves for training properties:".toList :: pk.map fun k => " * ".toList ++ k.plural)
    (10 :: (curveColumns normalize pk).map fun _ => 16)
    ("epoch".toList :: (curveColumns normalize pk).map Prod.fst)
    ("Current epoch.".toList :: (curveColumns normalize pk).map Prod.snd) '#'

/-- `physical(k, value)`; NaN stays NaN. -/
noncomputable def physicalValue (u : ModeUnits) (k : Key) (v : Option ℝ) : Option (Option ℝ) :=
  match v with
  | none => some none
  | some x => (u.physical k.text x).map some

/-- `strpr(" %16.8E %16.8E", …)`; `nanText` is what is printed for NaN. -/
def pairText (N : NumberText) (nanText : Str) (x y : Option ℝ) : Option Str :=
  strpr ([' '] ++ padLeft 16 (x.elim nanText N.print) ++ [' '] ++ padLeft 16 (y.elim nanText N.print))

/-- Training.cpp:1817-1826. -/
noncomputable def physicalText (N : NumberText) (nanText : Str) (u : ModeUnits) (pk : List Key)
    (errors : Key → PropErrors) : Option Str := do
  let ls ← pk.mapM fun k => k.metrics.mapM fun m => do
    let train ← physicalValue u k ((errors k).train.value m)
    let test ← physicalValue u k ((errors k).test.value m)
    pairText N nanText train test
  some ls.flatten.flatten

/-- Training.cpp:1828-1836. -/
noncomputable def trainingText (N : NumberText) (nanText : Str) (pk : List Key)
    (errors : Key → PropErrors) : Option Str := do
  let ls ← pk.mapM fun k => k.metrics.mapM fun m =>
    pairText N nanText ((errors k).train.value m) ((errors k).test.value m)
  some ls.flatten.flatten

/-- Training.cpp:1813-1837: one line. -/
noncomputable def curveLine (N : NumberText) (nanText : Str) (normalize : Bool) (u : ModeUnits)
    (pk : List Key) (epoch : ℕ) (errors : Key → PropErrors) : Option Str := do
  let start ← strpr (padLeft 10 (natText epoch))
  let pu ← onlyIf normalize (physicalText N nanText u pk errors)
  let iu ← trainingText N nanText pk errors
  some (start ++ pu ++ iu ++ ['\n'])

/-- Training.cpp:1736-1742: the name of the file. -/
def curveName (type : NNPType) (stage : ℕ) (file : Str) : Str :=
  match type with
  | .HDNNP_2G => file
  | _ => file ++ ".stage-".toList ++ natText stage

/-- Name of the file in `loop`, Training.cpp:2169, 2231 with the default of
`writeLearningCurve` (Training.h). -/
def curveFile (type : NNPType) (stage : ℕ) : Str := curveName type stage "learning-curve.out".toList

/-- Training.cpp:1744-1811: contents before the line is written. A file which does not exist is created
when appending. -/
def curveStart (normalize : Bool) (pk : List Key) (file : Str) (append : Bool) (fs : Files) :
    Option Str :=
  if append then some ((fs file).getD []) else (curveHeader normalize pk).map List.flatten

/-- Training.cpp:1734-1842 `writeLearningCurve`. -/
noncomputable def writeLearningCurve (N : NumberText) (nanText : Str) (normalize : Bool)
    (u : ModeUnits) (pk : List Key) (file : Str) (append : Bool) (epoch : ℕ)
    (errors : Key → PropErrors) (fs : Files) : Option Files := do
  let start ← curveStart normalize pk file append fs
  let line ← curveLine N nanText normalize u pk epoch errors
  some (fs.write file (start ++ line))

/-- `p[k].errorTrain`, `p[k].errorTest`. -/
noncomputable def errorsAt (errors : List (Key × PropErrors)) (k : Key) : PropErrors :=
  (errors.lookup k).getD ⟨.zero, .zero⟩

/-- Training.cpp:2156-2169, 2218-2231 in `loop`: errors, comparison files and learning curve of one epoch.
Other files are not modelled here. `procs` are the structures of the processes in this epoch. -/
noncomputable def reportEpoch (N : NumberText) (nanText : Str) (writeCompEvery writeCompAlways : Key → ℕ)
    (normalize : Bool) (u : ModeUnits) (pk : List Key) (file : Str) (fs : Files)
    (procs : List (List Structure)) (epoch : ℕ) : Option Files := do
  let r ← calculateErrorEpoch N writeCompEvery writeCompAlways epoch procs pk fs
  writeLearningCurve N nanText normalize u pk file (decide (epoch ≠ 0)) epoch (errorsAt r.1) r.2

/-- Training.cpp:2147-2253 `loop`: what is reported in all epochs. -/
noncomputable def trainingReport (N : NumberText) (nanText : Str)
    (writeCompEvery writeCompAlways : Key → ℕ) (normalize : Bool) (u : ModeUnits) (pk : List Key)
    (file : Str) (epochs : List (List (List Structure))) (fs : Files) : Option Files :=
  epochs.zipIdx.foldlM (fun fs e =>
    reportEpoch N nanText writeCompEvery writeCompAlways normalize u pk file fs e.1 e.2) fs

end N2P2
