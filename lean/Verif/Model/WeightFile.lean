import Verif.Model.StructureFile
import Verif.Model.NeuralNetwork
import Verif.Model.Units
import Verif.Model.Settings
import Verif.Model.Container

/-! Files with network parameters and atomic hardness: `NeuralNetwork::writeConnections`,
`Training::writeWeights`, `Training::writeHardness` and the functions of `Mode` which read them.
Simplifications: opening a file for writing succeeds and what is written arrives in the file; file
name formats contain `%03zu` once and no other conversion. -/

namespace N2P2

/-- What a call does if it does not return: an exception, or undefined behaviour. -/
inductive Fault
  | exception
  | undefined
  deriving DecidableEq

/-- `printf` of a non-negative integer in decimal. -/
def natText (n : ℕ) : Str := Nat.toDigits 10 n

/-- `setw(n) << left << s`. -/
def padRight (n : ℕ) (s : Str) : Str := s ++ List.replicate (n - s.length) ' '

/-! ### Header lines -/

/-- utility.cpp:193-198 and 204-214: width of column `i`. For a first column narrower than two
characters the subtraction wraps around, which disables padding (the width becomes a negative `int`). -/
def headerWidth (i size : ℕ) : ℕ := if i = 0 then size - 2 else size

/-- utility.cpp:206-212: name cut to the width of the column. -/
def headerName (i size : ℕ) (name : Str) : Str :=
  if i = 0 ∧ size < 2 then name else name.take (headerWidth i size)

/-- utility.cpp:111-222 `createFileHeader`. `none`: exception, also `length_error` of the long
separator line if there are no columns (`widthData` wraps around). -/
def createFileHeader (title : List Str) (colSize : List ℕ) (colName colInfo : List Str)
    (c : Char) : Option (List Str) :=
  if ¬ (colSize.length = colName.length ∧ colName.length = colInfo.length) then none
  else if colSize = [] then none
  else
    let sepLine : Str := List.replicate 80 c ++ ['\n']
    let widthNames := colName.foldl (fun w s => max w s.length) 0
    let widthData := colSize.foldl (fun w s => w + (s + 1)) 0 - 1
    some <|
      [sepLine] ++ title.map (fun t => [c, ' '] ++ t ++ ['\n']) ++ [sepLine] ++
      [[c, ' '] ++ padRight 4 "Col".toList ++ [' '] ++ padRight widthNames "Name".toList ++ [' '] ++
        "Description\n".toList] ++ [sepLine] ++
      (List.zip colName colInfo).mapIdx (fun i p =>
        [c, ' '] ++ padRight 4 (natText (i + 1)) ++ [' '] ++ padRight widthNames p.1 ++ [' '] ++
          p.2 ++ ['\n']) ++
      [if widthData > 80 then List.replicate widthData c ++ ['\n'] else sepLine] ++
      [[c] ++ (colSize.mapIdx fun i s =>
        ' ' :: padLeft (headerWidth i s) (natText (i + 1))).flatten ++ ['\n']] ++
      [[c] ++ ((List.zip colSize colName).mapIdx fun i p =>
        ' ' :: padLeft (headerWidth i p.1) (headerName i p.1 p.2)).flatten ++ ['\n']] ++
      [List.replicate widthData c ++ ['\n']]

/-! ### Writing network parameters -/

/-- `file << strpr(…)` for parameter number `count + 1`; `count` is an `int` whose overflow is
undefined. -/
def putLine (s : Option Str × ℕ) (line : ℕ → Str) : Option Str × ℕ :=
  (do
    let text ← s.1
    if s.2 + 1 < 2 ^ 31 then do
      let l ← strpr (line (s.2 + 1))
      some (text ++ l)
    else none, s.2 + 1)

/-- `"%24.16E a %9d %5d %5d %5d %5d\n"` and `"%24.16E b %9d %5d %5d\n"`. -/
noncomputable def connectionLine (N : NumberText) (x : ℝ) (type : Char) (count : ℕ)
    (indices : List ℕ) : Str :=
  fieldLine (N.field x)
    ([type] :: padLeft 9 (natText count) :: indices.map fun i => padLeft 5 (natText i))

/-- NeuralNetwork.cpp:532-556. -/
def connectionHeader : Option (List Str) :=
  createFileHeader ["Neural network connection values (weights and biases).".toList]
    [24, 1, 9, 5, 5, 5, 5]
    ["connection".toList, "t".toList, "index".toList, "l_s".toList, "n_s".toList, "l_e".toList,
      "n_e".toList]
    ["Neural network connection value.".toList,
      "Connection type (a = weight, b = bias).".toList,
      "Index enumerating weights.".toList,
      "Starting point layer (end point layer for biases).".toList,
      "Starting point neuron in starting layer (end point neuron for biases).".toList,
      "End point layer.".toList,
      "End point neuron in end layer.".toList] '#'

/-- NeuralNetwork.cpp:529-591 `writeConnections`: the text written. `none`: undefined. -/
noncomputable def NeuralNetwork.writeConnections (N : NumberText) (nn : NeuralNetwork) :
    Option Str := do
  let header ← connectionHeader
  (loop (nn.numLayers - 1) (fun i' s =>
    let i := i' + 1
    let s := loop (nn.layers i).numNeuronsPrevLayer (fun j s =>
      loop (nn.layers i).numNeurons (fun k s =>
        putLine s fun count => connectionLine N (((nn.layers i).neurons k).weights j) 'a' count
          [i - 1, j + 1, i, k + 1]) s) s
    loop (nn.layers i).numNeurons (fun j s =>
      putLine s fun count => connectionLine N ((nn.layers i).neurons j).bias 'b' count
        [i, j + 1]) s) (some header.flatten, 0)).1

/-! ### Files -/

/-- The files: name and contents. -/
abbrev Files := Str → Option Str

/-- `file.open(name)` for writing, then the text. -/
def Files.write (fs : Files) (name text : Str) : Files := Function.update fs name (some text)

/-- A file name format `pre%03zusuf`. -/
structure NameFormat where
  pre : Str
  suf : Str

/-- `strpr(format, z)`. -/
def NameFormat.name (f : NameFormat) (z : ℕ) : Option Str :=
  strpr (f.pre ++ (List.replicate (3 - (natText z).length) '0' ++ natText z) ++ f.suf)

/-- `directoryPrefix + fileNameFormat`. -/
def NameFormat.inside (dir : Str) (f : NameFormat) : NameFormat := { f with pre := dir ++ f.pre }

/-- Element.h: the members used here. -/
structure NetElement where
  atomicNumber : ℕ
  symbol : Str
  hardness : ℝ
  neuralNetworks : CMap Str NeuralNetwork

/-- Training.cpp:1662-1677 `writeWeights`. `none`: exception or undefined. -/
noncomputable def writeWeights (N : NumberText) (els : List NetElement) (nnName : Str)
    (format : NameFormat) (fs : Files) : Option Files :=
  els.foldlM (fun fs e => do
    let name ← format.name e.atomicNumber
    let nn ← e.neuralNetworks.find? nnName
    let text ← nn.writeConnections N
    some (fs.write name text)) fs

/-- The loop over the columns for one line, utility.cpp:273-284. -/
noncomputable def readColumnsLine (N : NumberText) (nan : ℝ) (words : List Str) (columns : List ℕ)
    (result : CMap ℕ (List ℝ)) : CMap ℕ (List ℝ) :=
  columns.foldl (fun r col =>
    r.set col ((r.find? col).getD [] ++
      [match words[col]? with
        | none => nan
        | some w => N.atof w])) result

/-- utility.cpp:247-290 `readColumnsFromFile`. `nan` stands for the quiet NaN. The columns are not
sorted here, since every column has its own list. -/
noncomputable def readColumnsFromFile (N : NumberText) (nan : ℝ) (fs : Files) (name : Str)
    (columns : List ℕ) (comment : Char) : Except Fault (CMap ℕ (List ℝ)) :=
  match fs name with
  | none => .error .exception
  | some text =>
    .ok <| (readLines text).foldl (fun r line =>
      if line.length = 0 then r
      else if line[0]? ≠ some comment then readColumnsLine N nan (split (reduce line)) columns r
      else r) (columns.foldl (fun r col => r.set col []) [])

/-- `map.at(key)`, `vector.at(i)`. -/
def orThrow {α : Type*} : Option α → Except Fault α
  | some a => .ok a
  | none => .error .exception

/-- `strpr`: undefined if the text does not fit. -/
def orUndefined {α : Type*} : Option α → Except Fault α
  | some a => .ok a
  | none => .error .undefined

/-- NeuralNetwork::setConnections for a vector: reading behind its end is undefined, as is
`weights.front()` of an empty vector. -/
noncomputable def setConnectionsFrom (nn : NeuralNetwork) (weights : List ℝ) :
    Except Fault NeuralNetwork :=
  if weights = [] ∨ weights.length < nn.numConnections then .error .undefined
  else .ok (nn.setConnections fun i => weights.getD i 0)

/-- Mode.cpp:2273-2286, one element. -/
noncomputable def readWeights (N : NumberText) (nan : ℝ) (fs : Files) (id : Str)
    (format : NameFormat) (e : NetElement) : Except Fault NetElement := do
  let name ← orUndefined (format.name e.atomicNumber)
  let _ ← orUndefined (strpr ("Setting weights for element ".toList ++ padLeft 2 e.symbol ++
    " from file: ".toList ++ name ++ ['\n']))
  let columns ← readColumnsFromFile N nan fs name [0] '#'
  let weights ← orThrow (columns.find? 0)
  let nn ← orThrow (e.neuralNetworks.find? id)
  let nn' ← setConnectionsFrom nn weights
  return { e with neuralNetworks := e.neuralNetworks.set id nn' }

/-- Mode.cpp:2270-2289 `readNeuralNetworkWeights`. -/
noncomputable def readNeuralNetworkWeights (N : NumberText) (nan : ℝ) (fs : Files) (id : Str)
    (format : NameFormat) (els : List NetElement) : Except Fault (List NetElement) :=
  els.mapM (readWeights N nan fs id format)

/-- Mode.cpp:1461-1466: the format given for network `k`, or its default. -/
def weightFormat (defaults formats : CMap Str NameFormat) (k : Str) : Except Fault NameFormat :=
  match formats.find? k with
  | some f => .ok f
  | none => orThrow (defaults.find? k)

/-- Mode.cpp:1451-1478 `setupNeuralNetworkWeights`: `defaults` are the `weightFileFormat` of
`nns`. The log output is left out. -/
noncomputable def setupNeuralNetworkWeights (N : NumberText) (nan : ℝ) (fs : Files) (nnk : List Str)
    (defaults formats : CMap Str NameFormat) (dir : Str) (els : List NetElement) :
    Except Fault (List NetElement) :=
  nnk.foldlM (fun els k => do
    let format ← weightFormat defaults formats k
    readNeuralNetworkWeights N nan fs k (format.inside dir) els) els

/-! ### Hardness -/

/-- Training.cpp:1711-1712. -/
noncomputable def hardnessToWrite (u : ModeUnits) (normalize : Bool) (h : ℝ) : Option ℝ :=
  if normalize then u.physical "hardness" h else some h

/-- Training.cpp:1702-1718 `writeHardness`. `shown x` is the text of `file << x` with the default
precision. `none`: undefined (`strpr`). -/
noncomputable def writeHardness (shown : ℝ → Str) (u : ModeUnits) (normalize : Bool)
    (els : List NetElement) (format : NameFormat) (fs : Files) : Option Files :=
  els.foldlM (fun fs e => do
    let name ← format.name e.atomicNumber
    let hardness ← hardnessToWrite u normalize e.hardness
    some (fs.write name (shown hardness ++ ['\n']))) fs

/-- Mode.cpp:405-423 of `setupElectrostatics`, one element. -/
noncomputable def readHardness (N : NumberText) (nan : ℝ) (fs : Files) (u : ModeUnits)
    (normalize : Bool) (format : NameFormat) (e : NetElement) : Except Fault NetElement := do
  let name ← orUndefined (format.name e.atomicNumber)
  let _ ← orUndefined (strpr ("Atomic hardness for element ".toList ++ padLeft 2 e.symbol ++
    " from file ".toList ++ name ++ ": ".toList))
  let columns ← readColumnsFromFile N nan fs name [0] '#'
  let data ← orThrow (columns.find? 0)
  if data.length ≠ 1 then .error .exception
  else do
    let hardness ← orThrow data[0]?
    let hardness ← orThrow (if normalize then u.normalized "hardness" hardness else some hardness)
    return { e with hardness := hardness }

end N2P2
