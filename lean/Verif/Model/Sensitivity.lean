import Verif.Model.Histogram
import Verif.Model.ScalingFile

/-! Sensitivity of the energy to symmetry functions (nnp-dataset.cpp) and removal of functions (nnp-prune.cpp, Mode.cpp).
Messages to the log are left out. -/

namespace N2P2

/-- Printing (`%16.8E`) and reading (`atof`) of numbers; `none` is not a number (NaN). -/
structure FloatText where
  print : Option ℝ → Str
  atof : Str → Option ℝ

/-! ### nnp-dataset -/

/-- nnp-dataset.cpp:107-119: the data collected for one element. -/
structure Sens where
  count : ℕ
  mean : ℕ → ℝ
  max : ℕ → ℝ

def Sens.zero : Sens := ⟨0, fun _ => 0, fun _ => 0⟩

/-- nnp-dataset.cpp:217-225. `ns` is `numSymmetryFunctions`. `none`: `at` throws. The derivatives `dEdG` were set by
`evaluateNNP` (209-211). -/
noncomputable def sensAtom (ns : List ℕ) (st : ℕ → Sens) (a : Atom) : Option (ℕ → Sens) := do
  let n ← ns[a.element]?
  if n ≤ a.dEdG.length then
    let s := st a.element
    some (Function.update st a.element
      ⟨s.count + 1, fun i => if i < n then s.mean i + a.dEdG.getD i 0 * a.dEdG.getD i 0 else s.mean i,
        fun i => if i < n then Max.max (s.max i) |a.dEdG.getD i 0| else s.max i⟩)
  else none

/-- nnp-dataset.cpp:206-226: all structures of a process. -/
noncomputable def sensProc (ns : List ℕ) (structures : List Structure) : Option (ℕ → Sens) :=
  (structures.flatMap Structure.atoms).foldlM (sensAtom ns) fun _ => Sens.zero

/-- nnp-dataset.cpp:413, 419-420: `MPI_Reduce` to process 0. -/
noncomputable def sensReduce (procs : List Sens) : Sens :=
  ⟨(procs.map Sens.count).sum, fun j => (procs.map fun s => s.mean j).sum,
    fun j => allMax (procs.map fun s => s.max j)⟩

/-- nnp-dataset.cpp:423-424. Without atoms this is 0/0. -/
noncomputable def Sens.msa (s : Sens) (j : ℕ) : Option ℝ :=
  if s.count = 0 then none else some (Real.sqrt (s.mean j / s.count))

/-- nnp-dataset.cpp:417, 425. -/
noncomputable def Sens.msaSum (s : Sens) (n : ℕ) : Option ℝ :=
  (List.range n).foldlM (fun sum j => (s.msa j).map (sum + ·)) 0

/-- nnp-dataset.cpp:418, 426. -/
noncomputable def Sens.maxSum (s : Sens) (n : ℕ) : ℝ :=
  (List.range n).foldl (fun sum j => sum + s.max j) 0

/-- nnp-dataset.cpp:477-478: if the sum of the values (which are not negative) is zero, all are, and this is 0/0. -/
noncomputable def percentOf (x sum : ℝ) : Option ℝ := if sum = 0 then none else some (x / sum * 100)

/-- nnp-dataset.cpp:475-490, line of symmetry function `j`. The number is of type `size_t`, but printed with `%d`
(here `none` if it is too large). -/
noncomputable def sensLine (F : FloatText) (U : ModeUnits) (normalize : Bool) (s : Sens) (n j : ℕ) :
    Option Str :=
  let msaPercent := (s.msa j).bind fun x => (s.msaSum n).bind (percentOf x)
  let maxPercent := percentOf (s.max j) (s.maxSum n)
  let physical := if normalize then [(s.msa j).bind (U.physical "energy"), U.physical "energy" (s.max j)] else []
  if j + 1 < 2 ^ 31 then
    some (fieldLine (padLeft 10 (natText (j + 1)))
      (([msaPercent, maxPercent] ++ physical ++ [s.msa j, some (s.max j)]).map fun x => padLeft 16 (F.print x)))
  else none

/-- An element: atomic number, symbol and number of symmetry functions. -/
structure SensElement where
  Z : ℕ
  symbol : Str
  n : ℕ

/-- nnp-dataset.cpp:435-470. -/
def sensHeader (normalize : Bool) (symbol : Str) : Option (List Str) := do
  let title ← strpr ("Sensitivity analysis for element ".toList ++ padLeft 2 symbol ++ ['.'])
  createFileHeader [title] ([10, 16, 16, 16, 16] ++ if normalize then [16, 16] else [])
    (["index".toList, "sens_msa_norm".toList, "sens_max_norm".toList, "sens_msa_phys".toList,
      "sens_max_phys".toList] ++ if normalize then ["sens_msa_int".toList, "sens_max_int".toList] else [])
    (["Symmetry function index.".toList, "Mean square average sensitivity (normalized, sum = 100%).".toList,
      "Maximum sensitivity (normalized, sum = 100%).".toList,
      "Mean square average sensitivity (physical energy units).".toList,
      "Maximum sensitivity (physical energy units).".toList] ++
      if normalize then ["Mean square average sensitivity (internal units).".toList,
        "Maximum sensitivity (internal units).".toList] else []) '#'

/-- nnp-dataset.cpp:429-430, nnp-prune.cpp:115-116: name of the file, `%03d`. -/
def sensName (Z : ℕ) : Option Str := strpr ("sensitivity.".toList ++ zeroPadded 3 Z ++ ".out".toList)

/-- nnp-dataset.cpp:414-492, file of an element; `e.2` is its index. Without symmetry functions `front` of an empty vector
is used (undefined). -/
noncomputable def writeSensitivity (F : FloatText) (U : ModeUnits) (normalize : Bool) (procs : List (ℕ → Sens))
    (fs : Files) (e : SensElement × ℕ) : Option Files :=
  if e.1.n = 0 then none
  else do
    let s := sensReduce (procs.map fun p => p e.2)
    let name ← sensName e.1.Z
    let header ← sensHeader normalize e.1.symbol
    let lines ← (List.range e.1.n).mapM (sensLine F U normalize s e.1.n)
    some (fs.write name (header.flatten ++ lines.flatten))

/-- nnp-dataset.cpp:107-119, 206-226, 406-503: the analysis, from the evaluated structures of all processes. -/
noncomputable def sensitivityAnalysis (F : FloatText) (U : ModeUnits) (normalize : Bool) (els : List SensElement)
    (structures : List (List Structure)) (fs : Files) : Option Files := do
  let procs ← structures.mapM (sensProc (els.map SensElement.n))
  els.zipIdx.foldlM (writeSensitivity F U normalize procs) fs

/-! ### nnp-prune -/

/-- An element: atomic number and numbers of the lines in the settings file (from 0) which define its symmetry
functions. -/
structure PruneElement where
  Z : ℕ
  lines : List ℕ

/-- nnp-prune.cpp:112-138, column `column` of the file of an element. `none`: exception. A missing file has no lines. -/
def readSensitivity (F : FloatText) (column : ℕ) (fs : Files) (e : PruneElement) : Option (List (Option ℝ)) := do
  let name ← sensName e.Z
  let lines ← statisticsLines (readLines ((fs name).getD []))
  if lines.length ≠ e.lines.length then none
  else lines.mapM fun l => do
    let w ← (split (reduce l))[column]?
    some (F.atof w)

/-- Mode.cpp:2259: comparison, false if `x` is not a number. -/
def below (threshold : ℝ) : Option ℝ → Prop
  | some x => x < threshold
  | none => False

open Classical in
/-- Mode.cpp:2255-2265, one element. (Both lists have the same length.) -/
noncomputable def prunedOf (threshold : ℝ) (lines : List ℕ) (values : List (Option ℝ)) : List ℕ :=
  (lines.zip values).filterMap fun p => if below threshold p.2 then some p.1 else none

/-- nnp-prune.cpp:90-107: column for the mode of the third argument. -/
def sensColumn (mode : Str) : Option ℕ :=
  if mode = "msa".toList then some 1 else if mode = "max".toList then some 2 else none

/-- nnp-prune.cpp:83-147 and Mode.cpp:2249-2269: mode "sensitivity". `settings` are the lines of the settings file. -/
noncomputable def pruneSensitivity (F : FloatText) (threshold : ℝ) (mode : Str) (els : List PruneElement)
    (settings : List Str) (fs : Files) : Option Files := do
  let column ← sensColumn mode
  let values ← els.mapM (readSensitivity F column fs)
  let prune := (els.zip values).flatMap fun p => prunedOf threshold p.1.lines p.2
  some (fs.write "output-prune-sensitivity.nn".toList (writePruned prune settings))

/-- nnp-prune.cpp:60-64, 72-82 and Mode.cpp:2227-2247: mode "range". `c` are the settings, `functions` the symmetry
functions of each element with the numbers of their lines. -/
noncomputable def pruneRange (N : NumberText) (threshold : ℝ) (c : Contents)
    (functions : List (List SymFncScaling)) (numbers : List (List ℕ)) (settings : List Str) (fs : Files) :
    Option Files := do
  let scaled ← setupScaling N c (fs "scaling.data".toList) functions
  let prune := (numbers.zip scaled).flatMap fun p =>
    prunedOf threshold p.1 (p.2.map fun f => some |f.Gmax - f.Gmin|)
  some (fs.write "output-prune-range.nn".toList (writePruned prune settings))

end N2P2
