import Verif.Model.WeightFile
import Verif.Model.Scaling
import Verif.Model.Loop
import Mathlib.Analysis.Real.Sqrt

/-! The file with symmetry function statistics: collected and written by `nnp-scaling`
(`Dataset::collectSymmetryFunctionStatistics`, `Dataset::writeSymmetryFunctionScaling`), read by all
other programs (`Mode::setupSymmetryFunctionScaling`). Simplifications: opening the file for writing
succeeds and what is written arrives in the file; log output is left out. -/

namespace N2P2

/-! ### Integers in text -/

/-- The digits at the beginning of a text. -/
def leadingDigits (s : Str) : Str := s.takeWhile Char.isDigit

/-- `atoi`: blanks, sign and digits. A text without digits gives 0. (White space other than blanks
does not occur at the beginning of a word; numbers outside of `int`, for which the result is undefined,
are not cut here.) -/
def textInt (s : Str) : ℤ :=
  match s.dropWhile isBlank with
  | '-' :: t => -(Nat.ofDigitChars 10 (leadingDigits t) 0 : ℕ)
  | '+' :: t => (Nat.ofDigitChars 10 (leadingDigits t) 0 : ℕ)
  | t => (Nat.ofDigitChars 10 (leadingDigits t) 0 : ℕ)

/-- `(size_t)atoi(s)`. -/
def textSize (s : Str) : ℕ := (textInt s % 2 ^ 64).toNat

/-! ### Collecting -/

/-- Dataset.cpp:974-1002 `collectSymmetryFunctionStatistics` for one element with `n` symmetry
functions, on the process with statistics `own`. `procs` are the statistics of this element on all
processes. `MPI_Allreduce` computes sums, minimum and maximum over the processes. -/
noncomputable def StatData.collect (dblMax : ℝ) (n : ℕ) (procs : List StatData) (own : StatData) :
    StatData :=
  loop n (fun i d =>
    let c := d.at dblMax i
    CMap.set d i { c with
      count := (procs.map fun p => (p.at dblMax i).count).sum
      min := (procs.map fun p => (p.at dblMax i).min).foldl Min.min c.min
      max := (procs.map fun p => (p.at dblMax i).max).foldl Max.max c.max
      sum := (procs.map fun p => (p.at dblMax i).sum).sum
      sum2 := (procs.map fun p => (p.at dblMax i).sum2).sum }) own

/-! ### Writing -/

/-- What `writeSymmetryFunctionScaling` uses of an element. -/
structure ScalingElement where
  index : ℕ
  numSymmetryFunctions : ℕ
  statistics : StatData

/-- Dataset.cpp:1065. Without values the division gives NaN, here `nan`. -/
noncomputable def StatContainer.mean (nan : ℝ) (c : StatContainer) : ℝ :=
  if c.count = 0 then nan else c.sum / c.count

/-- Dataset.cpp:1066-1067. For a single value this is the root of 0/0. -/
noncomputable def StatContainer.sigma (nan : ℝ) (c : StatContainer) : ℝ :=
  if c.count ≤ 1 then nan
  else Real.sqrt ((c.sum2 - c.sum * c.sum / c.count) / ((c.count - 1 : ℕ) : ℝ))

/-- Dataset.cpp:1069-1075. The numbers of element and function are of type `size_t`, but printed with
`%d`: this is taken to print them correctly if they are less than `2^31`. -/
noncomputable def scalingLine (N : NumberText) (nan : ℝ) (k i : ℕ) (c : StatContainer) : Str :=
  fieldLine (padLeft 10 (natText (k + 1)))
    [padLeft 10 (natText (i + 1)), N.field c.min, N.field c.max, N.field (c.mean nan),
      N.field (c.sigma nan)]

/-- Dataset.cpp:1018-1042. -/
def scalingHeader : Option (List Str) :=
  createFileHeader ["Symmetry function scaling data.".toList] [10, 10, 24, 24, 24, 24]
    ["e_index".toList, "sf_index".toList, "sf_min".toList, "sf_max".toList, "sf_mean".toList,
      "sf_sigma".toList]
    ["Element index.".toList, "Symmetry function index.".toList, "Symmetry function minimum.".toList,
      "Symmetry function maximum.".toList, "Symmetry function mean.".toList,
      "Symmetry function sigma.".toList] '#'

/-- Dataset.cpp:1062-1085, lines of one element; `data.at(i)` throws. -/
noncomputable def writeScalingElement (N : NumberText) (nan : ℝ) (e : ScalingElement) :
    Option (List Str) :=
  (List.range e.numSymmetryFunctions).mapM fun i => do
    let c ← e.statistics.find? i
    if e.index + 1 < 2 ^ 31 ∧ i + 1 < 2 ^ 31 then strpr (scalingLine N nan e.index i c) else none

/-- Dataset.cpp:1004-1101 `writeSymmetryFunctionScaling`: the text written. `none`: exception or
undefined. -/
noncomputable def writeScaling (N : NumberText) (nan : ℝ) (els : List ScalingElement) :
    Option Str := do
  let header ← scalingHeader
  let lines ← els.mapM (writeScalingElement N nan)
  some (header.flatten ++ lines.flatten.flatten)

/-- nnp-scaling.cpp:63-128 for elements with the symmetry functions `fs` and values given:
`data` are, for every process, the atoms of element number `k` with their symmetry functions. The
statistics are those of process 0, which writes the file. The symbol of the element is left out: it is only
kept with extrapolation warnings, which are not collected. -/
noncomputable def scalingTool (dblMax eps : ℝ) (N : NumberText) (nan : ℝ)
    (fs : List (List SymFncScaling)) (data : List (ℕ → List StatAtom)) : Option Str :=
  writeScaling N nan <| fs.mapIdx fun k f =>
    let statistics := data.map fun atoms =>
      statRun dblMax eps ⟨k, [], f, ⟨true, false, false⟩⟩ ((atoms k).map .update)
    ⟨k, f.length, StatData.collect dblMax f.length statistics (statistics.headD [])⟩

/-! ### Reading -/

/-- Mode.cpp:720-753: the type of scaling. `none`: exception (does not happen, the keywords are
known). -/
def scalingTypeOf (c : Contents) : Except SetErr ScalingType := do
  let scale ← keywordExists c "scale_symmetry_functions".toList
  let center ← keywordExists c "center_symmetry_functions".toList
  let sigma ← keywordExists c "scale_symmetry_functions_sigma".toList
  return if scale ∧ ¬ center then .scale
    else if ¬ scale ∧ center then .center
    else if scale ∧ center then .scaleCenter
    else if sigma then .scaleSigma
    else .none

/-- Mode.cpp:761-770, 772-781: a keyword with default value. -/
noncomputable def scalingLimit (N : NumberText) (c : Contents) (kw : Str) (default : ℝ) :
    Except SetErr ℝ := do
  let there ← keywordExists c kw
  if there then N.atof <$> getValue c kw else return default

/-- Mode.cpp:755-785: `Smin` and `Smax`. -/
noncomputable def scalingLimits (N : NumberText) (c : Contents) (t : ScalingType) :
    Except SetErr (ℝ × ℝ) :=
  match t with
  | .none => return (0, 0)
  | .center => return (0, 0)
  | _ => do
    let Smin ← scalingLimit N c "scale_min_short".toList 0
    let Smax ← scalingLimit N c "scale_max_short".toList 1
    return (Smin, Smax)

/-- Mode.cpp:799-804: the lines which are no comments. `line.at(0)` throws if a line is empty. -/
def statisticsLines : List Str → Option (List Str)
  | [] => some []
  | line :: rest =>
    match line with
    | [] => none
    | c :: _ => do
      let lines ← statisticsLines rest
      some (if c ≠ '#' then line :: lines else lines)

/-- The words of a statistics line, SymFnc.cpp:59-72; missing words throw (of the first two, the
second is not looked at if the first is right; the others are always needed). -/
noncomputable def StatisticsLine.ofWords (N : NumberText) (s : List Str) : Option StatisticsLine := do
  let w0 ← s[0]?
  let w1 ← s[1]?
  let w2 ← s[2]?
  let w3 ← s[3]?
  let w4 ← s[4]?
  some ⟨textSize w0, textSize w1, N.atof w2, N.atof w3, N.atof w4, s[5]?.map N.atof⟩

/-- SymFnc.cpp:52-98 `setScalingType` with a line of text. -/
noncomputable def setScalingLine (N : NumberText) (t : ScalingType) (Smin Smax : ℝ) (line : Str)
    (sf : SymFncScaling) : Option SymFncScaling := do
  let l ← StatisticsLine.ofWords N (split (reduce line))
  setScalingType sf t l Smin Smax

/-- Element.cpp:364-382 `setScaling` (groups are left out here). -/
noncomputable def setScalingElement (N : NumberText) (t : ScalingType) (Smin Smax : ℝ)
    (lines : List Str) (f : List SymFncScaling) : Option (List SymFncScaling) :=
  f.zipIdx.mapM fun p => do
    let line ← lines[p.2]?
    setScalingLine N t Smin Smax line p.1

/-- Mode.cpp:818-834: the loop over elements; the lines used are removed. -/
noncomputable def setScalingElements (N : NumberText) (t : ScalingType) (Smin Smax : ℝ) :
    List (List SymFncScaling) → List Str → Option (List (List SymFncScaling))
  | [], _ => some []
  | f :: fs, lines => do
    let f' ← setScalingElement N t Smin Smax lines f
    let fs' ← setScalingElements N t Smin Smax fs (lines.drop f.length)
    some (f' :: fs')

/-- Result of a call which may throw in the settings. -/
def okOption {ε α : Type} : Except ε α → Option α
  | .ok a => some a
  | .error _ => none

/-- Mode.cpp:712-840 `setupSymmetryFunctionScaling` for settings `c`, file contents `text` and the
symmetry functions `fs` of the elements. `none`: exception. -/
noncomputable def setupScaling (N : NumberText) (c : Contents) (text : Option Str)
    (fs : List (List SymFncScaling)) : Option (List (List SymFncScaling)) := do
  let t ← okOption (scalingTypeOf c)
  let S ← okOption (scalingLimits N c t)
  let text ← text
  let lines ← statisticsLines (readLines text)
  setScalingElements N t S.1 S.2 fs lines

end N2P2
