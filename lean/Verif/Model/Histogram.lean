import Verif.Model.ScalingFile
import Verif.Model.LearningCurve

/-! Histograms of symmetry functions and neighbours: Dataset.cpp:1103-1253, 1320-1464. -/

namespace N2P2

/-! ### GSL -/

/-- `gsl_histogram`: the limits `range[0]`, …, `range[n]` and the counts `bin[0]`, …, `bin[n-1]`. -/
structure GslHistogram where
  n : ℕ
  range : ℕ → ℝ
  bin : ℕ → ℝ

/-- `gsl_histogram_alloc(n)` and `gsl_histogram_set_ranges_uniform` (GSL manual and source): the limits are
weighted means of `xmin` and `xmax`. `none`: the error handler stops the program. -/
noncomputable def GslHistogram.uniform (n : ℕ) (xmin xmax : ℝ) : Option GslHistogram :=
  if n = 0 ∨ xmax ≤ xmin then none
  else some ⟨n, fun i => ((n : ℝ) - i) / n * xmin + (i : ℝ) / n * xmax, fun _ => 0⟩

open Classical in
/-- `gsl_histogram_increment`: adds 1 to the bin with `range[i] <= x < range[i+1]`; values outside of all
bins are ignored. -/
noncomputable def GslHistogram.increment (h : GslHistogram) (x : ℝ) : GslHistogram :=
  match (List.range h.n).find? (fun i => h.range i ≤ x ∧ x < h.range (i + 1)) with
  | none => h
  | some i => { h with bin := Function.update h.bin i (h.bin i + 1) }

/-- `MPI_Allreduce` of `bin` with `MPI_SUM`: `own` with the counts of all processes. -/
noncomputable def GslHistogram.collect (procs : List GslHistogram) (own : GslHistogram) : GslHistogram :=
  { own with bin := fun i => (procs.map fun h => h.bin i).sum }

/-- `gsl_histogram_fprintf`: limits printed with width `width` by `R`, counts with `%16.8E` by `N`. -/
noncomputable def GslHistogram.text (R N : NumberText) (width : ℕ) (h : GslHistogram) : Str :=
  ((List.range h.n).map fun i => fieldLine (padLeft width (R.print (h.range i)))
    [padLeft width (R.print (h.range (i + 1))), padLeft 16 (N.print (h.bin i))]).flatten

/-! ### Symmetry functions -/

/-- `numBins--` for `size_t`. -/
def sizePred (n : ℕ) : ℕ := (n + 2 ^ 64 - 1) % 2 ^ 64

/-- Dataset.cpp:1117-1143, one symmetry function. `numBins` is the value before it is decremented.
Outer `none`: the program stops, or the upper limit is not a number because of the division by
zero. Inner `none`: `nullptr`. -/
noncomputable def sfHistogram (numBins : ℕ) (c : StatContainer) : Option (Option GslHistogram) :=
  if c.min < c.max then
    if sizePred numBins = 0 then none
    else (GslHistogram.uniform ((sizePred numBins + 1) % 2 ^ 64) c.min
      (c.max + (c.max - c.min) / sizePred numBins)).map some
  else some none

/-- Dataset.cpp:1146-1160 on one process for symmetry function `i`: `atoms` are the atoms of its element. (The loops
over symmetry functions and elements are independent of each other. `h.at(s)` throws if an
atom has more values than its element has functions: not modelled.) -/
noncomputable def countValues (i : ℕ) (atoms : List StatAtom) (h : GslHistogram) : GslHistogram :=
  atoms.foldl (fun h a => match a.G[i]? with
    | some v => h.increment v
    | none => h) h

/-- Dataset.cpp:1195-1200. The numbers are printed with `%15.8E`. -/
noncomputable def sfInfoLines (N : NumberText) (nan : ℝ) (info : List Str) (c : StatContainer) : Str :=
  (info.map fun l => "#SFINFO ".toList ++ l ++ ['\n']).flatten ++
    "#SFINFO min         ".toList ++ padLeft 15 (N.print c.min) ++ ['\n'] ++
    "#SFINFO max         ".toList ++ padLeft 15 (N.print c.max) ++ ['\n'] ++
    "#SFINFO mean        ".toList ++ padLeft 15 (N.print (c.mean nan)) ++ ['\n'] ++
    "#SFINFO sigma       ".toList ++ padLeft 15 (N.print (c.sigma nan)) ++ ['\n']

/-- Dataset.cpp:1203-1222. -/
def sfHistogramHeader : Option (List Str) :=
  createFileHeader ["Symmetry function histogram.".toList] [16, 16, 16]
    ["symfunc_l".toList, "symfunc_r".toList, "hist".toList]
    ["Symmetry function value, left bin limit.".toList,
      "Symmetry function value, right bin limit.".toList, "Histogram count.".toList] '#'

/-- Digits with leading zeros, `%0wzu`. -/
def zeroPadded (w n : ℕ) : Str := List.replicate (w - (natText n).length) '0' ++ natText n

/-- Dataset.h: the format `"sf.%03zu.%04zu.histo"`. -/
def histoName (Z i : ℕ) : Option Str :=
  strpr ("sf.".toList ++ zeroPadded 3 Z ++ ['.'] ++ zeroPadded 4 i ++ ".histo".toList)

/-- An element as seen by the histograms: its atomic number, the lines of `infoSymmetryFunction` and the statistics
collected before. -/
structure HistoElement where
  Z : ℕ
  info : ℕ → List Str
  scaling : ScalingElement

/-- Dataset.cpp:1179-1229: file of one symmetry function. `data` are the atoms of the element on each
process. -/
noncomputable def writeHistogram (N : NumberText) (nan : ℝ) (numBins : ℕ) (data : List (List StatAtom))
    (e : HistoElement) (fs : Files) (i : ℕ) : Option Files := do
  let c ← e.scaling.statistics.find? i
  let start ← sfHistogram numBins c
  match start with
  | none => some fs
  | some h =>
    let procs := data.map fun atoms => countValues i atoms h
    let name ← histoName e.Z (i + 1)
    let header ← sfHistogramHeader
    some (fs.write name (sfInfoLines N nan (e.info i) c ++ header.flatten ++
      (GslHistogram.collect procs h).text N N 16))

/-- Dataset.cpp:1103-1253 `writeSymmetryFunctionHistograms`. (All histograms are counted before the first is
written: a program which stops may leave fewer files.) -/
noncomputable def writeHistograms (N : NumberText) (nan : ℝ) (numBins : ℕ) (data : List (ℕ → List StatAtom))
    (els : List HistoElement) (fs : Files) : Option Files :=
  els.foldlM (fun fs e => (List.range e.scaling.numSymmetryFunctions).foldlM
    (writeHistogram N nan numBins (data.map fun atoms => atoms e.scaling.index) e) fs) fs

/-- nnp-scaling.cpp:63-128 up to `writeSymmetryFunctionHistograms`: see `scalingTool` for the statistics. -/
noncomputable def histogramTool (dblMax eps : ℝ) (N : NumberText) (nan : ℝ) (numBins : ℕ) (Z : ℕ → ℕ)
    (info : ℕ → ℕ → List Str) (fs : List (List SymFncScaling)) (data : List (ℕ → List StatAtom))
    (files : Files) : Option Files :=
  writeHistograms N nan numBins data (fs.mapIdx fun k f =>
    let statistics := data.map fun atoms =>
      statRun dblMax eps ⟨k, [], f, ⟨true, false, false⟩⟩ ((atoms k).map .update)
    ⟨Z k, info k, k, f.length, StatData.collect dblMax f.length statistics (statistics.headD [])⟩) files

/-! ### Neighbours -/

/-- `numeric_limits<size_t>::max()`. -/
def sizeMax : ℕ := 2 ^ 64 - 1

/-- Dataset.cpp:1363-1371: minimum, maximum and sum over the atoms of a structure. -/
noncomputable def neighborStats (s : Structure) : ℕ × ℕ × ℝ :=
  s.atoms.foldl (fun r a => (min r.1 a.numNeighbors, max r.2.1 a.numNeighbors, r.2.2 + a.numNeighbors))
    (sizeMax, 0, 0)

/-- Dataset.cpp:1376-1381. Without atoms the mean is 0/0, here `nan`. -/
noncomputable def neighborLine (N : NumberText) (nan : ℝ) (s : Structure) : Option Str :=
  strpr (fieldLine (padLeft 10 (natText (s.index + 1)))
    [padLeft 10 (natText s.numAtoms), padLeft 10 (natText (neighborStats s).1),
      padLeft 10 (natText (neighborStats s).2.1),
      padLeft 16 (N.print (if s.numAtoms = 0 then nan else (neighborStats s).2.2 / s.numAtoms))])

/-- Dataset.cpp:1332-1352. -/
def neighborHeader : Option (List Str) :=
  createFileHeader ["Neighbor statistics for each structure.".toList] [10, 10, 10, 10, 16]
    ["struct".toList, "natoms".toList, "min".toList, "max".toList, "mean".toList]
    ["Index of structure (starting with 1).".toList, "Number of atoms in structure.".toList,
      "Minimum number of neighbors over all atoms.".toList,
      "Maximum number of neighbors over all atoms.".toList,
      "Mean number of neighbors over all atoms.".toList] '#'

/-- Dataset.cpp:1427-1437. -/
def neighborHistoHeader : Option (List Str) :=
  createFileHeader ["Neighbor count histogram.".toList] [9, 9, 16]
    ["neigh_l".toList, "neigh_r".toList, "hist".toList]
    ["Number of neighbors, left bin limit.".toList, "Number of neighbors, right bin limit.".toList,
      "Histogram count.".toList] '#'

/-- Dataset.cpp:1327-1383 on the process `rank`: text of its file. -/
noncomputable def neighborText (N : NumberText) (nan : ℝ) (structures : List Structure) (rank : ℕ) :
    Option Str := do
  let header ← onlyIf (rank == 0) neighborHeader
  let lines ← structures.mapM (neighborLine N nan)
  some (header.flatten ++ lines.flatten)

/-- Dataset.cpp:1358, 1373, 1387 on one process, and the maximum over all. -/
noncomputable def maxNeighbors (procs : List (List Structure)) : ℕ :=
  (procs.map fun ss => ss.foldl (fun m s => max m (neighborStats s).2.1) 0).foldl max 0

/-- Dataset.cpp:1320-1464 `writeNeighborHistogram`, all processes together: the files and the number returned. `N1`
prints with `%9.1f`. (The files of the processes are closed before anything else is written. The
minimum and the mean over all atoms appear only in the log.) -/
noncomputable def writeNeighborHistogram (N1 N : NumberText) (nan : ℝ) (fileHisto fileStructure : Str)
    (procs : List (List Structure)) (fs : Files) : Option (Files × ℕ) := do
  let texts ← procs.zipIdx.mapM fun p => neighborText N nan p.1 p.2
  let fs ← writeProcFiles fileStructure 0 texts fs
  let m := maxNeighbors procs
  let start ← GslHistogram.uniform (m + 1) (-1 / 2) (m + 1 / 2)
  let counted := procs.map fun ss => ss.foldl
    (fun h s => s.atoms.foldl (fun h a => h.increment a.numNeighbors) h) start
  let header ← neighborHistoHeader
  let fs := fs.write fileHisto (header.flatten ++ (GslHistogram.collect counted start).text N1 N 9)
  let fs ← combineFiles procs.length fileStructure fs
  some (fs, m)

end N2P2
