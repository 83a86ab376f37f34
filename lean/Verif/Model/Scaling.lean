import Mathlib.Data.Real.Basic
import Verif.Model.Utility
import Verif.Model.Container

/-! Symmetry function scaling (SymFnc.cpp) and statistics (SymFncStatistics.cpp, Element.cpp). -/

namespace N2P2

/-- SymFnc.h `ScalingType`. -/
inductive ScalingType
  | none | scale | center | scaleCenter | scaleSigma
  deriving DecidableEq

/-- The scaling members of `SymFnc`, plus `ec`, `index` and `type` which the scaling and statistics
code reads. -/
structure SymFncScaling where
  ec : Nat
  index : Nat
  type : Nat
  scalingType : ScalingType
  Smin : ℝ
  Smax : ℝ
  Gmin : ℝ
  Gmax : ℝ
  Gmean : ℝ
  Gsigma : ℝ
  scalingFactor : ℝ

/-- A statistics line after `split(reduce(...))` and `atoi`/`atof` of its columns (SymFnc.cpp:59-72).
Number parsing and lines with fewer than five columns (`at` throws) are not modelled. -/
structure StatisticsLine where
  ec : Nat
  index : Nat
  gmin : ℝ
  gmax : ℝ
  gmean : ℝ
  /-- Column 6, absent in files of older versions. -/
  gsigma : Option ℝ

/-- SymFnc.cpp:52-97 `setScalingType`. `none` is the "Inconsistent scaling statistics" exception
(note the `&&` in line 60: both numbers have to be wrong). -/
noncomputable def setScalingType (sf : SymFncScaling) (t : ScalingType) (l : StatisticsLine)
    (Smin Smax : ℝ) : Option SymFncScaling :=
  if l.ec ≠ sf.ec + 1 ∧ l.index ≠ sf.index + 1 then Option.none
  else
    let sigma := match l.gsigma with
      | Option.some s => s
      | Option.none => sf.Gsigma
    some { sf with
      scalingType := t
      Gmin := l.gmin, Gmax := l.gmax, Gmean := l.gmean, Gsigma := sigma
      Smin := Smin, Smax := Smax
      scalingFactor := match t with
        | .none => 1
        | .scale => (Smax - Smin) / (l.gmax - l.gmin)
        | .center => 1
        | .scaleCenter => (Smax - Smin) / (l.gmax - l.gmin)
        | .scaleSigma => (Smax - Smin) / sigma }

/-- SymFnc.cpp:169-195 `scale`. -/
noncomputable def SymFncScaling.scale (sf : SymFncScaling) (v : ℝ) : ℝ :=
  match sf.scalingType with
  | .none => v
  | .scale => sf.Smin + sf.scalingFactor * (v - sf.Gmin)
  | .center => v - sf.Gmean
  | .scaleCenter => sf.Smin + sf.scalingFactor * (v - sf.Gmean)
  | .scaleSigma => sf.Smin + sf.scalingFactor * (v - sf.Gmean)

/-- SymFnc.cpp:197-223 `unscale`. -/
noncomputable def SymFncScaling.unscale (sf : SymFncScaling) (v : ℝ) : ℝ :=
  match sf.scalingType with
  | .none => v
  | .scale => (v - sf.Smin) / sf.scalingFactor + sf.Gmin
  | .center => v + sf.Gmean
  | .scaleCenter => (v - sf.Smin) / sf.scalingFactor + sf.Gmean
  | .scaleSigma => (v - sf.Smin) / sf.scalingFactor + sf.Gmean

/-- SymFncStatistics.h:35-62 `Container`. -/
structure StatContainer where
  count : Nat
  countEW : Nat
  type : Nat
  min : ℝ
  max : ℝ
  Gmin : ℝ
  Gmax : ℝ
  sum : ℝ
  sum2 : ℝ
  element : Str
  indexStructureEW : List Nat
  indexAtomEW : List Nat
  valueEW : List ℝ

/-- SymFncStatistics.cpp:25-37, constructor; `dblMax` is `numeric_limits<double>::max()`. -/
noncomputable def StatContainer.init (dblMax : ℝ) : StatContainer :=
  { count := 0, countEW := 0, type := 0, min := dblMax, max := -dblMax, Gmin := 0, Gmax := 0,
    sum := 0, sum2 := 0, element := [], indexStructureEW := [], indexAtomEW := [], valueEW := [] }

/-- SymFncStatistics.cpp:47-56. -/
noncomputable def StatContainer.resetStatistics (dblMax : ℝ) (c : StatContainer) : StatContainer :=
  { c with count := 0, min := dblMax, max := -dblMax, sum := 0, sum2 := 0 }

/-- SymFncStatistics.cpp:58-70. -/
noncomputable def StatContainer.resetEW (c : StatContainer) : StatContainer :=
  { c with countEW := 0, Gmin := 0, Gmax := 0, type := 0,
           element := [], indexStructureEW := [], indexAtomEW := [], valueEW := [] }

/-- `SymFncStatistics::data`. -/
abbrev StatData := CMap Nat StatContainer

/-- `data[index]`, which creates an initial container if there is none. -/
noncomputable def StatData.at (dblMax : ℝ) (d : StatData) (i : Nat) : StatContainer :=
  (CMap.find? d i).getD (StatContainer.init dblMax)

/-- SymFncStatistics.cpp:80-89 `addValue`. -/
noncomputable def StatData.addValue (dblMax : ℝ) (d : StatData) (i : Nat) (v : ℝ) : StatData :=
  let c := d.at dblMax i
  CMap.set d i { c with count := c.count + 1, sum := c.sum + v, sum2 := c.sum2 + v * v,
                        min := Min.min c.min v, max := Max.max c.max v }

/-- SymFncStatistics.cpp:91-110 `addExtrapolationWarning`. -/
noncomputable def StatData.addEW (dblMax : ℝ) (d : StatData) (i type : Nat) (v Gmin Gmax : ℝ)
    (element : Str) (indexStructure indexAtom : Nat) : StatData :=
  let c := d.at dblMax i
  CMap.set d i { c with countEW := c.countEW + 1, Gmin := Gmin, Gmax := Gmax, type := type,
                        element := element
                        valueEW := c.valueEW ++ [v],
                        indexStructureEW := c.indexStructureEW ++ [indexStructure],
                        indexAtomEW := c.indexAtomEW ++ [indexAtom] }

/-- SymFncStatistics.cpp:138-149 `countExtrapolationWarnings`. -/
def StatData.countEW (d : StatData) : Nat := (d.map (fun p => p.2.countEW)).sum

/-- SymFncStatistics.cpp:151-160 `resetStatistics`. -/
noncomputable def StatData.resetStatistics (dblMax : ℝ) (d : StatData) : StatData :=
  d.map (fun p => (p.1, p.2.resetStatistics dblMax))

/-- SymFncStatistics.cpp:162-171 `resetExtrapolationWarnings`. -/
noncomputable def StatData.resetEW (d : StatData) : StatData :=
  d.map (fun p => (p.1, p.2.resetEW))

/-- Public switches of `SymFncStatistics` that influence results (writing to `cerr` is left out). -/
structure StatFlags where
  collectStatistics : Bool
  collectExtrapolationWarnings : Bool
  stopOnExtrapolationWarnings : Bool

/-- What `updateSymmetryFunctionStatistics` reads from an atom. -/
structure StatAtom where
  element : Nat
  numSymmetryFunctions : Nat
  indexStructure : Nat
  tag : Nat
  G : List ℝ

/-- What `updateSymmetryFunctionStatistics` reads from its element. -/
structure StatElement where
  index : Nat
  symbol : Str
  symmetryFunctions : List SymFncScaling
  flags : StatFlags

/-- Result of `updateSymmetryFunctionStatistics`: number of warnings or the exception thrown. -/
inductive StatResult
  | count (n : Nat)
  | wrongElement
  | wrongNumber
  | stopped
  | outOfRange
  deriving DecidableEq

/-- Element.cpp:478-538, loop body over the atom's symmetry functions. -/
noncomputable def updateStatLoop (dblMax eps : ℝ) (fl : StatFlags) (sym : Str) (a : StatAtom) :
    List SymFncScaling → List ℝ → StatData → Nat → StatData × StatResult
  | _, [], d, n => (d, .count n)
  | [], _ :: _, d, _ => (d, .outOfRange)
  | sf :: sfs, g :: gs, d, n =>
    let value := sf.unscale g
    let d := if fl.collectStatistics then d.addValue dblMax sf.index g else d
    if value + eps < sf.Gmin ∨ value - eps > sf.Gmax then
      let d := if fl.collectExtrapolationWarnings then
          d.addEW dblMax sf.index sf.type value sf.Gmin sf.Gmax sym a.indexStructure a.tag
        else d
      if fl.stopOnExtrapolationWarnings then (d, .stopped)
      else updateStatLoop dblMax eps fl sym a sfs gs d (n + 1)
    else updateStatLoop dblMax eps fl sym a sfs gs d n

/-- Element.cpp:462-541 `updateSymmetryFunctionStatistics`; `eps` is the 1000-fold machine
epsilon of line 465. -/
noncomputable def updateStatistics (dblMax eps : ℝ) (el : StatElement) (a : StatAtom)
    (d : StatData) : StatData × StatResult :=
  if a.element ≠ el.index then (d, .wrongElement)
  else if a.numSymmetryFunctions ≠ el.symmetryFunctions.length then (d, .wrongNumber)
  else updateStatLoop dblMax eps el.flags el.symbol a el.symmetryFunctions a.G d 0

/-- Calls that change the statistics of an element. -/
inductive StatEvent
  | update (a : StatAtom)
  | resetStatistics
  | resetEW
  | clear

/-- One call. -/
noncomputable def statStep (dblMax eps : ℝ) (el : StatElement) (d : StatData) :
    StatEvent → StatData
  | .update a => (updateStatistics dblMax eps el a d).1
  | .resetStatistics => d.resetStatistics dblMax
  | .resetEW => d.resetEW
  | .clear => []

/-- A history of calls, starting from an empty map. -/
noncomputable def statRun (dblMax eps : ℝ) (el : StatElement) (h : List StatEvent) : StatData :=
  h.foldl (statStep dblMax eps el) []

end N2P2
