import Mathlib.Analysis.SpecialFunctions.Gaussian.GaussianIntegral
import Mathlib.MeasureTheory.Integral.IntervalIntegral.Basic
import Verif.Model.Geometry

/-! The reciprocal grid (Kspace.cpp) and the buffer of values of the complementary error function
(ErfcBuf.cpp). -/

namespace N2P2

/-! ### Reciprocal grid -/

/-- EwaldSetup.h `EwaldParameters`: the members used in the summation. -/
structure EwaldParameters where
  eta : ℝ
  rCut : ℝ
  kCut : ℝ

/-- Kspace.h `Kvector`. -/
structure Kvector where
  k : Vec3
  knorm2 : ℝ
  coeff : ℝ

/-- Kspace.cpp:34-38, conversion from `Vec3D` (the member `knorm2` is set to the norm). -/
noncomputable def Kvector.ofVec (v : Vec3) : Kvector := ⟨v, v.norm, 0⟩

/-- Kspace.h `KspaceGrid`. -/
structure KspaceGrid where
  eta : ℝ
  kCut : ℝ
  volume : ℝ
  pre : ℝ
  n : Fin 3 → ℤ
  kbox : Fin 3 → Vec3
  kvectors : List Kvector

/-- Kspace.cpp:40-45 (`n` is not initialised by the code; 0 here). -/
def KspaceGrid.init : KspaceGrid :=
  { eta := 0, kCut := 0, volume := 0, pre := 0, n := 0, kbox := 0, kvectors := [] }

/-- Kspace.cpp:87-113 `calculatePbcCopies`. `none`: one of the loops never ends. The counters are
unbounded here, `int` in the code. -/
noncomputable def KspaceGrid.calculatePbcCopies (g : KspaceGrid) (cutoffRadius : ℝ) :
    Option KspaceGrid := do
  let axb := ((g.kbox 0).cross (g.kbox 1)).normalize
  let axc := ((g.kbox 0).cross (g.kbox 2)).normalize
  let bxc := ((g.kbox 1).cross (g.kbox 2)).normalize
  let proja := |(g.kbox 0).dot bxc|
  let projb := |(g.kbox 1).dot axc|
  let projc := |(g.kbox 2).dot axb|
  let n0 ← whileCount (fun n => (n : ℝ) * proja ≤ cutoffRadius)
  let n1 ← whileCount (fun n => (n : ℝ) * projb ≤ cutoffRadius)
  let n2 ← whileCount (fun n => (n : ℝ) * projc ≤ cutoffRadius)
  return { g with n := ![(n0 : ℤ), (n1 : ℤ), (n2 : ℤ)] }

/-- Loop variable of `for (int i = a; i <= b; ++i)`. -/
def intRange (a b : ℤ) : List ℤ := (List.range (b - a + 1).toNat).map (fun k : ℕ => a + (k : ℤ))

/-- Kspace.cpp:63-72, values of the three loop variables for which the body is executed. -/
def kLoop (n : Fin 3 → ℤ) : List (ℤ × ℤ × ℤ) :=
  (intRange 0 (n 0)).flatMap fun i =>
    let sj := if i = 0 then 0 else -n 1
    (intRange sj (n 1)).flatMap fun j =>
      let sk := if i = 0 ∧ j = 0 then 0 else -n 2
      ((intRange sk (n 2)).filter fun k => ¬ (i = 0 ∧ j = 0 ∧ k = 0)).map fun k => (i, j, k)

open Classical in
/-- Kspace.cpp:73-81, body of the loops. -/
noncomputable def KspaceGrid.step (g : KspaceGrid) (m : ℤ × ℤ × ℤ) : KspaceGrid :=
  let kv : Vec3 := (m.1 : ℝ) • g.kbox 0 + (m.2.1 : ℝ) • g.kbox 1 + (m.2.2 : ℝ) • g.kbox 2
  let knorm2 := kv.norm2
  if kv.norm2 < g.kCut * g.kCut then
    { g with kvectors := g.kvectors ++ [{ Kvector.ofVec kv with
        knorm2 := knorm2
        coeff := Real.exp (-0.5 * g.eta * g.eta * knorm2) * 2.0 * g.pre / knorm2 }] }
  else g

/-- Kspace.cpp:47-85 `setup`. The vectors are appended to those already there. `none`:
`calculatePbcCopies` never ends. -/
noncomputable def KspaceGrid.setup (g : KspaceGrid) (box : Fin 3 → Vec3) (p : EwaldParameters) :
    Option KspaceGrid := do
  let volume := |(box 0).dot ((box 1).cross (box 2))|
  let pre := 2.0 * Real.pi / volume
  let g1 := { g with
    volume := volume
    pre := pre
    kbox := ![pre • (box 1).cross (box 2), pre • (box 2).cross (box 0), pre • (box 0).cross (box 1)]
    eta := p.eta
    kCut := p.kCut }
  let g2 ← g1.calculatePbcCopies p.kCut
  return (kLoop g2.n).foldl KspaceGrid.step g2

/-! ### Error function and its buffer -/

/-- C function `erf`. -/
noncomputable def erf (x : ℝ) : ℝ := 2 / √Real.pi * ∫ t in (0 : ℝ)..x, Real.exp (-t ^ 2)

/-- C function `erfc`. -/
noncomputable def erfc (x : ℝ) : ℝ := 1 - erf x

/-- ErfcBuf.h `ErfcBuf`. -/
structure ErfcBuf where
  f : List (List ℝ)
  numValuesPerPair : ℕ

/-- ErfcBuf.h:45-49, initial values. -/
def ErfcBuf.init : ErfcBuf := ⟨[], 1⟩

/-- ErfcBuf.cpp:10-19. -/
def ErfcBuf.reset (_ : ErfcBuf) (atoms : List Atom) (valuesPerPair : ℕ) : ErfcBuf :=
  ⟨atoms.map fun a => List.replicate (a.numNeighbors * valuesPerPair) (-1), valuesPerPair⟩

open Classical in
/-- ErfcBuf.cpp:21-32. `none`: `at` out of range. -/
noncomputable def ErfcBuf.getf (b : ErfcBuf) (atomIndex neighIndex valIndex : ℕ) (x : ℝ) :
    Option (ℝ × ErfcBuf) := do
  let j := neighIndex * b.numValuesPerPair + valIndex
  let row ← b.f[atomIndex]?
  let v ← row[j]?
  if v = -1 then
    return (erfc x, { b with f := b.f.set atomIndex (row.set j (erfc x)) })
  else return (v, b)

end N2P2
