import Mathlib.Analysis.SpecialFunctions.Pow.Real
import Mathlib.Algebra.Order.Floor.Ring
import Mathlib.Algebra.Order.Round
import Verif.Model.Structure

/-! Box geometry and neighbour lists (Vec3D.h, Structure.cpp, Atom.cpp). -/

namespace N2P2

/-- Vec3D.h:253-258, scalar product `operator*`. -/
def Vec3.dot (a b : Vec3) : ℝ := a 0 * b 0 + a 1 * b 1 + a 2 * b 2

/-- Vec3D.h:299-302. -/
def Vec3.norm2 (a : Vec3) : ℝ := a 0 * a 0 + a 1 * a 1 + a 2 * a 2

/-- Vec3D.h:294-297. -/
noncomputable def Vec3.norm (a : Vec3) : ℝ := √(a 0 * a 0 + a 1 * a 1 + a 2 * a 2)

/-- Vec3D.h:309-317. For the zero vector the code divides by zero (result not a number); here the
result is the zero vector. The theorems assume a box of non-zero volume, where this does not
happen. -/
noncomputable def Vec3.normalize (a : Vec3) : Vec3 := fun i => a i / a.norm

/-- Vec3D.h:319-328. -/
def Vec3.cross (a b : Vec3) : Vec3 :=
  ![a 1 * b 2 - a 2 * b 1, a 2 * b 0 - a 0 * b 2, a 0 * b 1 - a 1 * b 0]

/-- Vec3D.h:232-244 and 361-364, product of a matrix given by its columns with a vector:
`w[i] = sum_j A[j][i] * r[j]`. -/
def matVec (A : Fin 3 → Vec3) (v : Vec3) : Vec3 :=
  fun i => A 0 i * v 0 + A 1 i * v 1 + A 2 i * v 2

/-- Structure.cpp:521-526, the determinant in `calculateInverseBox`. -/
def boxDet (b : Fin 3 → Vec3) : ℝ :=
  b 0 0 * b 1 1 * b 2 2 + b 1 0 * b 2 1 * b 0 2 + b 2 0 * b 0 1 * b 1 2
    - b 2 0 * b 1 1 * b 0 2 - b 0 0 * b 2 1 * b 1 2 - b 1 0 * b 0 1 * b 2 2

/-- Structure.cpp:519-545 (division by zero for a singular box is excluded in the theorems). -/
noncomputable def Structure.calculateInverseBox (s : Structure) : Structure :=
  let b := s.box
  let invdet := 1 / boxDet b
  { s with invbox :=
    ![invdet • ![b 1 1 * b 2 2 - b 2 1 * b 1 2,
                 b 2 1 * b 0 2 - b 0 1 * b 2 2,
                 b 0 1 * b 1 2 - b 1 1 * b 0 2],
      invdet • ![b 2 0 * b 1 2 - b 1 0 * b 2 2,
                 b 0 0 * b 2 2 - b 2 0 * b 0 2,
                 b 1 0 * b 0 2 - b 0 0 * b 1 2],
      invdet • ![b 1 0 * b 2 1 - b 2 0 * b 1 1,
                 b 2 0 * b 0 1 - b 0 0 * b 2 1,
                 b 0 0 * b 1 1 - b 1 0 * b 0 1]] }

/-- Structure.cpp:581-586. -/
noncomputable def Structure.calculateVolume (s : Structure) : Structure :=
  { s with volume := |(s.box 0).dot ((s.box 1).cross (s.box 2))| }

/-- Conversion `(int)x` of a `double`: truncation towards zero, undefined (`none`) if the result is
not an `int`. -/
noncomputable def toInt? (x : ℝ) : Option Int :=
  let n := if 0 ≤ x then ⌊x⌋ else ⌈x⌉
  if -2147483648 ≤ n ∧ n ≤ 2147483647 then some n else none

/-- Structure.cpp:1230-1240, what `remap` does with one fractional coordinate. The code handles the
three components in parallel, which do not influence each other. -/
noncomputable def wrapCoord (f0 : ℝ) : Option ℝ := do
  let f1 ← if f0 > 1 then (toInt? f0).map (fun n : Int => f0 - (n : ℝ)) else some f0
  let f2 ← if f1 < 0 then (toInt? f1).map (fun n : Int => f1 + (1 - (n : ℝ))) else some f1
  if f2 = 1 then some 0 else some f2

/-- Structure.cpp:1223-1247, one atom. `none`: undefined conversion to `int`. -/
noncomputable def Structure.remapPosition (s : Structure) (r : Vec3) : Option Vec3 := do
  let f : Vec3 := r 0 • s.invbox 0 + r 1 • s.invbox 1 + r 2 • s.invbox 2
  let f0 ← wrapCoord (f 0)
  let f1 ← wrapCoord (f 1)
  let f2 ← wrapCoord (f 2)
  return f0 • s.box 0 + f1 • s.box 1 + f2 • s.box 2

/-- Structure.cpp:1214-1221. -/
noncomputable def Structure.remap (s : Structure) : Option Structure :=
  (s.atoms.mapM (fun a => (s.remapPosition a.r).map (fun r => { a with r := r }))).map
    (fun atoms => { s with atoms := atoms })

/-- Structure.cpp:488-498 and 550-562: the heights of the box along the three vectors,
`proja`, `projb`, `projc`. -/
noncomputable def boxProj (b : Fin 3 → Vec3) : Fin 3 → ℝ :=
  ![|(b 0).dot ((b 1).cross (b 2)).normalize|,
    |(b 1).dot ((b 0).cross (b 2)).normalize|,
    |(b 2).dot ((b 0).cross (b 1)).normalize|]

open Classical in
/-- The number of iterations of `n = 0; while (p(n)) n++;`, `none` if the loop never ends. -/
noncomputable def whileCount (p : ℕ → Prop) : Option ℕ :=
  if h : ∃ n, ¬ p n then some (Nat.find h) else none

/-- Structure.cpp:486-517. `none`: one of the loops never ends. The counters are unbounded here,
`int` in the code. -/
noncomputable def Structure.calculatePbcCopies (s : Structure) (cutoffRadius : ℝ) :
    Option (Fin 3 → Int) := do
  let proj := boxProj s.box
  let p0 ← whileCount (fun n => (n : ℝ) * proj 0 ≤ cutoffRadius)
  let p1 ← whileCount (fun n => (n : ℝ) * proj 1 ≤ cutoffRadius)
  let p2 ← whileCount (fun n => (n : ℝ) * proj 2 ≤ cutoffRadius)
  return ![(p0 : Int), (p1 : Int), (p2 : Int)]

/-- Structure.cpp:548-565. -/
def Structure.canMinimumImageConventionBeApplied (s : Structure) (cutoffRadius : ℝ) : Prop :=
  cutoffRadius < min (boxProj s.box 0) (min (boxProj s.box 1) (boxProj s.box 2)) / 2

/-- C function `round`: nearest integer, halfway cases away from zero. -/
noncomputable def cround (x : ℝ) : ℝ := if 0 ≤ x then (⌊x + 1 / 2⌋ : ℝ) else (⌈x - 1 / 2⌉ : ℝ)

/-- Structure.cpp:567-579. -/
noncomputable def Structure.applyMinimumImageConvention (s : Structure) (dr : Vec3) : Vec3 :=
  let ds := matVec s.invbox dr
  let dsNINT : Vec3 := fun i => cround (ds i)
  matVec s.box (ds - dsNINT)

/-- Loop variable of `for (int bc = -p; bc <= p; bc++)`. -/
def bcRange (p : Int) : List Int := (List.range (2 * p + 1).toNat).map (fun k : Nat => (k : Int) - p)

/-- Structure.cpp:321-340 and 375-382: append a neighbour and count it. `numNeighborsPerElement[e]`
is out of bounds (undefined) if the vector is too short; `modify` then does nothing. The theorems
assume it is long enough. -/
noncomputable def Atom.pushNeighbor (a : Atom) (j e : ℕ) (dr : Vec3) : Atom :=
  { a with
    neighbors := a.neighbors ++
      [{ index := j, tag := (j : Int), element := e, d := dr.norm, dr := dr, cache := [],
         dGdr := [] }]
    numNeighborsPerElement := a.numNeighborsPerElement.modify e (· + 1)
    numNeighbors := a.numNeighbors + 1 }

/-- `neighborsUnique.push_back(j); numNeighborsUnique++;`. -/
def Atom.pushUnique (a : Atom) (j : ℕ) : Atom :=
  { a with
    neighborsUnique := a.neighborsUnique ++ [j]
    numNeighborsUnique := a.numNeighborsUnique + 1 }

/-- Structure.cpp:314-319, distance vector to the image of atom `j` shifted by box vectors. -/
def imageDr (box : Fin 3 → Vec3) (ri rj : Vec3) (bc : Int × Int × Int) : Vec3 :=
  ri - rj + (bc.1 : ℝ) • box 0 + (bc.2.1 : ℝ) • box 1 + (bc.2.2 : ℝ) • box 2

open Classical in
/-- Structure.cpp:312-347, body of the innermost loop for atoms `i`, `j` (the latter given by index,
element and position) and box indices `bc`. -/
noncomputable def periodicStep (box : Fin 3 → Vec3) (rc2 : ℝ) (i : ℕ) (ri : Vec3)
    (a : Atom) (j : ℕ × Atom) (bc : Int × Int × Int) : Atom :=
  if ¬ (i = j.1 ∧ bc.1 = 0 ∧ bc.2.1 = 0 ∧ bc.2.2 = 0) then
    let dr := imageDr box ri j.2.r bc
    if dr.norm2 ≤ rc2 then
      let a' := a.pushNeighbor j.1 j.2.element dr
      if a'.neighborsUnique.getLast? ≠ some j.1 ∧ i ≠ j.1 then a'.pushUnique j.1 else a'
    else a
  else a

/-- Structure.cpp:306-310, the three loops over box indices. -/
def bcList (pbc : Fin 3 → Int) : List (Int × Int × Int) :=
  (bcRange (pbc 0)).flatMap (fun b0 =>
    (bcRange (pbc 1)).flatMap (fun b1 => (bcRange (pbc 2)).map (fun b2 => (b0, b1, b2))))

/-- Structure.cpp:300-353, periodic case for atom `i`. -/
noncomputable def periodicNeighbors (box : Fin 3 → Vec3) (pbc : Fin 3 → Int) (rc2 : ℝ)
    (atoms : List Atom) (i : ℕ) (a : Atom) : Atom :=
  let a1 := (atoms.zipIdx.map Prod.swap).foldl
    (fun a' j => (bcList pbc).foldl (fun a'' bc => periodicStep box rc2 i a.r a'' j bc) a')
    (a.pushUnique i)
  { a1 with hasNeighborList := true }

open Classical in
/-- Structure.cpp:370-387, body of the loop over `j`, non-periodic case. -/
noncomputable def openStep (rc2 : ℝ) (i : ℕ) (ri : Vec3) (a : Atom) (j : ℕ × Atom) : Atom :=
  if i ≠ j.1 then
    let dr := ri - j.2.r
    if dr.norm2 ≤ rc2 then (a.pushNeighbor j.1 j.2.element dr).pushUnique j.1 else a
  else a

/-- Structure.cpp:363-389, non-periodic case for atom `i`. -/
noncomputable def openNeighbors (rc2 : ℝ) (atoms : List Atom) (i : ℕ) (a : Atom) : Atom :=
  let a1 := (atoms.zipIdx.map Prod.swap).foldl (fun a' j => openStep rc2 i a.r a' j)
    (a.pushUnique i)
  { a1 with hasNeighborList := true }

/-- Structure.cpp:409-421 with `std::sort` and `operator<` of `Neighbor` (Atom.cpp:600-604, by
distance) given as a parameter: any function returning a sorted permutation. -/
def Structure.sortNeighborList (srt : List Neighbor → List Neighbor) (s : Structure) : Structure :=
  { s with
    atoms := s.atoms.map (fun a =>
      { a with neighbors := srt a.neighbors, neighborListIsSorted := true })
    neighborListIsSorted := true }

/-- Structure.cpp:287-399. Each atom reads the positions and elements of all atoms, which do not
change, and writes only its own neighbour data; the loop over `i` (parallel in the code) is
therefore a map. `numAtoms` is the number of atoms. `none`: `calculatePbcCopies` never ends. -/
noncomputable def Structure.calculateNeighborList (srt : List Neighbor → List Neighbor)
    (s : Structure) (cutoffRadius : ℝ) (sortByDistance : Bool) : Option Structure := do
  let rc := max cutoffRadius s.maxCutoffRadiusOverall
  let s1 ←
    if s.isPeriodic then do
      let pbc ← s.calculatePbcCopies rc
      pure { s with
        pbc := pbc
        atoms := s.atoms.mapIdx (fun i a => periodicNeighbors s.box pbc (rc * rc) s.atoms i a) }
    else
      pure { s with atoms := s.atoms.mapIdx (fun i a => openNeighbors (rc * rc) s.atoms i a) }
  let s2 := { s1 with hasNeighborList := true }
  return if sortByDistance then s2.sortNeighborList srt else s2

open Classical in
/-- Structure.cpp:429-441, preparation of the cutoffs of one element. `std::sort` on numbers is
`insertionSort` (the sorted permutation of a list of numbers is unique); sorting a sorted list
changes nothing. -/
noncomputable def prepareCutoffs (maxCutoffRadiusOverall : ℝ) (cutoffs : List ℝ) : List ℝ :=
  let c := if 0 < maxCutoffRadiusOverall ∧ maxCutoffRadiusOverall ∉ cutoffs
    then cutoffs ++ [maxCutoffRadiusOverall] else cutoffs
  c.insertionSort (· ≤ ·)

open Classical in
/-- Structure.cpp:449-470, the `while` loop for one atom with the indices `inn` and `ic`. Each
iteration increases one of them, and `inn` stays below `numNeighbors` and `ic` below the size, so
`fuel = numNeighbors + size` iterations are enough. -/
noncomputable def cutoffMapLoop (numNeighbors : ℕ) (neighbors : List Neighbor) (cut : List ℝ) :
    ℕ → ℕ → ℕ → CMap ℝ ℕ → CMap ℝ ℕ
  | 0, _, _, m => m
  | fuel + 1, inn, ic, m =>
    match decide (inn < numNeighbors), neighbors[inn]?, cut[ic]? with
    | true, some n, some c =>
      if n.d > c then cutoffMapLoop numNeighbors neighbors cut fuel inn (ic + 1) (m.emplace c inn)
      else if inn = numNeighbors - 1 then
        cutoffMapLoop numNeighbors neighbors cut fuel inn (ic + 1) (m.emplace c numNeighbors)
      else cutoffMapLoop numNeighbors neighbors cut fuel (inn + 1) ic m
    | _, _, _ => m

/-- Structure.cpp:423-471. Errors: `runtime_error` for an unsorted list (425-426), `out_of_range`
from `cutoffs.at` (447). -/
noncomputable def Structure.setupNeighborCutoffMap (s : Structure) (cutoffs : List (List ℝ)) :
    Option Structure :=
  if ¬ s.neighborListIsSorted then none
  else
    let cuts := cutoffs.map (prepareCutoffs s.maxCutoffRadiusOverall)
    (s.atoms.mapM (fun a => (cuts[a.element]?).map (fun c =>
      { a with neighborCutoffs := (cutoffMapLoop a.numNeighbors a.neighbors c
          (a.numNeighbors + c.length) 0 0 a.neighborCutoffs) }))).map
      (fun atoms => { s with atoms := atoms })

/-- Structure.cpp:401-407, neighbour list with stored counts. -/
noncomputable def Structure.calculateNeighborListCutoffs (srt : List Neighbor → List Neighbor)
    (s : Structure) (cutoffRadius : ℝ) (cutoffs : List (List ℝ)) : Option Structure := do
  let s1 ← s.calculateNeighborList srt cutoffRadius true
  s1.setupNeighborCutoffMap cutoffs

open Classical in
/-- Atom.cpp:307-327. -/
noncomputable def Atom.calculateNumNeighbors (a : Atom) (cutoffRadius : ℝ) : ℕ :=
  match a.neighborCutoffs.find? cutoffRadius with
  | some n => n
  | none => a.neighbors.countP (fun n => n.d ≤ cutoffRadius)

open Classical in
/-- Atom.cpp:329-338. -/
noncomputable def Atom.getStoredMinNumNeighbors (a : Atom) (cutoffRadius : ℝ) : ℕ :=
  match a.neighborCutoffs.find? cutoffRadius with
  | some n => n
  | none => a.numNeighbors

/-- `vector::resize(n, 0)`: cut off or fill up with zeros. -/
def resizeNat (l : List ℕ) (n : ℕ) : List ℕ := l.take n ++ List.replicate (n - l.length) 0

/-- Atom.cpp:242-305, `clearNeighborList` with `free(true)`. The freed members of the neighbours are
not shown because the neighbours are deleted afterwards. -/
def Atom.clearNeighborList (a : Atom) (numElements : ℕ) : Atom :=
  { a with
    G := [], hasSymmetryFunctions := false, dEdG := [], dQdG := [], dChidG := [], dGdr := []
    hasSymmetryFunctionDerivatives := false
    numNeighbors := 0
    numNeighborsPerElement := resizeNat a.numNeighborsPerElement numElements
    numNeighborsUnique := 0
    neighborsUnique := []
    neighbors := []
    hasNeighborList := false }

/-- Structure.cpp:1356-1370. -/
def Structure.clearNeighborList (s : Structure) : Structure :=
  { s with
    atoms := s.atoms.map (fun a =>
      let a' := { a with
        numNeighborsPerElement := resizeNat a.numNeighborsPerElement s.numElements }
      a'.clearNeighborList a'.numNeighborsPerElement.length)
    hasNeighborList := false
    hasSymmetryFunctions := false
    hasSymmetryFunctionDerivatives := false }

end N2P2
