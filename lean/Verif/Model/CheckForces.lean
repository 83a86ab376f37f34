import Verif.Model.Dataset
import Verif.Model.Prediction

/-! The tool nnp-checkf (nnp-checkf.cpp) for potentials of the second generation. The members of the base class `Mode` which
`Dataset` and `Prediction` share are taken from `Prediction`; its structure is not used. All processes hold the same original structure
(Dataset.cpp:893-898; messages: Model/Message). Not modelled: the log, the layout of the two files. Symmetry functions are calculated
one by one and always with derivatives (see Model/Mode). -/

namespace N2P2

/-- Dataset.cpp:933 (see `numericJob`). -/
def numericSign (count : ℕ) : ℤ := 2 * ((count % 6 / 3 : ℕ) : ℤ) - 1

/-- Dataset.cpp:943: the displaced atom, and no other, is moved back into the box. -/
noncomputable def Structure.backInBox (u : Structure) (r : Vec3) : Option Vec3 :=
  if u.isPeriodic then u.remapPosition r else some r

/-- Dataset.cpp:931-944: copy number `count`. The identifiers in the comment are `count` and the numbers computed from it. `none`: no
such atom, or undefined conversion in `remap`. -/
noncomputable def displacedCopy (u : Structure) (delta : ℝ) (count : ℕ) : Option Structure := do
  let i := count / 6
  let j : Fin 3 := ⟨count % 3, Nat.mod_lt _ (by decide)⟩
  let a ← u.atoms[i]?
  let r := Function.update a.r j (a.r j + (numericSign count : ℝ) * delta)
  let r ← u.backInBox r
  some { u with atoms := u.atoms.set i { a with r := r } }

/-- Atom.cpp:242-283 `free(true)`, unsorted neighbour list. -/
def Atom.freeAll (a : Atom) : Atom :=
  { a with
    G := []
    hasSymmetryFunctions := false
    dEdG := []
    dQdG := []
    dChidG := []
    dGdr := []
    neighbors := a.neighbors.map fun n => { n with cache := [], dGdr := [] }
    hasSymmetryFunctionDerivatives := false }

/-- Structure.cpp:1307-1317 `freeAtoms(true)`. -/
def Structure.freeAll (s : Structure) : Structure :=
  { s with
    atoms := s.atoms.map Atom.freeAll
    hasSymmetryFunctions := false
    hasSymmetryFunctionDerivatives := false }

/-- nnp-checkf.cpp:192, 201-217 for one structure (the loops over all structures are taken together). The five calls are those of
`evaluateNNP` (Mode.cpp:1967-2016). -/
noncomputable def checkEvaluate (srt : List Neighbor → List Neighbor) (q : Prediction) (M : Mode) (s : Structure)
    (needForces : Bool) : Option (Mode × Structure) := do
  let s ← q.toNormalized s
  let r ← M.evaluateNNP srt s needForces false
  let s ← q.toPhysical r.2.freeAll
  some (r.1, s)

/-- The same for all structures of a process. -/
noncomputable def checkAll (srt : List Neighbor → List Neighbor) (q : Prediction) (needForces : Bool) :
    Mode → List Structure → Option (Mode × List Structure)
  | M, [] => some (M, [])
  | M, s :: l => do
    let r ← checkEvaluate srt q M s needForces
    let t ← checkAll srt q needForces r.1 l
    some (t.1, r.2 :: t.2)

/-- Entries of the arrays `allEnergies`, `allAtoms`, `allXYZ`, `allSigns`. -/
abbrev CheckEntry := ℝ × ℕ × ℕ × ℤ

/-- nnp-checkf.cpp:195-198, 220-236: the arrays of a process. `none`: out of range. -/
noncomputable def fillTable (n : ℕ) (entries : List (ℕ × ℝ)) : Option (ℕ → CheckEntry) :=
  entries.foldlM (fun t e =>
    if e.1 < n then some (Function.update t e.1 (e.2, e.1 / 6, e.1 % 3, numericSign e.1)) else none) 0

/-- What a process has after the evaluation. -/
structure CheckPart where
  mode : Mode
  structures : List Structure
  table : ℕ → CheckEntry

/-- Dataset.cpp:900-947 and nnp-checkf.cpp:192-236 on process `p` of `numProcs`. -/
noncomputable def checkProcess (srt : List Neighbor → List Neighbor) (q : Prediction) (u : Structure) (delta : ℝ)
    (numProcs : ℕ) (M : Mode) (p : ℕ) : Option CheckPart := do
  let total := 1 + 6 * u.numAtoms
  let counts := (List.range (numericPerProc total numProcs p - (if p = 0 then 1 else 0))).map
    (numericCount total numProcs p + ·)
  let copies ← counts.mapM (displacedCopy u delta)
  let r ← checkAll srt q true M (if p = 0 then [u] else [])
  let t ← checkAll srt q false r.1 copies
  let table ← fillTable (total - 1) (counts.zip (t.2.map fun s => s.energy))
  some ⟨t.1, r.2 ++ t.2, table⟩

/-- nnp-checkf.cpp:259-269. `none`: out of range. -/
noncomputable def storeEnergy (t : ℕ → CheckEntry) (atoms : List Atom) (i : ℕ) : Option (List Atom) := do
  let a ← atoms[(t i).2.1]?
  if h : (t i).2.2.1 < 3 then
    if (t i).2.2.2 = 1 then
      some (atoms.set (t i).2.1 { a with fRef := Function.update a.fRef ⟨_, h⟩ (t i).1 })
    else if (t i).2.2.2 = -1 then
      some (atoms.set (t i).2.1 { a with f := Function.update a.f ⟨_, h⟩ (t i).1 })
    else some atoms
  else none

/-- A line of `checkf-forces.out` (atom and component count from zero). -/
structure CheckRow where
  atom : ℕ
  component : ℕ
  analytic : ℝ
  numeric : ℝ

/-- nnp-checkf.cpp:273-293: lines for the atom `a` of the original and its counterpart `ref`. -/
noncomputable def checkRows (delta : ℝ) (i : ℕ) (a ref : Atom) : List CheckRow :=
  (List.finRange 3).map fun j : Fin 3 => ⟨i, j.val, ref.f j, -(a.fRef j - a.f j) / (2 * delta)⟩

/-- A line of `checkf-summary.out`, and whether a warning is issued. -/
structure CheckResult where
  rows : List CheckRow
  numForces : ℕ
  meanAbsError : ℝ
  maxAbsError : ℝ
  warning : Bool

open Classical in
/-- nnp-checkf.cpp:270-312. -/
noncomputable def checkResult (delta : ℝ) (numAtoms : ℕ) (rows : List CheckRow) : CheckResult :=
  let sum := rows.foldl (fun (m : ℝ) r => m + |r.numeric - r.analytic|) 0
  let top := rows.foldl (fun (m : ℝ) r => max |r.numeric - r.analytic| m) 0
  ⟨rows, 3 * numAtoms, sum / ((3 * numAtoms : ℕ) : ℝ), top, decide (top > 10 * delta * delta)⟩

/-- nnp-checkf.cpp:184-313 for one configuration, all processes together. `modes`: the potential on each process. -/
noncomputable def checkForces (srt : List Neighbor → List Neighbor) (q : Prediction) (modes : List Mode) (u : Structure)
    (delta : ℝ) : Option (List Mode × CheckResult) := do
  let parts ← modes.zipIdx.mapM fun Mp => checkProcess srt q u delta modes.length Mp.1 Mp.2
  let table := (parts.map fun r => r.table).sum
  let atoms ← (List.range (6 * u.numAtoms)).foldlM (storeEnergy table) u.atoms
  let first ← parts.head?
  let ref ← first.structures.head?
  let rows ← atoms.zipIdx.mapM fun ai => (ref.atoms[ai.2]?).map (checkRows delta ai.2 ai.1)
  some (parts.map fun r => r.mode, checkResult delta u.atoms.length rows.flatten)

/-- nnp-checkf.cpp:182-313: all configurations. -/
noncomputable def checkConfigurations (srt : List Neighbor → List Neighbor) (q : Prediction) (delta : ℝ) :
    List Mode → List Structure → Option (List Mode × List CheckResult)
  | modes, [] => some (modes, [])
  | modes, u :: us => do
    let r ← checkForces srt q modes u delta
    let rs ← checkConfigurations srt q delta r.1 us
    some (rs.1, r.2 :: rs.2)

end N2P2
