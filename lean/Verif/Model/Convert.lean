import Verif.Model.DataFile
import Verif.Model.Prediction
import Verif.Model.WeightFile

/-! Other file formats: Structure.cpp:1533-1639 and nnp-convert.cpp. Messages to the log are left out. -/

namespace N2P2

/-- `%d` with an argument of type `size_t`. `none`: the value is not an `int`. -/
def intField (n : ℕ) : Option Str := if n < 2 ^ 31 then some (natText n) else none

/-- `%24.16E %24.16E %24.16E` and what follows in the format. -/
noncomputable def threeFields (N : NumberText) (v : Vec3) (tail : Str) : Option Str :=
  strpr (N.field (v 0) ++ ' ' :: (N.field (v 1) ++ ' ' :: (N.field (v 2) ++ tail)))

/-! ### XYZ -/

/-- Structure.cpp:1541-1554. -/
noncomputable def xyzLattice (N : NumberText) (s : Structure) : Option Str :=
  if s.isPeriodic then do
    let a ← threeFields N (s.box 0) [' ']
    let b ← threeFields N (s.box 1) [' ']
    let c ← threeFields N (s.box 2) ['"', '\n']
    some ("Lattice=\"".toList ++ a ++ b ++ c)
  else some ['\n']

/-- Structure.cpp:1555-1563, one atom. -/
noncomputable def xyzAtom (N : NumberText) (m : EMap) (a : Atom) : Option Str := do
  let symbol ← (m.symbol a.element).toOption
  strpr (padRight 2 (cString symbol) ++ ' ' ::
    (N.field (a.r 0) ++ ' ' :: (N.field (a.r 1) ++ ' ' :: (N.field (a.r 2) ++ ['\n']))))

/-- Structure.cpp:1533-1566 `writeToFileXyz`: the text written. The file is open. -/
noncomputable def Structure.writeToFileXyz (N : NumberText) (m : EMap) (s : Structure) :
    Option Str := do
  let n ← intField s.numAtoms
  let b ← xyzLattice N s
  let as ← s.atoms.mapM (xyzAtom N m)
  some (n ++ '\n' :: (b ++ as.flatten))

/-! ### POSCAR -/

/-- Structure.cpp:1593-1599. -/
def poscarTitle (m : EMap) (comment : Str) (order : List ℕ) : Option Str := do
  let c ← strpr (cString comment ++ [',', ' '])
  let first ← order.head?
  let w ← (m.symbol first).toOption
  let a ← strpr ("ATOM=".toList ++ cString w)
  let as ← order.tail.mapM fun e => do
    let w ← (m.symbol e).toOption
    strpr (' ' :: cString w)
  some (c ++ a ++ as.flatten ++ ['\n'])

/-- Structure.cpp:1601-1614. The exception for structures which are not periodic is constructed, but not
thrown. -/
noncomputable def poscarBox (N : NumberText) (s : Structure) : Option Str :=
  if s.isPeriodic then do
    let a ← threeFields N (s.box 0) ['\n']
    let b ← threeFields N (s.box 1) ['\n']
    let c ← threeFields N (s.box 2) ['\n']
    some (a ++ b ++ c)
  else some []

/-- One number of Structure.cpp:1615-1619: the atoms of the element at place `i` of the order. -/
def poscarCount (s : Structure) (order : List ℕ) (i : ℕ) : Option Str := do
  let e ← order[i]?
  let n ← s.numAtomsPerElement[e]?
  intField n

/-- Structure.cpp:1615-1620. -/
def poscarCounts (s : Structure) (order : List ℕ) : Option Str := do
  let a ← poscarCount s order 0
  let as ← (List.range (s.numAtomsPerElement.length - 1)).mapM fun i =>
    (poscarCount s order (i + 1)).map (' ' :: ·)
  some (a ++ as.flatten ++ ['\n'])

/-- Structure.cpp:1622-1636. -/
noncomputable def poscarAtoms (N : NumberText) (s : Structure) (order : List ℕ) : Option Str := do
  let parts ← order.mapM fun e =>
    (s.atoms.filter fun a => a.element = e).mapM fun a => threeFields N a.r ['\n']
  some parts.flatten.flatten

/-- Structure.cpp:1575-1639 `writeToFilePoscar`: the text written. The exception for a wrong number of
elements is constructed, but not thrown. -/
noncomputable def Structure.writeToFilePoscar (N : NumberText) (m : EMap) (s : Structure)
    (elements : Str) : Option Str := do
  let order ← (split elements).mapM fun w => (m.index w).toOption
  let t ← poscarTitle m s.comment order
  let b ← poscarBox N s
  let c ← poscarCounts s order
  let as ← poscarAtoms N s order
  some (t ++ "1.0\n".toList ++ b ++ c ++ "Cartesian\n".toList ++ as)

/-! ### nnp-convert -/

/-- nnp-convert.cpp:79-85: the arguments in one string. -/
def joinWords : List Str → Str
  | [] => []
  | w :: ws => w ++ ws.flatMap (' ' :: ·)

/-- nnp-convert.cpp:103-127: what is written for each structure, where `write` writes one of them and `k`
counts the structures. At least one line is read in each round, so the number of lines is enough
fuel. -/
noncomputable def convertLoop (N : NumberText) (m : EMap) {α : Type}
    (write : ℕ → Structure → Option α) : ℕ → Structure → ℕ → List Str → Option (List α)
  | 0, _, _, _ => some []
  | fuel + 1, s, k, file =>
    if file = [] then some []
    else do
      let r ← s.readFromFile N m file
      let t ← write k r.1
      let ts ← convertLoop N m write fuel (r.1.reset m.size) (k + 1) r.2
      some (t :: ts)

/-- nnp-convert.cpp:34-137: names and contents of the files written. `none`: the program ends with an
error. -/
noncomputable def convert (N : NumberText) (format : Str) (args : List Str) (file : List Str) :
    Option (List (Str × Str)) :=
  if args = [] then none
  else do
    let elements := joinWords args
    let m ← (EMap.empty.registerElements elements).toOption
    let s := Structure.init.setElementMap m.1
    if format = "xyz".toList then do
      let ts ← convertLoop N m.1 (fun _ u => u.writeToFileXyz N m.1) file.length s 0 file
      some [("input.xyz".toList, ts.flatten)]
    else if format = "poscar".toList then
      convertLoop N m.1 (fun k u => do
        let n ← intField (k + 1)
        let t ← u.writeToFilePoscar N m.1 elements
        some ("POSCAR_".toList ++ n, t)) file.length s 0 file
    else none

end N2P2
