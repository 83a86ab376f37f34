import Verif.Model.Geometry
import Verif.Model.ElementMap

/-! Structures in data files (Structure.cpp:71-271 and 1449-1531). -/

namespace N2P2

/-- Numbers in text: `print x` is what `printf` writes for `%.16E`, `atof` the number read. -/
structure NumberText where
  print : ℝ → Str
  atof : Str → ℝ

/-! ### Keywords -/

/-- "begin" -/
def keyBegin : Str := ['b', 'e', 'g', 'i', 'n']

/-- "comment" -/
def keyComment : Str := ['c', 'o', 'm', 'm', 'e', 'n', 't']

/-- "lattice" -/
def keyLattice : Str := ['l', 'a', 't', 't', 'i', 'c', 'e']

/-- "atom" -/
def keyAtom : Str := ['a', 't', 'o', 'm']

/-- "energy" -/
def keyEnergy : Str := ['e', 'n', 'e', 'r', 'g', 'y']

/-- "charge" -/
def keyCharge : Str := ['c', 'h', 'a', 'r', 'g', 'e']

/-- "end" -/
def keyEnd : Str := ['e', 'n', 'd']

/-! ### Writing -/

/-- Padding with spaces on the left to a field width, as `printf` does it. -/
def padLeft (n : ℕ) (s : Str) : Str := List.replicate (n - s.length) ' ' ++ s

/-- utility.cpp:90-102 `strpr`: the formatted text. `none`: it does not fit into the buffer of 1024
bytes together with the terminating zero (undefined behaviour of `vsprintf`). -/
def strpr (s : Str) : Option Str := if s.length < 1024 then some s else none

/-- `c_str()` printed with `%s`: ends at the first zero byte. -/
def cString (s : Str) : Str := s.takeWhile (· ≠ Char.ofNat 0)

/-- `%24.16E`. -/
def NumberText.field (N : NumberText) (x : ℝ) : Str := padLeft 24 (N.print x)

/-- Keyword and fields, separated by spaces. -/
def fieldLine (key : Str) (fields : List Str) : Str := key ++ fields.flatMap (' ' :: ·) ++ ['\n']

/-- Structure.cpp:1488-1492, one vector. -/
def writeBoxVector (N : NumberText) (v : Vec3) : Option Str :=
  strpr (fieldLine keyLattice [N.field (v 0), N.field (v 1), N.field (v 2)])

/-- Structure.cpp:1486-1493. -/
def writeBox (N : NumberText) (s : Structure) : Option Str :=
  if s.isPeriodic then do
    let l0 ← writeBoxVector N (s.box 0)
    let l1 ← writeBoxVector N (s.box 1)
    let l2 ← writeBoxVector N (s.box 2)
    some (l0 ++ l1 ++ l2)
  else some []

/-- Structure.cpp:1494-1522, one atom. `none` also if `elementMap[..]` throws. -/
noncomputable def writeAtom (N : NumberText) (m : EMap) (ref : Bool) (a : Atom) : Option Str := do
  let symbol ← (m.symbol a.element).toOption
  let q := if ref then a.chargeRef else a.charge
  let f := if ref then a.fRef else a.f
  strpr (fieldLine keyAtom [N.field (a.r 0), N.field (a.r 1), N.field (a.r 2),
    padLeft 2 (cString symbol), N.field q, N.field 0, N.field (f 0), N.field (f 1), N.field (f 2)])

/-- Structure.cpp:1474-1531 `writeToFile`: the text written. -/
noncomputable def Structure.writeToFile (N : NumberText) (m : EMap) (s : Structure) (ref : Bool) :
    Option Str := do
  let c ← strpr (fieldLine keyComment [cString s.comment])
  let b ← writeBox N s
  let as ← s.atoms.mapM (writeAtom N m ref)
  let e ← strpr (fieldLine keyEnergy [N.field (if ref then s.energyRef else s.energy)])
  let q ← strpr (fieldLine keyCharge [N.field (if ref then s.chargeRef else s.charge)])
  some ((keyBegin ++ ['\n']) ++ c ++ b ++ as.flatten ++ e ++ q ++ (keyEnd ++ ['\n']))

/-! ### Reading -/

/-- Structure.cpp:71-78 `setElementMap` (the map itself is a parameter of the functions here). -/
def Structure.setElementMap (s : Structure) (m : EMap) : Structure :=
  { s with
    numElements := m.size
    numAtomsPerElement := resizeNat s.numAtomsPerElement m.size }

/-- Position of the first occurrence, `std::string::find`. -/
def findText (pat : Str) : Str → Option ℕ
  | [] => if pat = [] then some 0 else none
  | c :: cs => if pat.isPrefixOf (c :: cs) then some 0 else (findText pat cs).map (· + 1)

/-- `std::string::erase(pos, n)`. -/
def eraseText (s : Str) (pos n : ℕ) : Str := s.take pos ++ s.drop (pos + n)

/-- `std::numeric_limits<double>::min()`. -/
noncomputable def doubleMin : ℝ := (2 : ℝ) ^ (-1022 : ℤ)

/-- `std::numeric_limits<double>::epsilon()`. -/
noncomputable def doubleEpsilon : ℝ := (2 : ℝ) ^ (-52 : ℤ)

/-- Structure.cpp:162-177, arguments of "begin". `none`: exception. -/
def readBegin (s : Structure) (words : List Str) : Option Structure :=
  words.foldlM (fun s w =>
    if w = "set=train".toList then some { s with sampleType := .training }
    else if w = "set=test".toList then some { s with sampleType := .test }
    else none) s

/-- Structure.cpp:178-183. -/
def readComment (s : Structure) (line : Str) : Option Structure :=
  (findText keyComment line).map fun pos =>
    { s with comment := eraseText line pos (keyComment.length + 1) }

open Classical in
/-- Structure.cpp:194-207, after the third vector. -/
noncomputable def Structure.completeBox (s : Structure) : Structure :=
  let s := { s with
    isPeriodic := true
    isTriclinic := if s.box 0 1 > doubleMin ∨ s.box 0 2 > doubleMin ∨ s.box 1 0 > doubleMin ∨
        s.box 1 2 > doubleMin ∨ s.box 2 0 > doubleMin ∨ s.box 2 1 > doubleMin then true
      else s.isTriclinic }
  s.calculateInverseBox.calculateVolume

/-- Structure.cpp:184-209. `n`: number of vectors read before. -/
noncomputable def readLattice (N : NumberText) (s : Structure) (n : ℕ) (words : List Str) :
    Option (Structure × ℕ) :=
  if h : n < 3 then do
    let x ← words[1]?
    let y ← words[2]?
    let z ← words[3]?
    let s := { s with box := Function.update s.box ⟨n, h⟩ ![N.atof x, N.atof y, N.atof z] }
    some (if n + 1 = 3 then s.completeBox else s, n + 1)
  else none

/-- Structure.cpp:210-227. -/
noncomputable def readAtom (N : NumberText) (m : EMap) (s : Structure) (words : List Str) :
    Option Structure := do
  let x ← words[1]?
  let y ← words[2]?
  let z ← words[3]?
  let symbol ← words[4]?
  let e ← (m.index symbol).toOption
  let q ← words[5]?
  let fx ← words[7]?
  let fy ← words[8]?
  let fz ← words[9]?
  let c ← s.numAtomsPerElement[e]?
  some { s with
    atoms := s.atoms ++ [{ Atom.init with
      index := s.numAtoms
      indexStructure := s.index
      tag := s.numAtoms
      r := ![N.atof x, N.atof y, N.atof z]
      element := e
      chargeRef := N.atof q
      fRef := ![N.atof fx, N.atof fy, N.atof fz]
      numNeighborsPerElement := List.replicate s.numElements 0 }]
    numAtoms := s.numAtoms + 1
    numAtomsPerElement := s.numAtomsPerElement.set e (c + 1) }

open Classical in
/-- Structure.cpp:236-252, checks at "end". -/
noncomputable def checkEnd (s : Structure) (n : ℕ) : Option Structure :=
  if ¬ (n = 0 ∨ n = 3) then none
  else if s.isPeriodic ∧ |s.chargeRef| > 10 * doubleEpsilon then none
  else some s

/-- Structure.cpp:155-260, loop over the lines. `none`: exception, or access beyond the end
(`splitLine[1]`). -/
noncomputable def readLoop (N : NumberText) (m : EMap) : List Str → Structure → ℕ → Option Structure
  | [], s, _ => some s
  | line :: lines, s, n => do
    let words := split (reduce line)
    let key ← words.head?
    if key = keyBegin then do
      let s ← readBegin s words.tail
      readLoop N m lines s n
    else if key = keyComment then do
      let s ← readComment s line
      readLoop N m lines s n
    else if key = keyLattice then do
      let r ← readLattice N s n words
      readLoop N m lines r.1 r.2
    else if key = keyAtom then do
      let s ← readAtom N m s words
      readLoop N m lines s n
    else if key = keyEnergy then do
      let w ← words[1]?
      readLoop N m lines { s with energyRef := N.atof w } n
    else if key = keyCharge then do
      let w ← words[1]?
      readLoop N m lines { s with chargeRef := N.atof w } n
    else if key = keyEnd then checkEnd s n
    else none

/-- Structure.cpp:262-268: number of elements present. `none`: out of range. -/
def Structure.countPresent (s : Structure) : Option Structure :=
  (List.range s.numElements).foldlM (fun s i => do
    let c ← s.numAtomsPerElement[i]?
    some (if 0 < c then { s with numElementsPresent := s.numElementsPresent + 1 } else s)) s

/-- Structure.cpp:270. -/
noncomputable def Structure.remapIfPeriodic (s : Structure) : Option Structure :=
  if s.isPeriodic then s.remap else some s

/-- Structure.cpp:142-271 `readFromLines`. -/
noncomputable def Structure.readFromLines (N : NumberText) (m : EMap) (s : Structure)
    (lines : List Str) : Option Structure := do
  let line ← lines.head?
  let key ← (split (reduce line)).head?
  if key ≠ keyBegin then none
  else do
    let s ← readLoop N m lines s 0
    let s ← s.countPresent
    s.remapIfPeriodic

/-- Structure.cpp:128-133: lines up to "end", and the rest of the file. `none`: an empty line. -/
def linesToEnd : List Str → Option (List Str × List Str)
  | [] => some ([], [])
  | line :: lines => do
    let key ← (split (reduce line)).head?
    if key = keyEnd then some ([line], lines)
    else do
      let r ← linesToEnd lines
      some (line :: r.1, r.2)

/-- Structure.cpp:113-139 `readFromFile(file)`: the structure read and the lines left. -/
noncomputable def Structure.readFromFile (N : NumberText) (m : EMap) (s : Structure)
    (file : List Str) : Option (Structure × List Str) := do
  let line ← file.head?
  let key ← (split (reduce line)).head?
  if key ≠ keyBegin then none
  else do
    let r ← linesToEnd file.tail
    let s ← s.readFromLines N m (line :: r.1)
    some (s, r.2)

end N2P2
