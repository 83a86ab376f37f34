import Verif.Model.Utility
import Verif.Model.Container

/-! Model of `/repo/src/libnnp/ElementMap.cpp` and `ElementMap.h`. -/

namespace N2P2

/-- ElementMap.cpp:25-34 `knownElements`. -/
def knownElements : List Str :=
  ["H", "He", "Li", "Be", "B", "C", "N", "O", "F", "Ne", "Na", "Mg", "Al",
   "Si", "P", "S", "Cl", "Ar", "K", "Ca", "Sc", "Ti", "V", "Cr", "Mn", "Fe",
   "Co", "Ni", "Cu", "Zn", "Ga", "Ge", "As", "Se", "Br", "Kr", "Rb", "Sr", "Y",
   "Zr", "Nb", "Mo", "Tc", "Ru", "Rh", "Pd", "Ag", "Cd", "In", "Sn", "Sb", "Te",
   "I", "Xe", "Cs", "Ba", "La", "Ce", "Pr", "Nd", "Pm", "Sm", "Eu", "Gd", "Tb",
   "Dy", "Ho", "Er", "Tm", "Yb", "Lu", "Hf", "Ta", "W", "Re", "Os", "Ir", "Pt",
   "Au", "Hg", "Tl", "Pb", "Bi", "Po", "At", "Rn", "Fr", "Ra", "Ac", "Th", "Pa",
   "U", "Np", "Pu", "Am", "Cm", "Bk", "Cf", "Es", "Fm", "Md", "No"].map String.toList

/-- Errors thrown by the element map. -/
inductive EMapErr
  | unknownElement
  | notEmpty
  | badNumber
  | noEntry
  deriving DecidableEq, Repr

/-- ElementMap.cpp:89-104 `atomicNumber(symbol)`: linear search, first hit; throws if unknown. -/
def atomicNumber (s : Str) : Except EMapErr Nat :=
  match knownElements.findIdx? (· == s) with
  | some i => .ok (i + 1)
  | none => .error .unknownElement

/-- ElementMap.cpp:106-123 `symbolFromAtomicNumber`. The bound test is `>=`, as in the code. -/
def symbolFromAtomicNumber (n : Nat) : Except EMapErr Str :=
  if n ≥ knownElements.length then .error .badNumber
  else if n = 0 then .error .badNumber
  else match knownElements[n - 1]? with
    | some s => .ok s
    | none => .error .badNumber

/-- `ElementMap`: forward (symbol -> index) and reverse (index -> symbol) maps. -/
structure EMap where
  forward : CMap Str Nat
  reverse : CMap Nat Str
  deriving DecidableEq

def EMap.empty : EMap := ⟨[], []⟩

/-- Sort key used by `compareAtomicNumber` (ElementMap.h:150-154). -/
def elemKey (s : Str) : Nat :=
  match atomicNumber s with
  | .ok n => n
  | .error _ => 0

/-- ElementMap.cpp:47-51: filling of both maps from the sorted list, starting at index `i`. -/
def EMap.fill : EMap → Nat → List Str → EMap
  | m, _, [] => m
  | m, i, e :: es => EMap.fill ⟨m.forward.set e i, m.reverse.set i e⟩ (i + 1) es

/-- ElementMap.cpp:36-54 `registerElements`. `std::sort` calls the comparator on every element as
soon as there are two of them, so an unknown symbol throws iff the line has at least two symbols.
For known symbols the comparator is a strict total order up to equality, so the sorted list does
not depend on the sorting algorithm (merge sort here). -/
def EMap.registerElements (m : EMap) (line : Str) : Except EMapErr (EMap × Nat) :=
  let es := split (reduce line)
  if 2 ≤ es.length ∧ es.any (fun e => (knownElements.findIdx? (· == e)).isNone) then
    .error .unknownElement
  else
    let sorted := es.mergeSort (fun a b => decide (elemKey a ≤ elemKey b))
    if m.forward.size ≠ 0 then .error .notEmpty
    else
      let m' := m.fill 0 sorted
      .ok (m', m'.forward.size)

/-- ElementMap.cpp:71-74 `index(symbol)` via `safeFind`. -/
def EMap.index (m : EMap) (s : Str) : Except EMapErr Nat :=
  match m.forward.find? s with
  | some i => .ok i
  | none => .error .noEntry

/-- ElementMap.cpp:76-79 `symbol(index)` via `safeFind`. -/
def EMap.symbol (m : EMap) (i : Nat) : Except EMapErr Str :=
  match m.reverse.find? i with
  | some s => .ok s
  | none => .error .noEntry

/-- ElementMap.h:140-143 `size()`. -/
def EMap.size (m : EMap) : Nat := m.forward.size

/-- ElementMap.cpp:81-87 `deregisterElements`. -/
def EMap.deregisterElements (_ : EMap) : EMap := ⟨[], []⟩

end N2P2
