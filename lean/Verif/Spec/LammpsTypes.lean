import Verif.Model.LammpsTypes
import Verif.Spec.Utility

/-! What the assignment of elements to the atom types of LAMMPS should be. -/

namespace N2P2

/-- The element map was filled from a line listing the pairwise different known elements `es`. -/
structure EMap.Of (E : EMap) (es : List Str) : Prop where
  known : ∀ e ∈ es, e ∈ knownElements
  distinct : es.Nodup
  filled : ∃ line, SpecTokens line es ∧ EMap.empty.registerElements line = .ok (E, es.length)

/-- The text `NULL`, which stands for an atom type the potential does not describe. -/
def nullText : Str := ['N', 'U', 'L', 'L']

/-- A nonempty text without blanks, commas and colons. -/
def PlainText (s : Str) : Prop := s ≠ [] ∧ ∀ c ∈ s, isBlank c = false ∧ c ≠ ',' ∧ c ≠ ':'

/-- `f` gives type `i + 1` the element named by argument `i`, and none if this is `NULL`. -/
def Assigned (E : EMap) (args : List Str) (f : ℕ → Option ℕ) : Prop :=
  ∀ i a, args[i]? = some a →
    (a = nullText → f (i + 1) = none) ∧
    (a ≠ nullText → ∃ e, f (i + 1) = some e ∧ E.symbol e = .ok a)

/-- Number of arguments other than `NULL`. -/
def named (args : List Str) : ℕ := (args.filter (· ≠ nullText)).length

/-- Text of an integer. -/
def intText (t : ℤ) : Str := if t < 0 then '-' :: natText t.natAbs else natText t.natAbs

/-- Text of the entries `t:s`, separated by commas. -/
def mappingText : List (ℤ × Str) → Str
  | [] => []
  | [p] => intText p.1 ++ ':' :: p.2
  | p :: q :: l => (intText p.1 ++ ':' :: p.2) ++ ',' :: mappingText (q :: l)

/-- `f` gives the types `1, …, n` the element of the last entry for them, and none if there is no entry. -/
def AssignedLast (E : EMap) (n : ℕ) (l : List (ℤ × Str)) (f : ℕ → Option ℕ) : Prop :=
  ∀ t : ℕ, 1 ≤ t → t ≤ n →
    ((∀ p ∈ l, p.1 ≠ t) → f t = none) ∧
    (∀ a b s, l = a ++ ((t : ℤ), s) :: b → (∀ p ∈ b, p.1 ≠ t) → ∃ e, f t = some e ∧ E.symbol e = .ok s)

end N2P2
