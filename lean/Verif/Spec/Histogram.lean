import Verif.Model.Histogram
import Verif.Spec.ScalingFile

/-! What is expected from histograms. -/

namespace N2P2

/-- The table in a file: the words of the lines which are no comments. -/
def fileTable (text : Str) : List (List Str) :=
  ((readLines text).filter fun l => decide (l.head? ≠ some '#')).map fun l => split (reduce l)

open Classical in
/-- Number of values from `a` (included) to `b` (excluded). -/
noncomputable def countBetween (vs : List ℝ) (a b : ℝ) : ℕ := vs.countP fun v => a ≤ v ∧ v < b

/-- Name of the file with the histogram of symmetry function number `i` for atomic number `Z`. -/
def histogramFile (Z i : ℕ) : Str :=
  "sf.".toList ++ zeroPadded 3 Z ++ ['.'] ++ zeroPadded 4 i ++ ".histo".toList

/-- Histogram of `vs`, which range from `lo` to `hi`, with `n` bins of which `n - 1` divide the range; the last one
begins at `hi`. -/
noncomputable def histogramTable (N : NumberText) (vs : List ℝ) (lo hi : ℝ) (n : ℕ) : List (List Str) :=
  (List.range n).map fun j : ℕ =>
    let w := (hi - lo) / (n - 1)
    [N.print (lo + j * w), N.print (lo + (j + 1) * w),
      N.print (countBetween vs (lo + j * w) (lo + (j + 1) * w))]

/-- Line with a statistical quantity of the values. -/
noncomputable def infoLine (N : NumberText) (label : String) (x : ℝ) : Str :=
  "#SFINFO ".toList ++ label.toList ++ padLeft 15 (N.print x)

/-- All atoms of all processes. -/
def allAtoms (procs : List (List Structure)) : List Atom := procs.flatten.flatMap Structure.atoms

/-- A structure with atoms, with numbers of type `size_t`. -/
structure GoodStructure (s : Structure) : Prop where
  atoms : s.atoms ≠ []
  numAtoms : s.numAtoms = s.atoms.length
  index : s.index + 1 < 2 ^ 64
  size : s.atoms.length < 2 ^ 64
  neighbors : ∀ a ∈ s.atoms, a.numNeighbors < 2 ^ 64

/-- Line for a structure. -/
noncomputable def NeighborRow (N : NumberText) (s : Structure) (row : List Str) : Prop :=
  ∃ lo hi : ℕ, IsLeast {n | ∃ a ∈ s.atoms, a.numNeighbors = n} lo ∧
    IsGreatest {n | ∃ a ∈ s.atoms, a.numNeighbors = n} hi ∧
    row = [natText (s.index + 1), natText s.atoms.length, natText lo, natText hi,
      N.print ((s.atoms.map fun a => (a.numNeighbors : ℝ)).sum / s.atoms.length)]

end N2P2
