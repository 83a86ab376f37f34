import Mathlib.Analysis.SpecialFunctions.Pow.Real
import Mathlib.LinearAlgebra.Matrix.Determinant.Basic
import Verif.Model.Structure

/-! Vocabulary for statements about box geometry and neighbour lists. -/

namespace N2P2

/-- The lattice vector with integer coefficients `n`. -/
def shift (box : Fin 3 → Vec3) (n : Fin 3 → ℤ) : Vec3 := ∑ k, (n k : ℝ) • box k

/-- The position with fractional coordinates `f`. -/
def cartesian (box : Fin 3 → Vec3) (f : Fin 3 → ℝ) : Vec3 := ∑ k, f k • box k

/-- The box vectors span a non-zero volume. -/
def NonSingular (box : Fin 3 → Vec3) : Prop := Matrix.det (Matrix.of box) ≠ 0

/-- Euclidean length. -/
noncomputable def len (v : Vec3) : ℝ := √(∑ k, v k ^ 2)

/-- The position lies in the box: fractional coordinates in `[0, 1)`. -/
def InBox (box : Fin 3 → Vec3) (r : Vec3) : Prop :=
  ∃ f : Fin 3 → ℝ, (∀ k, 0 ≤ f k ∧ f k < 1) ∧ r = cartesian box f

/-- `srt` is a possible behaviour of `std::sort` on neighbours (ordered by distance). -/
def IsSort (srt : List Neighbor → List Neighbor) : Prop :=
  ∀ l, (srt l).Perm l ∧ (srt l).Pairwise (fun a b => a.d ≤ b.d)

/-- No neighbour list has been built yet (state after reading a structure). -/
def Atom.Fresh (a : Atom) (numElements : ℕ) : Prop :=
  a.neighbors = [] ∧ a.numNeighbors = 0 ∧ a.neighborsUnique = [] ∧ a.numNeighborsUnique = 0 ∧
    a.numNeighborsPerElement = List.replicate numElements 0 ∧ a.neighborCutoffs = []

/-- All atoms of the structure are fresh and have valid element indices. -/
def Structure.Fresh (s : Structure) : Prop :=
  ∀ a ∈ s.atoms, a.Fresh s.numElements ∧ a.element < s.numElements

/-- Image `p` (atom index, lattice coefficients) is a neighbour of atom `i` within `rc`: it is not
the atom itself, and in a non-periodic structure only the unshifted atoms count. -/
def IsImage (s : Structure) (rc : ℝ) (i : ℕ) (p : ℕ × (Fin 3 → ℤ)) : Prop :=
  ∃ a c, s.atoms[i]? = some a ∧ s.atoms[p.1]? = some c ∧ (s.isPeriodic = true ∨ p.2 = 0) ∧
    p ≠ (i, 0) ∧ len (a.r - c.r + shift s.box p.2) ≤ rc

/-- Condition for building neighbour lists: no box, or a proper box with all atoms inside. -/
def Boxed (s : Structure) : Prop :=
  s.isPeriodic = true → NonSingular s.box ∧ ∀ a ∈ s.atoms, InBox s.box a.r

/-- The neighbour record `nb` in the list of an atom at `r` describes atom `b` (index `j`) shifted
by the lattice vector `n`. -/
def Neighbor.Describes (nb : Neighbor) (box : Fin 3 → Vec3) (atoms : List Atom) (r : Vec3)
    (j : ℕ) (n : Fin 3 → ℤ) : Prop :=
  ∃ b, atoms[j]? = some b ∧ nb.index = j ∧ nb.tag = (j : ℤ) ∧ nb.element = b.element ∧
    nb.dr = r - b.r + shift box n ∧ nb.d = len nb.dr

/-- Move the atoms (what a user does between two calculations with the same structure object). -/
def Structure.move (s : Structure) (pos : ℕ → Vec3) : Structure :=
  { s with atoms := s.atoms.mapIdx (fun i a => { a with r := pos i }) }

end N2P2
