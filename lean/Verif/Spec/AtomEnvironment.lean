import Verif.Model.AtomEnvironment
import Verif.Spec.Histogram

/-! What is expected from files with neighbour lists and atomic environments. -/

namespace N2P2

/-- Neighbour lists and counters fit together (`k` elements), sizes fit into a word of the machine. -/
structure GoodLists (k : ℕ) (Z : ℕ → ℕ) (s : Structure) : Prop where
  numAtoms : s.numAtoms = s.atoms.length
  size : s.atoms.length < 2 ^ 64
  index : ∀ (i : ℕ) a, s.atoms[i]? = some a → a.index = i
  element : ∀ a ∈ s.atoms, a.element < k ∧ Z a.element < 2 ^ 64
  counts : ∀ a ∈ s.atoms, a.numNeighborsPerElement =
    (List.range k).map fun e => a.neighbors.countP fun n => n.element = e
  few : ∀ a ∈ s.atoms, a.neighbors.length < 2 ^ 64
  neighbor : ∀ a ∈ s.atoms, ∀ n ∈ a.neighbors, n.element < k ∧ n.index < s.atoms.length
  /-- If `n` is a neighbour of `a`, then `a` is a neighbour of `n`. -/
  back : ∀ a ∈ s.atoms, ∀ n ∈ a.neighbors, ∀ b, s.atoms[n.index]? = some b →
    ∃ m ∈ b.neighbors, m.index = a.index

/-- Line of an atom in the file with neighbour lists: atomic number, number of neighbours of each element, neighbours. -/
def neighborRow (Z : ℕ → ℕ) (k : ℕ) (a : Atom) : List Str :=
  natText (Z a.element) ::
    ((List.range k).map (fun e => natText (a.neighbors.countP fun n => n.element = e)) ++
      a.neighbors.map fun n => natText n.index)

/-- Closest `m` neighbours of element `e` (of an atom with neighbours in the order of distance). -/
def nearest (a : Atom) (e m : ℕ) : List Neighbor := (a.neighbors.filter fun n => n.element = e).take m

/-- `sel` are the closest neighbours, in the order of their distance, as many of each element as `cut` says. -/
structure Selected (k : ℕ) (cut : ℕ → ℕ) (a : Atom) (sel : List Neighbor) : Prop where
  sublist : sel.Sublist a.neighbors
  sorted : sel.Pairwise fun m n => m.d ≤ n.d
  each : ∀ e < k, (sel.filter fun n => n.element = e) = nearest a e (cut e)

/-- The selection in the order of the manual: one element after the other. -/
def selectedByElement (k : ℕ) (cut : ℕ → ℕ) (a : Atom) : List Neighbor :=
  (List.range k).flatMap fun e => nearest a e (cut e)

/-- Symmetry functions of a neighbour. -/
def neighborValues (s : Structure) (n : Neighbor) : List ℝ := ((s.atoms[n.index]?).map Atom.G).getD []

/-- Line of an atom in the file with symmetry functions. -/
def envRow (N : NumberText) (sym : ℕ → Str) (s : Structure) (a : Atom) (sel : List Neighbor) : List Str :=
  sym a.element :: (a.G ++ sel.flatMap (neighborValues s)).map N.print

/-- Entries for atom `a` in the list of its neighbour `n`: several if images of `a` are in reach of `n`. -/
def mutualEntries (s : Structure) (a : Atom) (n : Neighbor) : List Neighbor :=
  ((s.atoms[n.index]?).map fun b => b.neighbors.filter fun m => m.index = a.index).getD []

/-- Line of an atom in the file with derivatives, if `der n` are the derivatives for neighbour `n`. -/
def envDerivRow (N : NumberText) (sym : ℕ → Str) (c : Fin 3) (a : Atom) (sel : List Neighbor)
    (der : Neighbor → List Vec3) : List Str :=
  sym a.element :: (a.dGdr ++ sel.flatMap der).map fun v => N.print (v c)

/-- Sum of several lists of vectors. -/
def sumRows : List (List Vec3) → List Vec3
  | [] => []
  | [l] => l
  | l :: ls => List.zipWith (· + ·) l (sumRows ls)

/-- Derivatives of the symmetry functions of `n` if `a` moves, together with its images. -/
def motionDerivatives (s : Structure) (a : Atom) (n : Neighbor) : List Vec3 :=
  sumRows ((mutualEntries s a n).map Neighbor.dGdr)

/-- Element symbols as they are known to the element map. -/
def GoodSymbol (w : Str) : Prop := IsWord w ∧ '\n' ∉ w ∧ w.head? ≠ some '#' ∧ w.length ≤ 20

/-- Derivatives of the symmetry functions of `n` stored in the first entry for `a`, that is for its closest image. -/
def firstEntry (s : Structure) (a : Atom) (n : Neighbor) : List Vec3 :=
  ((mutualEntries s a n).head?.map Neighbor.dGdr).getD []

/-- Number of neighbours of element `e` to be written for central atoms of element `ea`. -/
def cutoffOf (cutoffs : List (List ℕ)) (ea e : ℕ) : ℕ := (cutoffs.getD ea []).getD e 0

/-- One number for each pair of elements. -/
def SquareTable (k : ℕ) (cutoffs : List (List ℕ)) : Prop := cutoffs.length = k ∧ ∀ r ∈ cutoffs, r.length = k

end N2P2
