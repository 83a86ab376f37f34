import Mathlib.Analysis.SpecialFunctions.Trigonometric.Basic
import Mathlib.Analysis.Calculus.Deriv.Basic
import Verif.Model.Electrostatics
import Verif.Spec.Geometry
import Verif.Spec.Mode

/-! Vocabulary for statements about electrostatics: the physical formulas. -/

namespace N2P2

/-! ### Reciprocal lattice -/

/-- `K` belongs to the reciprocal lattice: plane waves `exp(i K r)` have the period of the box. -/
def IsReciprocal (box : Fin 3 → Vec3) (K : Vec3) : Prop :=
  ∀ j, ∃ m : ℤ, ∑ c, K c * box j c = 2 * Real.pi * m

/-- The non-zero reciprocal lattice vectors shorter than `kCut`. -/
def recipBall (box : Fin 3 → Vec3) (kCut : ℝ) : Set Vec3 :=
  {K | IsReciprocal box K ∧ K ≠ 0 ∧ len K < kCut}

/-! ### Interaction of Gaussian charges -/

/-- The solver returns a solution if the matrix is not singular. -/
def LinSolve.Correct (ls : LinSolve) : Prop :=
  ∀ n (A : Matrix (Fin n) (Fin n) ℝ) (b : Fin n → ℝ), A.det ≠ 0 → A.mulVec (ls n A b) = b

namespace Qeq

/-- Hardness of element `e`. -/
def J (q : Qeq) (e : ℕ) : ℝ := q.hardness.getD e 0

/-- Width of the charges of element `e`. -/
def σ (q : Qeq) (e : ℕ) : ℝ := q.qsigma.getD e 0

/-- Width of the interaction of charges of elements `e` and `f`. -/
noncomputable def γ (q : Qeq) (e f : ℕ) : ℝ := √(q.σ e ^ 2 + q.σ f ^ 2)

/-- Coulomb energy of two Gaussian unit charges of elements `e` and `f` at distance `r`. -/
noncomputable def coulomb (q : Qeq) (e f : ℕ) (r : ℝ) : ℝ :=
  erf (r / (√2 * q.γ e f)) / (q.fourPiEps * r)

/-- Twice the energy of a Gaussian unit charge of element `e` in its own field. -/
noncomputable def self (q : Qeq) (e : ℕ) : ℝ := 1 / (q.fourPiEps * (√Real.pi * q.σ e))

/-- Energy of charges `x` of `n` atoms with self interactions `U` and pair interactions `V`. -/
noncomputable def coulombEnergy (n : ℕ) (U : ℕ → ℝ) (V : ℕ → ℕ → ℝ) (x : ℕ → ℝ) : ℝ :=
  1 / 2 * ∑ i ∈ Finset.range n, U i * x i ^ 2 +
    ∑ j ∈ Finset.range n, ∑ i ∈ Finset.range j, V i j * x i * x j

/-- The energy which the charges shall minimise: electronegativities, hardnesses and Coulomb
energy. -/
noncomputable def total (q : Qeq) (s : Structure) (U : ℕ → ℝ) (V : ℕ → ℕ → ℝ) (x : ℕ → ℝ) : ℝ :=
  ∑ i ∈ Finset.range s.atoms.length,
    ((s.atom i).chi * x i + 1 / 2 * q.J (s.elementOf i) * x i ^ 2) +
  coulombEnergy s.atoms.length U V x

/-- The equations of the charge equilibration have only one solution: there is no other distribution
of a total charge of zero which feels the same potential everywhere. -/
def Solvable (q : Qeq) (s : Structure) (U : ℕ → ℝ) (V : ℕ → ℕ → ℝ) : Prop :=
  0 < s.atoms.length ∧ ∀ (x : ℕ → ℝ) (c : ℝ),
    (∀ i < s.atoms.length, (q.J (s.elementOf i) + U i) * x i +
      ∑ j ∈ (Finset.range s.atoms.length).erase i, V (min i j) (max i j) * x j = c) →
    ∑ i ∈ Finset.range s.atoms.length, x i = 0 → ∀ i < s.atoms.length, x i = 0

/-- Pair interactions without periodic boundary conditions. -/
noncomputable def openV (q : Qeq) (s : Structure) (i j : ℕ) : ℝ :=
  q.coulomb (s.elementOf i) (s.elementOf j) (len (s.position i - s.position j))

/-- Self interactions without periodic boundary conditions. -/
noncomputable def openU (q : Qeq) (s : Structure) (i : ℕ) : ℝ := q.self (s.elementOf i)

/-- Ewald sum, real part: the images of atom `j` in the list of atom `i`. -/
noncomputable def ewaldReal (q : Qeq) (s : Structure) (imgs : ℕ → List (ℕ × (Fin 3 → ℤ)))
    (i j : ℕ) : ℝ :=
  (((imgs i).filter fun p => p.1 = j).map fun p =>
    (erfc (len (s.separation i p) / (√2 * q.ewald.eta)) -
      erfc (len (s.separation i p) / (√2 * q.γ (s.elementOf i) (s.elementOf j)))) /
      (q.fourPiEps * len (s.separation i p))).sum

/-- Ewald sum, reciprocal part. -/
noncomputable def ewaldRecip (q : Qeq) (s : Structure) (S : Finset Vec3) (i j : ℕ) : ℝ :=
  4 * Real.pi / (q.fourPiEps * |Matrix.det (Matrix.of s.box)|) * ∑ K ∈ S,
    Real.exp (-(q.ewald.eta ^ 2 * len K ^ 2) / 2) / len K ^ 2 *
      Real.cos (∑ c, K c * (s.position i - s.position j) c)

/-- Pair interactions with periodic boundary conditions. -/
noncomputable def ewaldV (q : Qeq) (s : Structure) (imgs : ℕ → List (ℕ × (Fin 3 → ℤ)))
    (S : Finset Vec3) (i j : ℕ) : ℝ :=
  q.ewaldReal s imgs i j + q.ewaldRecip s S i j

/-- Self interactions with periodic boundary conditions: the atom itself, the correction of the
Ewald sum, and the own images. -/
noncomputable def ewaldU (q : Qeq) (s : Structure) (imgs : ℕ → List (ℕ × (Fin 3 → ℤ)))
    (S : Finset Vec3) (i : ℕ) : ℝ :=
  q.self (s.elementOf i) - 2 / (q.fourPiEps * (√Real.pi * (√2 * q.ewald.eta))) +
    q.ewaldReal s imgs i i + q.ewaldRecip s S i i

/-- Screening of the images of atom `j` in the list of atom `i`. -/
noncomputable def screenW (q : Qeq) (s : Structure) (imgs : ℕ → List (ℕ × (Fin 3 → ℤ)))
    (i j : ℕ) : ℝ :=
  (((imgs i).filter fun p => p.1 = j).map fun p =>
    q.coulomb (s.elementOf i) (s.elementOf j) (len (s.separation i p)) *
      (q.fs.f (len (s.separation i p)) - 1)).sum

/-- Electrostatic energy with screening, without periodic boundary conditions: pairs of charges at
distance `r` contribute with weight `f_s(r)`. -/
noncomputable def openEnergy (q : Qeq) (s : Structure) (x : ℕ → ℝ) : ℝ :=
  ∑ j ∈ Finset.range s.atoms.length, ∑ i ∈ Finset.range j,
    q.fs.f (len (s.position i - s.position j)) * q.openV s i j * x i * x j

/-- The same with periodic boundary conditions: the energies of charges in their own field are taken
away, and the energies of all pairs within the range of the screening (`imgs`) are corrected. Each
pair of an atom and its own image occurs twice in the lists. -/
noncomputable def periodicEnergy (q : Qeq) (s : Structure) (U : ℕ → ℝ) (V : ℕ → ℕ → ℝ)
    (imgs : ℕ → List (ℕ × (Fin 3 → ℤ))) (x : ℕ → ℝ) : ℝ :=
  coulombEnergy s.atoms.length
    (fun i => U i - q.self (s.elementOf i) + q.screenW s imgs i i)
    (fun i j => V i j + q.screenW s imgs i j) x

/-- The energy of zero-sum charges without electronegativities is positive. -/
def Positive (q : Qeq) (s : Structure) (U : ℕ → ℝ) (V : ℕ → ℕ → ℝ) : Prop :=
  0 < s.atoms.length ∧ ∀ y : ℕ → ℝ, ∑ i ∈ Finset.range s.atoms.length, y i = 0 →
    (∃ i < s.atoms.length, y i ≠ 0) →
    0 < ∑ i ∈ Finset.range s.atoms.length, 1 / 2 * q.J (s.elementOf i) * y i ^ 2 +
      coulombEnergy s.atoms.length U V y

/-- All atoms have elements with parameters. -/
def Covers (q : Qeq) (s : Structure) : Prop :=
  ∀ a ∈ s.atoms, a.element < q.hardness.length ∧ a.element < q.qsigma.length

end Qeq

/-- Sorted neighbour lists: `full i` are the images in the list of atom `i`, each once. -/
structure Structure.Listed (s : Structure) (full : ℕ → List (ℕ × (Fin 3 → ℤ))) : Prop where
  sorted : s.neighborListIsSorted = true
  number : ∀ a ∈ s.atoms, a.numNeighbors = a.neighbors.length
  describes : ∀ (i : ℕ) a, s.atoms[i]? = some a → List.Forall₂
    (fun nb p => nb.Describes s.box s.atoms a.r p.1 p.2) a.neighbors (full i)
  ordered : ∀ a ∈ s.atoms, a.neighbors.Pairwise fun x y => x.d ≤ y.d
  nodup : ∀ i < s.atoms.length, (full i).Nodup
  partner : ∀ i < s.atoms.length, ∀ p ∈ full i, s.IsPartner i p

/-- The images in the list of atom `i` which are stored for radius `R`: each once, and all within
distance `R` are there. -/
structure Structure.Stored (s : Structure) (full : ℕ → List (ℕ × (Fin 3 → ℤ))) (R : ℝ)
    (imgs : ℕ → List (ℕ × (Fin 3 → ℤ))) : Prop where
  le : ∀ a ∈ s.atoms, a.getStoredMinNumNeighbors R ≤ a.neighbors.length
  take : ∀ i < s.atoms.length, imgs i = (full i).take ((s.atom i).getStoredMinNumNeighbors R)
  nodup : ∀ i < s.atoms.length, (imgs i).Nodup
  partner : ∀ i < s.atoms.length, ∀ p ∈ imgs i, s.IsPartner i p
  complete : ∀ i < s.atoms.length, ∀ p, s.IsPartner i p → len (s.separation i p) ≤ R → p ∈ imgs i

/-- The self and pair interactions of a structure. -/
inductive Qeq.IsInteraction (q : Qeq) (s : Structure) : (ℕ → ℝ) → (ℕ → ℕ → ℝ) → Prop
  | cluster (h : s.isPeriodic = false) : IsInteraction q s (q.openU s) (q.openV s)
  | ewald (h : s.isPeriodic = true) (hbox : NonSingular s.box) (hk : 0 ≤ q.ewald.kCut)
      (full imgs : ℕ → List (ℕ × (Fin 3 → ℤ))) (hl : s.Listed full)
      (hi : s.Stored full q.ewald.rCut imgs) (S : Finset Vec3)
      (hS : ∀ K, K ∈ S ↔ K ∈ recipBall s.box q.ewald.kCut) :
      IsInteraction q s (q.ewaldU s imgs S) (q.ewaldV s imgs S)

/-- The interactions as functions of the positions: a structure in place of `s` has the same atoms at
other positions. The images in the lists stay the same. -/
inductive Qeq.IsField (q : Qeq) (s : Structure) :
    (Structure → ℕ → ℝ) → (Structure → ℕ → ℕ → ℝ) → Prop
  | cluster (h : s.isPeriodic = false) : IsField q s q.openU q.openV
  | ewald (h : s.isPeriodic = true) (hbox : NonSingular s.box) (hk : 0 ≤ q.ewald.kCut)
      (full imgs : ℕ → List (ℕ × (Fin 3 → ℤ))) (hl : s.Listed full)
      (hi : s.Stored full q.ewald.rCut imgs) (S : Finset Vec3)
      (hS : ∀ K, K ∈ S ↔ K ∈ recipBall s.box q.ewald.kCut) :
      IsField q s (fun s' => q.ewaldU s' imgs S) (fun s' => q.ewaldV s' imgs S)

/-- Potential at atom `i` of the charges `x` of the other atoms. -/
def Qeq.potential (s : Structure) (V : ℕ → ℕ → ℝ) (x : ℕ → ℝ) (i : ℕ) : ℝ :=
  ∑ j ∈ (Finset.range s.atoms.length).erase i, V (min i j) (max i j) * x j

/-- Charges `x` in equilibrium, for atoms with electronegativities `χ`, hardnesses `J`, self
interactions `U` and pair interactions `V`: they have the prescribed sum, and to add charge costs the
same energy at each atom. -/
structure Qeq.Equilibrium (s : Structure) (χ J U : ℕ → ℝ) (V : ℕ → ℕ → ℝ) (x : ℕ → ℝ) : Prop where
  total : ∑ i ∈ Finset.range s.atoms.length, x i = s.chargeRef
  equal : ∃ c, ∀ i < s.atoms.length, χ i + (J i + U i) * x i + Qeq.potential s V x i = c

/-- The atoms move away from their positions with velocities `v`. -/
structure Structure.Moves (s : Structure) (r : ℕ → ℝ → Vec3) (v : ℕ → Vec3) (t0 : ℝ) : Prop where
  start : ∀ i < s.atoms.length, r i t0 = s.position i
  velocity : ∀ i < s.atoms.length, HasDerivAt (r i) (v i) t0

/-- What the screening adds to the pair interactions without periodic boundary conditions. -/
noncomputable def Qeq.openW (q : Qeq) (s : Structure) (i j : ℕ) : ℝ :=
  if i = j then 0 else q.openV s i j * (q.fs.f (len (s.position i - s.position j)) - 1)

/-- What the screening adds to the pair interactions, as a function of the positions. -/
inductive Qeq.IsScreening (q : Qeq) (s : Structure) : (Structure → ℕ → ℕ → ℝ) → Prop
  | cluster (h : s.isPeriodic = false) : IsScreening q s q.openW
  | periodic (h : s.isPeriodic = true) (full imgs : ℕ → List (ℕ × (Fin 3 → ℤ)))
      (hl : s.Listed full) (hi : s.Stored full q.fs.outer imgs) :
      IsScreening q s (fun s' => q.screenW s' imgs)

/-- The energy which the code computes for charges `x`: interactions with screening, without the
energies of charges in their own field. Own images are screened twice. -/
noncomputable def Qeq.storedEnergy (q : Qeq) (s : Structure) (U : ℕ → ℝ) (V W : ℕ → ℕ → ℝ)
    (x : ℕ → ℝ) : ℝ :=
  Qeq.coulombEnergy s.atoms.length (fun i => U i - q.self (s.elementOf i) + 2 * W i i)
    (fun i j => V i j + W i j) x

end N2P2
