import Verif.Model.Mode
import Verif.Spec.SymFncSetup
import Verif.Spec.NeuralNetwork
import Verif.Spec.Geometry

/-! Vocabulary for the evaluation of a neural network potential: the potential energy as a function
of the positions, written without lists of neighbours, caches and buffers. -/

namespace N2P2

/-- A potential: for each element the symmetry functions, the shape of the neural network and its
parameters. -/
structure Potential where
  functions : ℕ → List SymFnc
  shape : ℕ → NetShape
  weights : ℕ → Buf

namespace Potential

/-- Network input of an atom of element `e`: the scaled symmetry functions of its environment. -/
noncomputable def input (P : Potential) (e : ℕ) (env : List Site) : Buf := fun m =>
  match (P.functions e)[m]? with
  | some S => S.sc.scale (S.formula env)
  | none => 0

/-- Energy of an atom of element `e` in an environment. -/
noncomputable def atomic (P : Potential) (e : ℕ) (env : List Site) : ℝ :=
  (P.shape e).forward (P.weights e) (P.input e env) (P.shape e).out 0

/-- The networks of the first `n` elements fit: one input for each symmetry function, one output. -/
def Fits (P : Potential) (n : ℕ) : Prop :=
  ∀ e < n, (P.shape e).Sensible ∧ (P.shape e).n 0 = (P.functions e).length ∧
    (P.shape e).n (P.shape e).out = 1

end Potential

/-- Position of atom `i`. -/
def Structure.position (s : Structure) (i : ℕ) : Vec3 := ((s.atoms[i]?).map Atom.r).getD 0

/-- Element of atom `i`. -/
def Structure.elementOf (s : Structure) (i : ℕ) : ℕ := ((s.atoms[i]?).map Atom.element).getD 0

/-- `p` (atom index, lattice coefficients) is an image of an atom, not atom `i` itself. Without
periodic boundary conditions there are only the atoms themselves. -/
def Structure.IsPartner (s : Structure) (i : ℕ) (p : ℕ × (Fin 3 → ℤ)) : Prop :=
  p.1 < s.atoms.length ∧ (s.isPeriodic = true ∨ p.2 = 0) ∧ p ≠ (i, 0)

/-- The vector between atom `i` and image `p`. -/
def Structure.separation (s : Structure) (i : ℕ) (p : ℕ × (Fin 3 → ℤ)) : Vec3 :=
  s.position i - s.position p.1 + shift s.box p.2

/-- An environment of atom `i`: images of atoms, each listed once, among them all within distance
`R`. -/
def IsEnv (s : Structure) (R : ℝ) (i : ℕ) (env : List Site) : Prop :=
  ∃ imgs : List (ℕ × (Fin 3 → ℤ)), imgs.Nodup ∧ (∀ p ∈ imgs, s.IsPartner i p) ∧
    (∀ p, s.IsPartner i p → len (s.separation i p) ≤ R → p ∈ imgs) ∧
    env = imgs.map fun p => ⟨s.elementOf p.1, s.separation i p⟩

/-- `E` is the potential energy of the structure: the sum of the atomic energies, for environments
which reach at least to `R`. -/
def IsEnergy (P : Potential) (R : ℝ) (s : Structure) (E : ℝ) : Prop :=
  ∃ env : ℕ → List Site, (∀ i < s.atoms.length, IsEnv s R i (env i)) ∧
    E = ∑ i ∈ Finset.range s.atoms.length, P.atomic (s.elementOf i) (env i)

/-- No cutoff radius of the elements in the structure exceeds `R`. -/
def Potential.Within (P : Potential) (R : ℝ) (s : Structure) : Prop :=
  ∀ i < s.atoms.length, ∀ S ∈ P.functions (s.elementOf i), S.rc ≤ R

/-- A network with any past whose parameters were last set to `w`. -/
def NeuralNetwork.Loaded (T : NetShape) (w : Buf) (nn : NeuralNetwork) : Prop :=
  ∃ nn0, Reachable T.numLayers T.n T.af nn0 ∧ Evaluates (nn0.setConnections w) nn ∧
    nn.normalizeNeurons = T.norm

/-- `M` was set up for the potential `P` with `n` elements: each element was set up from some
`symfunction_short` lines and scaling data, its network holds the parameters, and the largest cutoff
radius was determined. The settings are sensible: positive cutoff radii and exponents, radii which
differ also when printed, at least one function for each element, and no Gaussian angular function
which shares its cutoff function for only one of its neighbour elements (see C57). -/
structure Mode.SetUp (M : Mode) (P : Potential) (n : ℕ) : Prop where
  count : M.elements.length = n
  element : ∀ (k : ℕ) e, M.elements[k]? = some e → ∃ E lines conv t α sc, E.OK ∧ E.numElements = n ∧
    conv.getD 1 ≠ 0 ∧ SetupElement E lines conv t α sc e ∧ E.Prints e.symmetryFunctions ∧
    UniformCaches E e.symmetryFunctions ∧ ∀ S ∈ e.symmetryFunctions, S.Sensible
  functions : ∀ (k : ℕ) e, M.elements[k]? = some e → e.symmetryFunctions = P.functions k ∧
    e.symmetryFunctions ≠ []
  net : ∀ (k : ℕ) e, M.elements[k]? = some e → NeuralNetwork.Loaded (P.shape k) (P.weights k) e.net
  maxCutoffRadius : M.maxCutoffRadius = maxCutoffRadiusOf M.elements

/-- The radius of the neighbour list. -/
noncomputable def Mode.listRadius (M : Mode) (s : Structure) : ℝ :=
  max M.maxCutoffRadius s.maxCutoffRadiusOverall

/-- A structure as it comes from a file: no neighbour list and no symmetry functions yet, atoms
numbered, elements known to the potential, all atoms in the box. -/
structure Structure.New (s : Structure) (n : ℕ) : Prop where
  fresh : s.Fresh
  boxed : Boxed s
  flags : s.hasSymmetryFunctions = false ∧ s.hasSymmetryFunctionDerivatives = false
  atom : ∀ a ∈ s.atoms, a.element < n ∧ a.useChargeNeuron = false ∧
    a.hasSymmetryFunctions = false ∧ a.hasSymmetryFunctionDerivatives = false
  index : ∀ (i : ℕ) a, s.atoms[i]? = some a → a.index = i

/-- No two atoms, and no atom and image, are at the same place. -/
def Structure.Apart (s : Structure) : Prop :=
  ∀ i < s.atoms.length, ∀ p, s.IsPartner i p → s.separation i p ≠ 0

/-- The environment of atom `i` consisting of all images within distance `R`. -/
def IsBall (s : Structure) (R : ℝ) (i : ℕ) (env : List Site) : Prop :=
  ∃ imgs : List (ℕ × (Fin 3 → ℤ)), imgs.Nodup ∧
    (∀ p, p ∈ imgs ↔ s.IsPartner i p ∧ len (s.separation i p) ≤ R) ∧
    env = imgs.map fun p => ⟨s.elementOf p.1, s.separation i p⟩

/-- All triplets of all atoms are in order (only needed for compact angular functions; see C68). -/
def Potential.TripletsOK (P : Potential) (R : ℝ) (s : Structure) : Prop :=
  ∀ i < s.atoms.length, ∀ S ∈ P.functions (s.elementOf i), ∀ env, IsBall s R i env →
    S.TripletsOK env

/-- Symmetry functions and networks are differentiable at the positions of the structure. -/
def Potential.Smooth (P : Potential) (R : ℝ) (s : Structure) : Prop :=
  ∀ i < s.atoms.length, ∀ env, IsBall s R i env →
    (∀ S ∈ P.functions (s.elementOf i), S.Smooth env) ∧
    (P.shape (s.elementOf i)).RegularAt (P.weights (s.elementOf i)) (P.input (s.elementOf i) env)

/-- Force on atom `i`. -/
def Structure.forceOn (s : Structure) (i : ℕ) : Vec3 := ((s.atoms[i]?).map Atom.f).getD 0

/-- The own periodic images of an atom are not closer than the cutoff radii of its functions. -/
def Potential.NoOwnImages (P : Potential) (s : Structure) : Prop :=
  ∀ i < s.atoms.length, ∀ q : Fin 3 → ℤ, s.IsPartner i (i, q) →
    ∀ S ∈ P.functions (s.elementOf i), S.rc ≤ len (s.separation i (i, q))

/-- The structure is ready for `evaluateNNP` with the potential: new, no coinciding atoms, triplets
in order. -/
structure Structure.Evaluable (s : Structure) (M : Mode) (P : Potential) (n : ℕ) : Prop where
  new : s.New n
  apart : s.Apart
  triplets : P.TripletsOK (M.listRadius s) s

/-- `s'` is the same arrangement of atoms as `s`: atom `i` of `s`, moved by the lattice vector `m i`,
the rotation (or reflection) `Q` and the translation `w`, is atom `σ i` of `s'`. -/
structure SameArrangement (Q : Matrix (Fin 3) (Fin 3) ℝ) (w : Vec3) (σ : ℕ → ℕ)
    (m : ℕ → Fin 3 → ℤ) (s s' : Structure) : Prop where
  orthogonal : Q.transpose * Q = 1
  length : s'.atoms.length = s.atoms.length
  range : ∀ i < s.atoms.length, σ i < s.atoms.length
  injective : ∀ i < s.atoms.length, ∀ j < s.atoms.length, σ i = σ j → i = j
  element : ∀ i < s.atoms.length, s'.elementOf (σ i) = s.elementOf i
  position : ∀ i < s.atoms.length,
    s'.position (σ i) = Q.mulVec (s.position i + shift s.box (m i)) + w
  periodic : s'.isPeriodic = s.isPeriodic
  box : s.isPeriodic = true → ∀ k, s'.box k = Q.mulVec (s.box k)
  inside : s.isPeriodic = false → ∀ i, m i = 0

end N2P2
