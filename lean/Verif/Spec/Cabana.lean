import Verif.Model.Cabana
import Verif.Spec.NeuralNetwork
import Verif.Spec.Mode

/-! What the CabanaMD interface assumes about the files of a potential. -/

namespace N2P2

/-- The element map and the list of symbols agree. -/
def SFEnv.Names (E : SFEnv) (names : List Str) : Prop :=
  ∀ s k, E.element s = some k ↔ names[k]? = some s

/-- A line of one of the types the interface knows. -/
def KnownLine (E : SFEnv) (tok : List Str) : Prop :=
  ∃ ty, tok[1]? = some ty ∧ (E.atoi ty = 2 ∨ E.atoi ty = 3)

open Classical in
/-- The lines of element `k`. -/
noncomputable def elementLines (E : SFEnv) (lines : List (List Str)) (k : ℕ) : List (List Str) :=
  lines.filter fun tok => (tok[0]?).bind E.element = some k

/-- libnnp accepts the settings and gets the elements `els`: the lines of the symmetry functions are
of types the interface knows, each for a known element, and the scaling file has one line per
symmetry function, element by element. -/
structure SameSettings (E : SFEnv) (names : List Str) (lines : List (List Str)) (conv : Option ℝ)
    (t : CutoffType) (α : ℝ) (st : ScalingType) (share : ℕ → List StatisticsLine) (Smin Smax : ℝ)
    (els : List ElementData) : Prop where
  symbols : E.Names names
  few : names.length ≤ 100000
  length : els.length = names.length
  types : ∀ tok ∈ lines, KnownLine E tok
  known : ∀ tok ∈ lines, ∃ k, (tok[0]?).bind E.element = some k
  element : ∀ k e, els[k]? = some e →
    SetupElement E (elementLines E lines k) conv t α (.lines st (share k) Smin Smax) e ∧
      (share k).length = e.symmetryFunctions.length

/-- A network as the interface assumes it: hidden layers of the given sizes with hyperbolic tangent,
one linear output, no normalisation. -/
structure NetShape.Plain (T : NetShape) (hidden : List ℕ) : Prop where
  layers : T.numLayers = 2 + hidden.length
  inside : ∀ l m, hidden[l]? = some m → T.n (l + 1) = m ∧ T.af (l + 1) = .TANH
  output : T.n (hidden.length + 1) = 1 ∧ T.af (hidden.length + 1) = .IDENTITY
  norm : T.norm = false

/-- The network the interface uses for `m` symmetry functions. -/
def plainShape (hidden : List ℕ) (m : ℕ) : NetShape where
  numLayers := 2 + hidden.length
  n l := if l = 0 then m else (hidden[l - 1]?).getD 1
  af l := if l ≤ hidden.length then .TANH else .IDENTITY
  norm := false

/-- The views of element `e` hold the parameters `c` of a network of shape `T`. -/
structure CabanaNet.Reads (N : CabanaNet) (e : ℕ) (T : NetShape) (c : Buf) : Prop where
  weight : ∀ l j i, (Param.weight l j i).Valid T.numLayers T.n →
    N.weights e l i j = c (Param.pos T.n (.weight l j i))
  bias : ∀ l i, (Param.bias l i).Valid T.numLayers T.n →
    N.bias e l i = c (Param.pos T.n (.bias l i))

/-- The neighbours of atom `i` as an environment, lengths multiplied by `u`. -/
def CabanaAtoms.env (A : CabanaAtoms) (u : ℝ) (i : ℕ) : List Site :=
  (A.neigh i).map fun j => ⟨A.type j, fun c => u * (A.x i c - A.x j c)⟩

/-- The atoms at other positions. -/
def CabanaAtoms.at (A : CabanaAtoms) (x : ℕ → Vec3) : CabanaAtoms := { A with x := x }

/-- What is required of the atoms (local ones first, `n` altogether) with lengths multiplied by `u`:
neighbours among the `n` atoms, known elements, no atom on top of another, the symmetry functions
differentiable. -/
structure CabanaAtoms.Regular (A : CabanaAtoms) (P : Potential) (u : ℝ) (n elements : ℕ) : Prop where
  count : A.nLocal ≤ n
  element : ∀ i < A.nLocal, A.type i < elements
  neighbor : ∀ i < A.nLocal, ∀ j ∈ A.neigh i, j < n
  apart : ∀ i < A.nLocal, ∀ y ∈ A.env u i, 0 < y.dr.norm
  smooth : ∀ i < A.nLocal, ∀ S ∈ P.functions (A.type i), S.Smooth (A.env u i)

/-- Energy of the local atoms in internal units. -/
noncomputable def CabanaAtoms.energy (A : CabanaAtoms) (P : Potential) (u : ℝ) : ℝ :=
  ∑ i ∈ Finset.range A.nLocal, P.atomic (A.type i) (A.env u i)

end N2P2
