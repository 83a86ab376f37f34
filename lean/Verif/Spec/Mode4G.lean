import Mathlib.Topology.Order.Real
import Verif.Model.Mode4G
import Verif.Spec.SymGrp
import Verif.Spec.Electrostatics

/-! Vocabulary for the evaluation of a potential of the fourth generation: charges in equilibrium and
potential energy as functions of the positions. -/

namespace N2P2

open Topology

/-- A potential of the fourth generation: networks for the short-range energies, which have the
charge as one more input, networks for the electronegativities, and the unit of the
electronegativities. Both kinds of networks use the same symmetry functions. -/
structure Potential4G extends Potential where
  chiShape : ℕ → NetShape
  chiWeights : ℕ → Buf
  unit : ℝ

namespace Potential4G

/-- The networks for the electronegativities. -/
def chi (P : Potential4G) : Potential := ⟨P.functions, P.chiShape, P.chiWeights⟩

/-- Electronegativity of an atom of element `e` in an environment. -/
noncomputable def negativity (P : Potential4G) (e : ℕ) (env : List Site) : ℝ :=
  P.unit * P.chi.atomic e env

/-- Input of the short-range network: the symmetry functions, then the charge. -/
noncomputable def inputQ (P : Potential4G) (e : ℕ) (env : List Site) (Q : ℝ) : Buf := fun m =>
  if m = (P.functions e).length then Q else P.input e env m

/-- Short-range energy of an atom of element `e` and charge `Q` in an environment. -/
noncomputable def atomicQ (P : Potential4G) (e : ℕ) (env : List Site) (Q : ℝ) : ℝ :=
  (P.shape e).forward (P.weights e) (P.inputQ e env Q) (P.shape e).out 0

/-- The networks of the first `n` elements fit. -/
structure Fits4G (P : Potential4G) (n : ℕ) : Prop where
  chi : P.chi.Fits n
  short : ∀ e < n, (P.shape e).Sensible ∧ (P.shape e).n 0 = (P.functions e).length + 1 ∧
    (P.shape e).n (P.shape e).out = 1

/-- Symmetry functions and networks are differentiable at the positions of the structure and charges
`x`. -/
def Smooth4G (P : Potential4G) (R : ℝ) (s : Structure) (x : ℕ → ℝ) : Prop :=
  ∀ i < s.atoms.length, ∀ env, IsBall s R i env →
    (∀ S ∈ P.functions (s.elementOf i), S.Smooth env) ∧
    (P.chiShape (s.elementOf i)).RegularAt (P.chiWeights (s.elementOf i))
      (P.input (s.elementOf i) env) ∧
    (P.shape (s.elementOf i)).RegularAt (P.weights (s.elementOf i))
      (P.inputQ (s.elementOf i) env (x i))

end Potential4G

/-- Lists of images: each once, and all within distance `R` are there. -/
structure Structure.Images (s : Structure) (R : ℝ) (imgs : ℕ → List (ℕ × (Fin 3 → ℤ))) : Prop where
  nodup : ∀ i < s.atoms.length, (imgs i).Nodup
  partner : ∀ i < s.atoms.length, ∀ p ∈ imgs i, s.IsPartner i p
  complete : ∀ i < s.atoms.length, ∀ p, s.IsPartner i p → len (s.separation i p) ≤ R → p ∈ imgs i

/-- `U`, `V`, `W` are the self interactions, the pair interactions, and what the screening adds to
them, as functions of the positions. With periodic boundary conditions the sums in real space contain
at least all images within the radii of the Ewald sum and of the screening; which images these are
does not change when the atoms move. -/
inductive Qeq.Interacts (q : Qeq) (s : Structure) :
    (Structure → ℕ → ℝ) → (Structure → ℕ → ℕ → ℝ) → (Structure → ℕ → ℕ → ℝ) → Prop
  | cluster (h : s.isPeriodic = false) : Interacts q s q.openU q.openV q.openW
  | periodic (h : s.isPeriodic = true) (imgs imgs' : ℕ → List (ℕ × (Fin 3 → ℤ)))
      (hi : s.Images q.ewald.rCut imgs) (hi' : s.Images q.fs.outer imgs') (S : Finset Vec3)
      (hS : ∀ K, K ∈ S ↔ K ∈ recipBall s.box q.ewald.kCut) :
      Interacts q s (fun s' => q.ewaldU s' imgs S) (fun s' => q.ewaldV s' imgs S)
        (fun s' => q.screenW s' imgs')

/-- The charges `x` are in equilibrium, with the electronegativities of the environments `env`, which
reach at least to `R`. -/
structure IsState4G (P : Potential4G) (q : Qeq) (R : ℝ) (s : Structure) (U : ℕ → ℝ)
    (V : ℕ → ℕ → ℝ) (env : ℕ → List Site) (x : ℕ → ℝ) : Prop where
  near : ∀ i < s.atoms.length, IsEnv s R i (env i)
  equilibrium : Qeq.Equilibrium s (fun i => P.negativity (s.elementOf i) (env i))
    (fun i => q.J (s.elementOf i)) U V x

/-- `E` is the electrostatic energy of the charges in equilibrium. -/
def IsElecEnergy (P : Potential4G) (q : Qeq) (R : ℝ) (U : Structure → ℕ → ℝ)
    (V W : Structure → ℕ → ℕ → ℝ) (s : Structure) (E : ℝ) : Prop :=
  ∃ env x, IsState4G P q R s (U s) (V s) env x ∧ E = q.storedEnergy s (U s) (V s) (W s) x

/-- `E` is the potential energy: the electrostatic energy of the charges in equilibrium, and the
short-range energies for these charges. -/
def IsEnergy4G (P : Potential4G) (q : Qeq) (R : ℝ) (U : Structure → ℕ → ℝ)
    (V W : Structure → ℕ → ℕ → ℝ) (s : Structure) (E : ℝ) : Prop :=
  ∃ env x, IsState4G P q R s (U s) (V s) env x ∧ E = q.storedEnergy s (U s) (V s) (W s) x +
    ∑ i ∈ Finset.range s.atoms.length, P.atomicQ (s.elementOf i) (env i) (x i)

/-- The forces `f` are minus the gradient of the energy described by `IsE`: along every motion of the
atoms there is such an energy, at least for a short time, and it changes with the rate given by the
forces. -/
def Structure.IsForce (s : Structure) (IsE : Structure → ℝ → Prop) (f : ℕ → Vec3) : Prop :=
  ∀ r v t0, s.Moves r v t0 → (∀ᶠ t in 𝓝 t0, ∃ E, IsE (s.move fun i => r i t) E) ∧
    ∀ E : ℝ → ℝ, (∀ᶠ t in 𝓝 t0, IsE (s.move fun i => r i t) (E t)) →
    HasDerivAt E (-∑ i ∈ Finset.range s.atoms.length, (f i).dot (v i)) t0

/-- Electrostatic force on atom `i`. -/
def Structure.elecForceOn (s : Structure) (i : ℕ) : Vec3 := ((s.atoms[i]?).map Atom.fElec).getD 0

/-- The structure without the derivatives of the charges. -/
def Structure.forgetDQdr (s : Structure) : Structure :=
  s.withAtoms (s.atoms.map fun a => { a with dQdr := [] })

/-- `M` was set up for the potential `P` with `n` elements: symmetry functions, networks and groups
as for the second generation, a network for the electronegativities of each element, lists of cutoff
radii, hardnesses and widths for all elements, a screening function. The units are those of the
potential, and the Ewald parameters are sensible. -/
structure Mode4G.SetUp (M : Mode4G) (P : Potential4G) (n : ℕ) : Prop where
  mode : M.mode.SetUp P.toPotential n
  groups : ∀ gs, M.groups = some gs → M.mode.GroupsSetUp gs
  elecCount : M.elecNets.length = n
  elecNet : ∀ (k : ℕ) nn, M.elecNets[k]? = some nn →
    NeuralNetwork.Loaded (P.chiShape k) (P.chiWeights k) nn
  cutoffs : ∃ rCutScreen, M.cutoffs = setupCutoffMatrix M.mode.elements rCutScreen
  parameters : n ≤ M.qeq.hardness.length ∧ n ≤ M.qeq.qsigma.length
  screening : ∃ ri ro, M.qeq.fs.Configured ri ro
  unit : P.unit = if M.normalize then M.convEnergy / M.convCharge else 1
  ewald : ∀ v N p p', M.ewaldSetup v N p = some p' → 0 ≤ p'.rCut ∧ 0 ≤ p'.kCut

/-- The radius of the neighbour list, for Ewald parameters `p`. -/
noncomputable def Mode4G.listRadius (M : Mode4G) (s : Structure) (p : EwaldParameters) : ℝ :=
  if s.isPeriodic then max (max M.qeq.fs.outer M.mode.maxCutoffRadius) p.rCut
  else max M.qeq.fs.outer M.mode.maxCutoffRadius

/-- The structure is ready for `evaluateNNP` with the potential: new, no coinciding atoms, triplets in
order; parameters for the Ewald sum can be determined. In the default build the symmetry functions are
meant for the evaluation in groups. -/
structure Structure.Evaluable4G (s : Structure) (M : Mode4G) (P : Potential4G) (n : ℕ)
    (useForces : Bool) : Prop where
  new : s.New n
  number : s.numAtoms = s.atoms.length
  derivatives : ∀ a ∈ s.atoms, a.dAdrQ = []
  apart : s.Apart
  ewald : s.isPeriodic = true → ∃ p, M.ewaldSetup s.volume s.numAtoms M.qeq.ewald = some p
  triplets : ∀ p, (s.isPeriodic = true → M.ewaldSetup s.volume s.numAtoms M.qeq.ewald = some p) →
    P.TripletsOK (M.listRadius s p) s
  groups : M.groups ≠ none → P.Groupable n useForces

end N2P2
