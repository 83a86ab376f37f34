import Verif.Spec.NeuralNetwork
import Verif.Model.TrainingUpdate

/-! Specification vocabulary for the weight vector of the training. -/

namespace N2P2

namespace Training

open NeuralNetwork

/-- Number of parameters of a network. -/
def _root_.N2P2.NetShape.numParams (T : NetShape) : ℕ :=
  ∑ l ∈ Finset.range (T.numLayers - 1), (T.n l + 1) * T.n (l + 1)

/-- The network of element `i` has shape `T i` and any past; it has at least one parameter. -/
def Nets (T : ℕ → NetShape) (els : List ElementNet) : Prop :=
  ∀ (i : ℕ) (e : ElementNet), els[i]? = some e →
    Reachable (T i).numLayers (T i).n (T i).af e.nn ∧ 0 < (T i).numParams

/-- First slot of element `i`: all elements before have their parameters and, if `hard`, one
hardness. -/
def base (T : ℕ → NetShape) (hard : Bool) (i : ℕ) : ℕ :=
  ∑ j ∈ Finset.range i, ((T j).numParams + if hard then 1 else 0)

/-- What an entry of the weight vector means. -/
inductive Slot
  | param (element : ℕ) (p : Param)
  | hardness (element : ℕ)
  deriving DecidableEq

namespace Slot

/-- The entry exists for `N` elements. -/
def Valid (T : ℕ → NetShape) (hard : Bool) (N : ℕ) : Slot → Prop
  | param i p => i < N ∧ p.Valid (T i).numLayers (T i).n
  | hardness i => i < N ∧ hard = true

/-- Position: elements in order; the hardness after the parameters of its element. -/
def pos (T : ℕ → NetShape) (hard : Bool) : Slot → ℕ
  | param i p => base T hard i + p.pos (T i).n
  | hardness i => base T hard i + (T i).numParams

/-- The value the elements hold for the entry; the hardness is stored as its root. -/
noncomputable def value (els : List ElementNet) : Slot → Option ℝ
  | param i p => els[i]?.map fun e => p.read e.nn
  | hardness i => els[i]?.map fun e => Real.sqrt e.hardness

end Slot

/-- The networks hold the weight vector `w` (without hardness) and were only evaluated since. -/
def InSync (T : ℕ → NetShape) (w : Buf) (els : List ElementNet) : Prop :=
  ∀ (i : ℕ) (e : ElementNet), els[i]? = some e →
    e.nn.normalizeNeurons = (T i).norm ∧ ∃ nn0, Reachable (T i).numLayers (T i).n (T i).af nn0 ∧
      Evaluates (nn0.setConnections (w.from (base T false i))) e.nn

/-- Energy of an atom as function of the weight vector. -/
noncomputable def atomEnergy (T : ℕ → NetShape) (w : Buf) (a : AtomIn) : ℝ :=
  (T a.element).energy (w.from (base T false a.element)) a.G

/-- Contribution of an atom to the force component: minus the sum over its network inputs of
∂E/∂G_k ∂G_k/∂x. -/
noncomputable def atomForce (T : ℕ → NetShape) (w : Buf) (a : AtomIn) : ℝ :=
  -∑ k ∈ Finset.range ((T a.element).n 0),
    deriv (fun y => (T a.element).energy (w.from (base T false a.element))
      (Function.update a.G k y)) (a.G k) * a.dGdx k

/-- The atom belongs to one of `N` elements, its inputs fit the network of the element, and no neuron
input lies on a jump or kink of its activation function. -/
def AtomIn.Fits (T : ℕ → NetShape) (N : ℕ) (w : Buf) (a : AtomIn) : Prop :=
  a.element < N ∧ a.numG = (T a.element).n 0 ∧
    (T a.element).RegularAt (w.from (base T false a.element)) a.G

end Training

end N2P2
