import Verif.Model.NeuralNetwork

/-! Specification vocabulary for neural networks: the layered feed-forward function of a flat
parameter array, the documented position of each parameter, and what users may do with a network
object before the call a theorem talks about. -/

namespace N2P2

/-- Layer sizes, activation functions and the normalisation switch. Layer 0 is the input. -/
structure NetShape where
  numLayers : ℕ
  n : ℕ → ℕ
  af : ℕ → Activation
  norm : Bool

namespace NetShape

/-- Divisor of the neuron inputs in layer `l + 1`. -/
noncomputable def divisor (T : NetShape) (l : ℕ) : ℝ := if T.norm then (T.n l : ℝ) else 1

/-- Index of the output layer. -/
def out (T : NetShape) : ℕ := T.numLayers - 1

/-- The sizes make sense: at least one hidden layer, no empty layer, and each layer after the input
has an activation function. -/
def Sensible (T : NetShape) : Prop :=
  3 ≤ T.numLayers ∧ (∀ l < T.numLayers, 0 < T.n l) ∧ ∀ l < T.numLayers, 0 < l → T.af l ≠ .UNSET

/-- Position in the flat array of the first parameter between layers `i` and `i + 1`. -/
def offset (n : ℕ → ℕ) (i : ℕ) : ℕ := ∑ l ∈ Finset.range i, (n l + 1) * n (l + 1)

end NetShape

/-- A network parameter: the weight from neuron `j` of layer `i` to neuron `k` of layer `i + 1`, or
the bias of neuron `k` of layer `i + 1`. -/
inductive Param
  | weight (i j k : ℕ)
  | bias (i k : ℕ)
  deriving DecidableEq

namespace Param

/-- The parameter exists. -/
def Valid (L : ℕ) (n : ℕ → ℕ) : Param → Prop
  | weight i j k => i + 1 < L ∧ j < n i ∧ k < n (i + 1)
  | bias i k => i + 1 < L ∧ k < n (i + 1)

/-- Documented position (NeuralNetwork.h:153-180): layer by layer, first the weights grouped by
source neuron, then the biases. -/
def pos (n : ℕ → ℕ) : Param → ℕ
  | weight i j k => NetShape.offset n i + j * n (i + 1) + k
  | bias i k => NetShape.offset n i + n i * n (i + 1) + k

/-- The value the network object holds for the parameter. -/
def read (nn : NeuralNetwork) : Param → ℝ
  | weight i j k => ((nn.layers (i + 1)).neurons k).weights j
  | bias i k => ((nn.layers (i + 1)).neurons k).bias

end Param

namespace Activation

/-- The activation functions of NeuralNetwork.h:36-55. -/
noncomputable def ideal (a : Activation) (x : ℝ) : ℝ :=
  match a with
  | UNSET => 0
  | IDENTITY => x
  | TANH => Real.tanh x
  | LOGISTIC => 1 / (1 + Real.exp (-x))
  | SOFTPLUS => Real.log (1 + Real.exp x)
  | RELU => max 0 x
  | GAUSSIAN => Real.exp (-x ^ 2 / 2)
  | COS => Real.cos x
  | REVLOGISTIC => 1 - 1 / (1 + Real.exp (-x))
  | EXP => Real.exp (-x)
  | HARMONIC => x ^ 2

open Classical in
/-- The activation functions with the cut of the exponential tails at ±35. -/
noncomputable def fn (a : Activation) (x : ℝ) : ℝ :=
  match a with
  | LOGISTIC => if 35 < x then 1 else if x < -35 then 0 else ideal LOGISTIC x
  | SOFTPLUS => if 35 < x then x else if x < -35 then 0 else ideal SOFTPLUS x
  | a => ideal a x

/-- `x` is neither a jump of the cut tails nor the kink of the rectifier. -/
def Regular (a : Activation) (x : ℝ) : Prop :=
  match a with
  | UNSET => False
  | LOGISTIC => x ≠ 35 ∧ x ≠ -35
  | SOFTPLUS => x ≠ 35 ∧ x ≠ -35
  | RELU => x ≠ 0
  | _ => True

end Activation

namespace NetShape

/-- Value of neuron `k` in layer `l` for parameters `c` and input `G`. -/
noncomputable def forward (T : NetShape) (c G : ℕ → ℝ) : ℕ → ℕ → ℝ
  | 0, k => G k
  | l + 1, k => (T.af (l + 1)).fn
      ((∑ j ∈ Finset.range (T.n l), c (Param.pos T.n (.weight l j k)) * forward T c G l j
        + c (Param.pos T.n (.bias l k))) / T.divisor l)

/-- Input of the activation function of neuron `k` in layer `l + 1`. -/
noncomputable def preact (T : NetShape) (c G : ℕ → ℝ) (l k : ℕ) : ℝ :=
  (∑ j ∈ Finset.range (T.n l), c (Param.pos T.n (.weight l j k)) * T.forward c G l j
    + c (Param.pos T.n (.bias l k))) / T.divisor l

/-- What neuron `k` of layer `l` sees: the input, or the argument of its activation function. -/
noncomputable def seen (T : NetShape) (c : Buf) (l k : ℕ) (G : Buf) : ℝ :=
  match l with
  | 0 => G k
  | l + 1 => T.preact c G l k

/-- Length of the weights entering a neuron after the Nguyen-Widrow scheme. -/
noncomputable def nguyenWidrowLength (T : NetShape) (i : ℕ) : ℝ :=
  (if T.af (i + 1) = .TANH then 2 else 1) * (0.7 * (T.n (i + 1) : ℝ) ^ (1 / (T.n i : ℝ)))

/-- Sum of the outputs; the output itself if there is one output neuron. -/
noncomputable def energy (T : NetShape) (c G : ℕ → ℝ) : ℝ :=
  ∑ k ∈ Finset.range (T.n T.out), T.forward c G T.out k

/-- No neuron input lies on a jump or kink. -/
def RegularAt (T : NetShape) (c G : ℕ → ℝ) : Prop :=
  ∀ l < T.out, ∀ k < T.n (l + 1), (T.af (l + 1)).Regular (T.preact c G l k)

end NetShape

namespace NeuralNetwork

/-- Calls which do not change weights and biases. -/
inductive Evaluates : NeuralNetwork → NeuralNetwork → Prop
  | refl (nn) : Evaluates nn nn
  | setNormalizeNeurons {a b} (f : Bool) : Evaluates a b → Evaluates a (b.setNormalizeNeurons f)
  | setInput {a b} (G : Buf) : Evaluates a b → Evaluates a (b.setInput G)
  | setInputAt {a b} (i : ℕ) (v : ℝ) : Evaluates a b → Evaluates a (b.setInputAt i v)
  | propagate {a b} : Evaluates a b → Evaluates a b.propagate
  | calculateDFdc {a b} (d g : Buf) : Evaluates a b → Evaluates a (b.calculateDFdc d g).1
  | resetNeuronStatistics {a b} : Evaluates a b → Evaluates a b.resetNeuronStatistics

/-- Networks which can exist: constructed with the given layers, followed by any calls. -/
inductive Reachable (L : ℕ) (n : ℕ → ℕ) (af : ℕ → Activation) : NeuralNetwork → Prop
  | create {nn} : create L n af = some nn → Reachable L n af nn
  | evaluates {a b} : Reachable L n af a → Evaluates a b → Reachable L n af b
  | setConnections {nn} (c : Buf) : Reachable L n af nn → Reachable L n af (nn.setConnections c)
  | modifyConnections {a b} (s : Scheme) : Reachable L n af a → a.modifyConnections s = some b →
      Reachable L n af b
  | modifyConnections2 {a b} (s : Scheme) (x y : ℝ) : Reachable L n af a →
      a.modifyConnections2 s x y = some b → Reachable L n af b

/-- Any number of `calculateDFdc` calls. -/
inductive DFCalls : NeuralNetwork → NeuralNetwork → Prop
  | refl (nn) : DFCalls nn nn
  | call {a b} (d g : Buf) : DFCalls a b → DFCalls a (b.calculateDFdc d g).1

/-- The two ways of setting all inputs: in one call or one by one. -/
noncomputable def inputAll (T : NetShape) (G : Buf) (oneByOne : Bool) (nn : NeuralNetwork) :
    NeuralNetwork :=
  if oneByOne then loop (T.n 0) (fun j nn => nn.setInputAt j (G j)) nn else nn.setInput G

/-- A network with any past, whose parameters were last set to `c`, whose input was then set to `G`
and propagated with normalisation switch `T.norm`. In between it may have been evaluated for other
inputs, and afterwards force derivatives may have been calculated. -/
def Prepared (T : NetShape) (c G : Buf) (nn : NeuralNetwork) : Prop :=
  ∃ nn0 nn1 oneByOne, Reachable T.numLayers T.n T.af nn0 ∧ Evaluates (nn0.setConnections c) nn1 ∧
    nn1.normalizeNeurons = T.norm ∧ DFCalls (inputAll T G oneByOne nn1).propagate nn

end NeuralNetwork

end N2P2
