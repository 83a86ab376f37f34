import Verif.Model.NeuronFile
import Verif.Spec.NeuralNetwork
import Verif.Spec.Sensitivity

/-! What is expected from the statistics of neurons. -/

namespace N2P2

open NetShape NeuralNetwork

/-- Mean value. -/
noncomputable def meanValue (vs : List ℝ) : Option ℝ := if vs = [] then none else some (vs.sum / vs.length)

/-- Standard deviation of a sample of at least two values. -/
noncomputable def sampleDeviation (vs : List ℝ) : Option ℝ :=
  if vs.length ≤ 1 then none
  else some (Real.sqrt ((vs.map fun v => (v - vs.sum / vs.length) ^ 2).sum / ((vs.length : ℝ) - 1)))

/-- An element of the potential: layers and parameters of its network. -/
structure TrainedNetwork where
  T : NetShape
  c : Buf

/-- `nn` is a network with the parameters of the element. -/
structure TrainedNetwork.On (e : TrainedNetwork) (nn : NeuralNetwork) : Prop where
  parameters : ∃ nn0, Reachable e.T.numLayers e.T.n e.T.af nn0 ∧ Evaluates (nn0.setConnections e.c) nn
  norm : nn.normalizeNeurons = e.T.norm

/-- No statistics have been collected. -/
def TrainedNetwork.Unused (e : TrainedNetwork) (nn : NeuralNetwork) : Prop :=
  ∀ l < e.T.numLayers, ∀ k < e.T.n l, let m := (nn.layers l).neurons k
    m.count = 0 ∧ m.min = DBL_MAX ∧ m.max = -DBL_MAX ∧ m.sum = 0 ∧ m.sum2 = 0

/-- What neuron `k` of layer `l` has seen on all processes. `Gs` are the inputs on each process. -/
noncomputable def TrainedNetwork.values (e : TrainedNetwork) (Gs : List (List Buf)) (l k : ℕ) : List ℝ :=
  Gs.flatten.map (e.T.seen e.c l k)

/-- Line for neuron number `j` of element number `i`, which has seen `vs`. -/
noncomputable def neuronWords (F : FloatText) (i j : ℕ) (vs : List ℝ) : List Str :=
  [natText i, natText j, natText vs.length, F.print (some (vs.min?.getD DBL_MAX)),
    F.print (some (vs.max?.getD (-DBL_MAX))), F.print (meanValue vs), F.print (sampleDeviation vs)]

/-- Lines for element number `i`: layer by layer, numbers from 1. -/
noncomputable def TrainedNetwork.words (e : TrainedNetwork) (F : FloatText) (Gs : List (List Buf)) (i : ℕ) :
    List (List Str) :=
  (List.range e.T.numLayers).flatMap fun l => (List.range (e.T.n l)).map fun k =>
    neuronWords F i (∑ m ∈ Finset.range l, e.T.n m + k + 1) (e.values Gs l k)

/-- Networks of the elements on all processes with the inputs of an epoch. Numbers fit into `int`. -/
structure NeuronEpoch (els : List TrainedNetwork) (epoch : ℕ) (before : ℕ → List (NeuralNetwork × List Buf)) : Prop where
  sensible : ∀ e ∈ els, e.T.Sensible
  elements : els.length < 2 ^ 31
  network : ∀ i e, els[i]? = some e → before i ≠ [] ∧ (∀ q ∈ before i, e.On q.1 ∧ (epoch = 0 → e.Unused q.1)) ∧
    ∑ m ∈ Finset.range e.T.numLayers, e.T.n m < 2 ^ 31 ∧ ((before i).map Prod.snd).flatten.length < 2 ^ 31 ∧
    ∀ l < e.T.numLayers, ∀ k < e.T.n l, ∀ v ∈ e.values ((before i).map Prod.snd) l k, |v| ≤ DBL_MAX

end N2P2
