import Verif.Model.Loop
import Mathlib.Analysis.SpecialFunctions.Trigonometric.Basic
import Mathlib.Analysis.SpecialFunctions.Exp
import Mathlib.Analysis.SpecialFunctions.Log.Basic
import Mathlib.Analysis.SpecialFunctions.Pow.Real

/-! Feed-forward neural network. `double` is ℝ, `int` is ℕ (all counts are non-negative). The
arrays `layers`, `neurons`, `weights` are functions of the index; entries outside the allocated
range are meaningless. A loop whose body reads and writes only the element with the loop index is
written as a pointwise update of the elements below the bound. -/

namespace N2P2

/-- NeuralNetwork.h:32-56 `ActivationFunction`. -/
inductive Activation
  | UNSET | IDENTITY | TANH | LOGISTIC | SOFTPLUS | RELU | GAUSSIAN | COS | REVLOGISTIC | EXP
  | HARMONIC
  deriving DecidableEq

/-- NeuralNetwork.cpp:25 `EXP_LIMIT`. -/
def EXP_LIMIT : ℝ := 35

/-- What propagateLayer stores in a neuron. -/
structure ActVal where
  value : ℝ
  dfdx : ℝ
  d2fdx2 : ℝ

open Classical in
/-- NeuralNetwork.cpp:780-888 the branch on the activation function: value, first and second
derivative from the neuron input. For `AF_UNSET` no branch is taken and nothing is stored. -/
noncomputable def Activation.eval (a : Activation) (x : ℝ) : Option ActVal :=
  match a with
  | UNSET => none
  | IDENTITY => some ⟨x, 1, 0⟩
  | TANH =>
    let t := Real.tanh x
    some ⟨t, 1 - t * t, -2 * t * (1 - t * t)⟩
  | LOGISTIC =>
    if EXP_LIMIT < x then some ⟨1, 0, 0⟩
    else if x < -EXP_LIMIT then some ⟨0, 0, 0⟩
    else
      let t := 1 / (1 + Real.exp (-x))
      some ⟨t, t * (1 - t), t * (1 - t) * (1 - 2 * t)⟩
  | SOFTPLUS =>
    if EXP_LIMIT < x then some ⟨x, 1, 0⟩
    else if x < -EXP_LIMIT then some ⟨0, 0, 0⟩
    else
      let e := Real.exp x
      let t := 1 / (1 + 1 / e)
      some ⟨Real.log (1 + e), t, t * (1 - t)⟩
  | RELU => if 0 < x then some ⟨x, 1, 0⟩ else some ⟨0, 0, 0⟩
  | GAUSSIAN =>
    let e := Real.exp (-(1 / 2) * x * x)
    some ⟨e, -x * e, (x * x - 1) * e⟩
  | COS => some ⟨Real.cos x, -Real.sin x, -Real.cos x⟩
  | REVLOGISTIC =>
    let t := 1 / (1 + Real.exp (-x))
    some ⟨1 - t, t * (t - 1), t * (t - 1) * (1 - 2 * t)⟩
  | EXP =>
    let e := Real.exp (-x)
    some ⟨e, -e, e⟩
  | HARMONIC => some ⟨x * x, 2 * x, 2⟩

/-- NeuralNetwork.cpp:1078-1098 `activationFromString`; `none` is the exception. -/
def activationFromString (c : List Char) : Option Activation :=
  if c = ['l'] then some .IDENTITY
  else if c = ['t'] then some .TANH
  else if c = ['s'] then some .LOGISTIC
  else if c = ['p'] then some .SOFTPLUS
  else if c = ['r'] then some .RELU
  else if c = ['g'] then some .GAUSSIAN
  else if c = ['c'] then some .COS
  else if c = ['S'] then some .REVLOGISTIC
  else if c = ['e'] then some .EXP
  else if c = ['h'] then some .HARMONIC
  else none

/-- NeuralNetwork.h:357-391 `Neuron`. -/
structure Neuron where
  count : ℕ
  x : ℝ
  value : ℝ
  dfdx : ℝ
  d2fdx2 : ℝ
  bias : ℝ
  dxdG : ℝ
  min : ℝ
  max : ℝ
  sum : ℝ
  sum2 : ℝ
  weights : ℕ → ℝ

/-- NeuralNetwork.h:394-404 `Layer`. -/
structure Layer where
  numNeurons : ℕ
  numNeuronsPrevLayer : ℕ
  activationFunction : Activation
  neurons : ℕ → Neuron

/-- NeuralNetwork.h:406-429 members of `NeuralNetwork`; `inputLayer` and `outputLayer` are
`layers[0]` and `layers[numLayers-1]`. -/
structure NeuralNetwork where
  normalizeNeurons : Bool
  numWeights : ℕ
  numBiases : ℕ
  numConnections : ℕ
  numLayers : ℕ
  numHiddenLayers : ℕ
  weightOffset : ℕ → ℕ
  biasOffset : ℕ → ℕ
  biasOnlyOffset : ℕ → ℕ
  layers : ℕ → Layer

/-- `numeric_limits<double>::max()` = (2 - 2^-52) * 2^1023. -/
noncomputable def DBL_MAX : ℝ := (2 - (1 / 2) ^ 52) * 2 ^ 1023

/-- NeuralNetwork.cpp:731-751 a neuron as allocated. -/
noncomputable def Neuron.init : Neuron where
  count := 0
  x := 0
  value := 0
  dfdx := 0
  d2fdx2 := 0
  bias := 0
  dxdG := 0
  min := DBL_MAX
  max := -DBL_MAX
  sum := 0
  sum2 := 0
  weights := fun _ => 0

/-- NeuralNetwork.cpp:721-759 `allocateLayer`. -/
noncomputable def allocateLayer (prev n : ℕ) (a : Activation) : Layer where
  numNeurons := n
  numNeuronsPrevLayer := prev
  activationFunction := a
  neurons := fun _ => Neuron.init

namespace NeuralNetwork

/-- NeuralNetwork.cpp:78-83, the loop filling `weightOffset`. -/
def mkWeightOffset (n : ℕ → ℕ) : ℕ → ℕ
  | 0 => 0
  | i + 1 => mkWeightOffset n i + (n i + 1) * n (i + 1)

/-- NeuralNetwork.cpp:90-95, the loop filling `biasOnlyOffset`. -/
def mkBiasOnlyOffset (n : ℕ → ℕ) : ℕ → ℕ
  | 0 => 0
  | i + 1 => mkBiasOnlyOffset n i + n (i + 1)

/-- NeuralNetwork.cpp:30-96 constructor; `none` when the program exits because there are fewer than
three layers. `n` is numNeuronsPerLayer, `af` activationFunctionsPerLayer. -/
noncomputable def create (numLayers : ℕ) (n : ℕ → ℕ) (af : ℕ → Activation) :
    Option NeuralNetwork :=
  if numLayers < 3 then none
  else
    let layers : ℕ → Layer := fun i => allocateLayer (if i = 0 then 0 else n (i - 1)) (n i) (af i)
    let nb := loop (numLayers - 1) (fun i s => s + (layers (i + 1)).numNeurons) 0
    let nw := loop (numLayers - 1)
      (fun i s => s + (layers (i + 1)).numNeurons * (layers (i + 1)).numNeuronsPrevLayer) 0
    some
      { normalizeNeurons := false
        numWeights := nw
        numBiases := nb
        numConnections := nw + nb
        numLayers := numLayers
        numHiddenLayers := numLayers - 2
        weightOffset := mkWeightOffset n
        biasOffset := fun i => mkWeightOffset n i + n (i + 1) * n i
        biasOnlyOffset := mkBiasOnlyOffset n
        layers := layers }

/-- NeuralNetwork.cpp:113-118 `setNormalizeNeurons`. -/
def setNormalizeNeurons (nn : NeuralNetwork) (b : Bool) : NeuralNetwork :=
  { nn with normalizeNeurons := b }

/-- `layers[i].neurons[k] = f(layers[i].neurons[k])`. -/
def modifyNeuron (layers : ℕ → Layer) (i k : ℕ) (f : Neuron → Neuron) : ℕ → Layer :=
  Function.update layers i
    { layers i with neurons := Function.update (layers i).neurons k (f ((layers i).neurons k)) }

/-- `layers[i].neurons[k].weights[j] = v`. -/
def setWeight (layers : ℕ → Layer) (i k j : ℕ) (v : ℝ) : ℕ → Layer :=
  modifyNeuron layers i k fun n => { n with weights := Function.update n.weights j v }

/-- `layers[i].neurons[k].bias = v`. -/
def setBias (layers : ℕ → Layer) (i k : ℕ) (v : ℝ) : ℕ → Layer :=
  modifyNeuron layers i k fun n => { n with bias := v }

/-- NeuralNetwork.cpp:147-169 `setConnections`. The state is the layers and `count`. -/
def setConnections (nn : NeuralNetwork) (connections : Buf) : NeuralNetwork :=
  { nn with
    layers :=
      (loop (nn.numLayers - 1) (fun i' s =>
        let i := i' + 1
        let s := loop (nn.layers i).numNeuronsPrevLayer (fun j s =>
          loop (nn.layers i).numNeurons (fun k s =>
            (setWeight s.1 i k j (connections s.2), s.2 + 1)) s) s
        loop (nn.layers i).numNeurons (fun j s =>
          (setBias s.1 i j (connections s.2), s.2 + 1)) s) (nn.layers, 0)).1 }

/-- NeuralNetwork.cpp:171-193 `getConnections`: the buffer after the call. -/
def getConnections (nn : NeuralNetwork) (connections : Buf) : Buf :=
  (loop (nn.numLayers - 1) (fun i' s =>
    let i := i' + 1
    let s := loop (nn.layers i).numNeuronsPrevLayer (fun j s =>
      loop (nn.layers i).numNeurons (fun k s =>
        (Buf.set s.1 s.2 (((nn.layers i).neurons k).weights j), s.2 + 1)) s) s
    loop (nn.layers i).numNeurons (fun j s =>
      (Buf.set s.1 s.2 ((nn.layers i).neurons j).bias, s.2 + 1)) s) (connections, 0)).1

/-- NeuralNetwork.cpp:195-210 `initializeConnectionsRandomUniform`; the values `rand()/RAND_MAX`
are an arbitrary sequence. -/
noncomputable def initializeConnectionsRandomUniform (nn : NeuralNetwork) (rnd : ℕ → ℝ) :
    NeuralNetwork :=
  nn.setConnections fun i => -1 + 2 * rnd i

/-- Statistics update shared by setInput and propagateLayer (NeuralNetwork.cpp:346-352, 889-894). -/
noncomputable def _root_.N2P2.Neuron.updateStatistics (n : Neuron) (v : ℝ) : Neuron :=
  { n with
    count := n.count + 1
    min := Min.min v n.min
    max := Max.max v n.max
    sum := n.sum + v
    sum2 := n.sum2 + v * v }

/-- NeuralNetwork.cpp:356-374 `setInput(input)`. -/
noncomputable def setInput (nn : NeuralNetwork) (input : Buf) : NeuralNetwork :=
  { nn with
    layers := Function.update nn.layers 0
      { nn.layers 0 with
        neurons := fun i =>
          if i < (nn.layers 0).numNeurons then
            { ((nn.layers 0).neurons i).updateStatistics (input i) with value := input i }
          else (nn.layers 0).neurons i } }

/-- NeuralNetwork.cpp:344-354 `setInput(index, value)`. -/
noncomputable def setInputAt (nn : NeuralNetwork) (index : ℕ) (value : ℝ) : NeuralNetwork :=
  { nn with
    layers := modifyNeuron nn.layers 0 index fun n =>
      { n.updateStatistics value with value := value } }

/-- NeuralNetwork.cpp:376-384 `getOutput`. -/
def getOutput (nn : NeuralNetwork) (output : Buf) : Buf :=
  loop (nn.layers (nn.numLayers - 1)).numNeurons (fun i o =>
    Buf.set o i ((nn.layers (nn.numLayers - 1)).neurons i).value) output

/-- NeuralNetwork.cpp:765-779 the neuron input. -/
noncomputable def neuronInput (norm : Bool) (layer prev : Layer) (i : ℕ) : ℝ :=
  let d := loop layer.numNeuronsPrevLayer
    (fun j d => d + (layer.neurons i).weights j * (prev.neurons j).value) 0
  let d := d + (layer.neurons i).bias
  if norm then d / (layer.numNeuronsPrevLayer : ℝ) else d

/-- NeuralNetwork.cpp:780-894 what the loop body stores in the neuron. -/
noncomputable def storeNeuron (n : Neuron) (a : Activation) (x : ℝ) : Neuron :=
  let n := { n with x := x }
  let n := match a.eval x with
    | some v => { n with value := v.value, dfdx := v.dfdx, d2fdx2 := v.d2fdx2 }
    | none => n
  n.updateStatistics x

/-- NeuralNetwork.cpp:761-896 `propagateLayer`. -/
noncomputable def propagateLayer (norm : Bool) (layer prev : Layer) : Layer :=
  { layer with
    neurons := fun i =>
      if i < layer.numNeurons then
        storeNeuron (layer.neurons i) layer.activationFunction (neuronInput norm layer prev i)
      else layer.neurons i }

/-- NeuralNetwork.cpp:386-394 `propagate`. -/
noncomputable def propagate (nn : NeuralNetwork) : NeuralNetwork :=
  { nn with
    layers := loop (nn.numLayers - 1) (fun i' layers =>
      let i := i' + 1
      Function.update layers i (propagateLayer nn.normalizeNeurons (layers i) (layers (i - 1))))
      nn.layers }

/-- NeuralNetwork.cpp:396-442 `calculateDEdG`: the buffer after the call. `inner[l-1]` is the loop
state; `outer[l-1]` is copied into `inner[l]` except in the last pass, where its first entry is the
result. -/
noncomputable def calculateDEdG (nn : NeuralNetwork) (dEdG : Buf) : Buf :=
  loop (nn.layers 0).numNeurons (fun k dEdG =>
    let inner0 : Buf := fun i =>
      let v := ((nn.layers 1).neurons i).weights k * ((nn.layers 1).neurons i).dfdx
      if nn.normalizeNeurons then v / ((nn.layers 0).numNeurons : ℝ) else v
    let outer := loop nn.numHiddenLayers (fun l' inner =>
      let l := l' + 1
      fun i2 =>
        let v := loop (nn.layers l).numNeurons (fun i1 d =>
          d + ((nn.layers (l + 1)).neurons i2).weights i1 * inner i1) 0
        let v := v * ((nn.layers (l + 1)).neurons i2).dfdx
        if nn.normalizeNeurons then v / ((nn.layers l).numNeurons : ℝ) else v) inner0
    dEdG.set k (outer 0)) dEdG

/-- NeuralNetwork.cpp:444-488 `calculateDEdc`: the buffer after the call. -/
noncomputable def calculateDEdc (nn : NeuralNetwork) (dEdc : Buf) : Buf :=
  let out := nn.layers (nn.numLayers - 1)
  let dEdc := loop nn.numConnections (fun i d => Buf.set d i 0) dEdc
  let dEdc := loop out.numNeurons (fun i d =>
    let d := Buf.set d (nn.biasOffset (nn.numLayers - 2) + i) (out.neurons i).dfdx
    if nn.normalizeNeurons then
      Buf.set d (nn.biasOffset (nn.numLayers - 2) + i)
        (d (nn.biasOffset (nn.numLayers - 2) + i) / (out.numNeuronsPrevLayer : ℝ))
    else d) dEdc
  loopDown (nn.numLayers - 1) (fun i d =>
    (loop (nn.layers i).numNeurons (fun j s =>
      let s := loop (nn.layers (i + 1)).numNeurons (fun k s =>
        let d := Buf.set s.1 (nn.weightOffset i + s.2)
          (s.1 (nn.biasOffset i + k) * ((nn.layers i).neurons j).value)
        let d := if 1 ≤ i then
            Buf.set d (nn.biasOffset (i - 1) + j) (d (nn.biasOffset (i - 1) + j)
              + d (nn.biasOffset i + k) * ((nn.layers (i + 1)).neurons k).weights j
                * ((nn.layers i).neurons j).dfdx)
          else d
        (d, s.2 + 1)) s
      if nn.normalizeNeurons = true ∧ 1 ≤ i then
        (Buf.set s.1 (nn.biasOffset (i - 1) + j)
          (s.1 (nn.biasOffset (i - 1) + j) / ((nn.layers i).numNeuronsPrevLayer : ℝ)), s.2)
      else s) (d, 0)).1) dEdc

/-- NeuralNetwork.cpp:593-626 `calculateDEdb`: the buffer after the call. -/
noncomputable def calculateDEdb (nn : NeuralNetwork) (dEdb : Buf) : Buf :=
  let out := nn.layers (nn.numLayers - 1)
  let dEdb := loop out.numNeurons (fun i d =>
    let d := Buf.set d (nn.biasOnlyOffset (nn.numLayers - 2) + i) (out.neurons i).dfdx
    if nn.normalizeNeurons then
      Buf.set d (nn.biasOnlyOffset (nn.numLayers - 2) + i)
        (d (nn.biasOnlyOffset (nn.numLayers - 2) + i) / (out.numNeuronsPrevLayer : ℝ))
    else d) dEdb
  loopDown (nn.numLayers - 1) (fun i d =>
    loop (nn.layers i).numNeurons (fun j d =>
      let d := loop (nn.layers (i + 1)).numNeurons (fun k d =>
        if 1 ≤ i then
          Buf.set d (nn.biasOnlyOffset (i - 1) + j) (d (nn.biasOnlyOffset (i - 1) + j)
            + d (nn.biasOnlyOffset i + k) * ((nn.layers (i + 1)).neurons k).weights j
              * ((nn.layers i).neurons j).dfdx)
        else d) d
      if nn.normalizeNeurons = true ∧ 1 ≤ i then
        Buf.set d (nn.biasOnlyOffset (i - 1) + j)
          (d (nn.biasOnlyOffset (i - 1) + j) / ((nn.layers i).numNeuronsPrevLayer : ℝ))
      else d) d) dEdb

/-- NeuralNetwork.cpp:628-657 `calculateDxdG`. -/
noncomputable def calculateDxdG (nn : NeuralNetwork) (index : ℕ) : NeuralNetwork :=
  let l1 : Layer :=
    { nn.layers 1 with
      neurons := fun i =>
        if i < (nn.layers 1).numNeurons then
          let v := ((nn.layers 1).neurons i).weights index
          { (nn.layers 1).neurons i with
            dxdG := if nn.normalizeNeurons then v / ((nn.layers 1).numNeuronsPrevLayer : ℝ)
              else v }
        else (nn.layers 1).neurons i }
  { nn with
    layers := loop (nn.numLayers - 2) (fun i' layers =>
      let i := i' + 2
      Function.update layers i
        { layers i with
          neurons := fun j =>
            if j < (layers i).numNeurons then
              let v := loop (layers (i - 1)).numNeurons (fun k d =>
                d + ((layers i).neurons j).weights k * ((layers (i - 1)).neurons k).dfdx
                  * ((layers (i - 1)).neurons k).dxdG) 0
              { (layers i).neurons j with
                dxdG := if nn.normalizeNeurons then v / ((layers i).numNeuronsPrevLayer : ℝ)
                  else v }
            else (layers i).neurons j }) (Function.update nn.layers 1 l1) }

/-- NeuralNetwork.cpp:659-719 `calculateD2EdGdc`: the buffer after the call. -/
noncomputable def calculateD2EdGdc (nn : NeuralNetwork) (index : ℕ) (dEdb d2EdGdc : Buf) : Buf :=
  let out := nn.layers (nn.numLayers - 1)
  let d2 := loop out.numNeurons (fun i d =>
    let d := Buf.set d (nn.biasOffset (nn.numLayers - 2) + i)
      ((out.neurons i).d2fdx2 * (out.neurons i).dxdG)
    if nn.normalizeNeurons then
      Buf.set d (nn.biasOffset (nn.numLayers - 2) + i)
        (d (nn.biasOffset (nn.numLayers - 2) + i) / (out.numNeuronsPrevLayer : ℝ))
    else d) d2EdGdc
  loopDown (nn.numLayers - 1) (fun i d =>
    (loop (nn.layers i).numNeurons (fun j s =>
      let s := loop (nn.layers (i + 1)).numNeurons (fun k s =>
        let d := if i = 0 then
            let d := Buf.set s.1 (nn.weightOffset i + s.2)
              (s.1 (nn.biasOffset i + k) * ((nn.layers i).neurons j).value)
            if j = index then
              Buf.set d (nn.weightOffset i + s.2)
                (d (nn.weightOffset i + s.2) + dEdb (nn.biasOnlyOffset i + k))
            else d
          else
            Buf.set s.1 (nn.weightOffset i + s.2)
              (s.1 (nn.biasOffset i + k) * ((nn.layers i).neurons j).value
                + dEdb (nn.biasOnlyOffset i + k) * ((nn.layers i).neurons j).dfdx
                  * ((nn.layers i).neurons j).dxdG)
        let d := if 1 ≤ i then
            Buf.set d (nn.biasOffset (i - 1) + j) (d (nn.biasOffset (i - 1) + j)
              + ((nn.layers (i + 1)).neurons k).weights j
                * (d (nn.biasOffset i + k) * ((nn.layers i).neurons j).dfdx
                  + dEdb (nn.biasOnlyOffset i + k) * ((nn.layers i).neurons j).d2fdx2
                    * ((nn.layers i).neurons j).dxdG))
          else d
        (d, s.2 + 1)) s
      if nn.normalizeNeurons = true ∧ 1 ≤ i then
        (Buf.set s.1 (nn.biasOffset (i - 1) + j)
          (s.1 (nn.biasOffset (i - 1) + j) / ((nn.layers i).numNeuronsPrevLayer : ℝ)), s.2)
      else s) (d, 0)).1) d2

/-- NeuralNetwork.cpp:490-527 `calculateDFdc`: the network (whose `dxdG` fields are overwritten) and
the buffer after the call. The temporary arrays start with arbitrary contents in the code and are
set to zero first; here they start as zero. -/
noncomputable def calculateDFdc (nn : NeuralNetwork) (dFdc dGdxyz : Buf) : NeuralNetwork × Buf :=
  let dFdc := loop nn.numConnections (fun i d => Buf.set d i 0) dFdc
  let dEdb := nn.calculateDEdb (fun _ => 0)
  loop (nn.layers 0).numNeurons (fun i s =>
    let nn' := s.1.calculateDxdG i
    let d2 := nn'.calculateD2EdGdc i dEdb (fun _ => 0)
    (nn', loop nn.numConnections (fun j d => Buf.set d j (d j - d2 j * dGdxyz i)) s.2)) (nn, dFdc)

/-- NeuralNetwork.cpp:898-914 `resetNeuronStatistics`. -/
noncomputable def resetNeuronStatistics (nn : NeuralNetwork) : NeuralNetwork :=
  { nn with
    layers := fun i =>
      if i < nn.numLayers then
        { nn.layers i with
          neurons := fun j =>
            if j < (nn.layers i).numNeurons then
              { (nn.layers i).neurons j with
                count := 0, min := DBL_MAX, max := -DBL_MAX, sum := 0, sum2 := 0 }
            else (nn.layers i).neurons j }
      else nn.layers i }

/-- The statistics members of a neuron. -/
structure _root_.N2P2.NeuronStat where
  count : ℕ
  min : ℝ
  max : ℝ
  sum : ℝ
  sum2 : ℝ

/-- NeuralNetwork.cpp:916-939 `getNeuronStatistics`. The five arrays, written at the same index
`iNeuron`, are one array of records; the array after the call. -/
def getNeuronStatistics (nn : NeuralNetwork) (target : ℕ → NeuronStat) : ℕ → NeuronStat :=
  (loop nn.numLayers (fun i s =>
    loop (nn.layers i).numNeurons (fun j s =>
      let n := (nn.layers i).neurons j
      (Function.update s.1 s.2 ⟨n.count, n.min, n.max, n.sum, n.sum2⟩, s.2 + 1)) s) (target, 0)).1

/-- NeuralNetwork.h:59-113 `ModificationScheme`. -/
inductive Scheme
  | ZEROBIAS | ZEROOUTPUTWEIGHTS | FANIN | GLOROTBENGIO | NGUYENWIDROW | PRECONDITIONOUTPUT
  deriving DecidableEq

/-- Applies `f layer neuron` to each neuron of the layers `lo ≤ i < hi`. -/
def mapNeurons (nn : NeuralNetwork) (lo hi : ℕ) (f : Layer → Neuron → Neuron) : NeuralNetwork :=
  { nn with
    layers := fun i =>
      if lo ≤ i ∧ i < hi then
        { nn.layers i with
          neurons := fun j =>
            if j < (nn.layers i).numNeurons then f (nn.layers i) ((nn.layers i).neurons j)
            else (nn.layers i).neurons j }
      else nn.layers i }

/-- `weights[k] = f(weights[k])` for `k < numNeuronsPrevLayer`. -/
def mapWeights (l : Layer) (f : ℝ → ℝ) (n : Neuron) : Neuron :=
  { n with weights := fun k => if k < l.numNeuronsPrevLayer then f (n.weights k) else n.weights k }

/-- NeuralNetwork.cpp:273-301 the loop body of the Nguyen-Widrow scheme for one neuron. -/
noncomputable def nguyenWidrowNeuron (l : Layer) (n : Neuron) : Neuron :=
  let beta := 0.7 * (l.numNeurons : ℝ) ^ (1 / (l.numNeuronsPrevLayer : ℝ))
  let sum := Real.sqrt
    (loop l.numNeuronsPrevLayer (fun k s => s + n.weights k * n.weights k) 0)
  let n := mapWeights l (fun w =>
    let w := w * (beta / sum)
    if l.activationFunction = .TANH then w * 2 else w) n
  let b := n.bias * beta
  { n with bias := if l.activationFunction = .TANH then b * 2 else b }

/-- NeuralNetwork.cpp:212-314 `modifyConnections(scheme)`; `none` when the program exits. In the
Nguyen-Widrow scheme the code may write outside `weights` when the output layer has more neurons
than the layer before; the model writes the same index. -/
noncomputable def modifyConnections (nn : NeuralNetwork) (scheme : Scheme) :
    Option NeuralNetwork :=
  match scheme with
  | .ZEROBIAS => some (nn.mapNeurons 0 nn.numLayers fun _ n => { n with bias := 0 })
  | .ZEROOUTPUTWEIGHTS =>
    some (nn.mapNeurons (nn.numLayers - 1) nn.numLayers fun l n => mapWeights l (fun _ => 0) n)
  | .FANIN =>
    some (nn.mapNeurons 1 nn.numLayers fun l n =>
      if l.activationFunction = .TANH then
        mapWeights l (fun w => w / Real.sqrt l.numNeuronsPrevLayer) n else n)
  | .GLOROTBENGIO =>
    some (nn.mapNeurons 1 nn.numLayers fun l n =>
      if l.activationFunction = .TANH then
        mapWeights l (fun w => w * Real.sqrt (6 / (l.numNeuronsPrevLayer + l.numNeurons : ℝ))) n
      else n)
  | .NGUYENWIDROW =>
    let nn := nn.mapNeurons 1 (nn.numLayers - 1) nguyenWidrowNeuron
    let out := nn.numLayers - 1
    some { nn with
      layers := loop (nn.layers out).numNeurons (fun i layers =>
        setWeight layers out 0 i (((layers out).neurons 0).weights i * 0.5)) nn.layers }
  | .PRECONDITIONOUTPUT => none

/-- NeuralNetwork.cpp:316-342 `modifyConnections(scheme, parameter1, parameter2)`. -/
noncomputable def modifyConnections2 (nn : NeuralNetwork) (scheme : Scheme) (mean sigma : ℝ) :
    Option NeuralNetwork :=
  match scheme with
  | .PRECONDITIONOUTPUT =>
    some (nn.mapNeurons (nn.numLayers - 1) nn.numLayers fun l n =>
      let n := mapWeights l (fun w => w * sigma) n
      { n with bias := n.bias + mean })
  | _ => none

end NeuralNetwork

end N2P2
