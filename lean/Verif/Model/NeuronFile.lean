import Verif.Model.NeuralNetwork
import Verif.Model.LearningCurve
import Verif.Model.Sensitivity

/-! Neuron statistics written during training (Training.cpp:1844-1970, 2146-2237). -/

namespace N2P2

open Training (NNPType)

/-- NeuralNetwork.cpp:120-130 `getNumNeurons`. -/
def NeuralNetwork.getNumNeurons (nn : NeuralNetwork) : ℕ :=
  loop nn.numLayers (fun i count => count + (nn.layers i).numNeurons) 0

/-- Training.cpp:2155-2157 and 2216-2221 in `loop`: the evaluations of one network for the errors of an epoch, with inputs
`Gs`, one for each atom. Only after training steps the statistics are reset before. Calculation of derivatives does not change
statistics and is left out. -/
noncomputable def epochEvaluations (epoch : ℕ) (nn : NeuralNetwork) (Gs : List Buf) : NeuralNetwork :=
  Gs.foldl (fun nn G => (nn.setInput G).propagate) (if epoch = 0 then nn else nn.resetNeuronStatistics)

/-- Training.cpp:1899-1914: `MPI_Reduce` to process 0. -/
noncomputable def neuronReduce (procs : List NeuronStat) : NeuronStat :=
  ⟨(procs.map NeuronStat.count).sum, allMin (procs.map NeuronStat.min), allMax (procs.map NeuronStat.max),
    (procs.map NeuronStat.sum).sum, (procs.map NeuronStat.sum2).sum⟩

/-- Training.cpp:1922: no value is 0/0. -/
noncomputable def NeuronStat.mean (s : NeuronStat) : Option ℝ := if s.count = 0 then none else some (s.sum / s.count)

/-- Training.cpp:1919-1921. With less than two values this is 0/0. The root of a negative number is NaN. -/
noncomputable def NeuronStat.sigma (s : NeuronStat) : Option ℝ :=
  if s.count ≤ 1 then none
  else
    let q := (s.count * s.sum2 - s.sum * s.sum) / (s.count * (s.count - 1 : ℕ) : ℝ)
    if q < 0 then none else some (Real.sqrt q)

/-- Training.cpp:1917-1931, line of neuron `j` of element `i`. Numbers are of type `size_t` and `long`, but printed with `%d`
(here `none` if one is too large). -/
noncomputable def neuronLine (F : FloatText) (i j : ℕ) (s : NeuronStat) : Option Str :=
  if i + 1 < 2 ^ 31 ∧ j + 1 < 2 ^ 31 ∧ s.count < 2 ^ 31 then
    some (fieldLine (padLeft 10 (natText (i + 1)))
      ([natText (j + 1), natText s.count].map (padLeft 10) ++
        [some s.min, some s.max, s.mean, s.sigma].map fun x => padLeft 16 (F.print x)))
  else none

/-- Training.cpp:1853-1880. -/
def neuronHeader (id : Str) : Option (List Str) :=
  createFileHeader
    ["Statistics for individual neurons of network \"".toList ++ id ++ "\" gathered during RMSE calculation.".toList]
    [10, 10, 10, 16, 16, 16, 16]
    ["element".toList, "neuron".toList, "count".toList, "min".toList, "max".toList, "mean".toList, "sigma".toList]
    ["Element index.".toList, "Neuron number.".toList, "Number of neuron value computations.".toList,
      "Minimum neuron value encounterd.".toList, "Maximum neuron value encounterd.".toList, "Mean neuron value.".toList,
      "Standard deviation of neuron value.".toList] '#'

/-- Training.cpp:1885-1933: lines of element `i`, whose network on each process is given. `at` and `front` fail without a
network or a neuron. -/
noncomputable def neuronLines (F : FloatText) (i : ℕ) (procs : List NeuralNetwork) : Option (List Str) := do
  let nn ← procs.head?
  if nn.getNumNeurons = 0 then none
  else (List.range nn.getNumNeurons).mapM fun j =>
    neuronLine F i j (neuronReduce (procs.map fun nn => nn.getNeuronStatistics (fun _ => ⟨0, 0, 0, 0, 0⟩) j))

/-- Training.cpp:1844-1941 `writeNeuronStatistics`. `nets i` are the networks `id` of element `i` on all processes. -/
noncomputable def writeNeuronStatistics (F : FloatText) (id file : Str) (numElements : ℕ)
    (nets : ℕ → List NeuralNetwork) (fs : Files) : Option Files := do
  let header ← neuronHeader id
  let lines ← (List.range numElements).mapM fun i => neuronLines F i (nets i)
  some (fs.write file (header.flatten ++ lines.flatten.flatten))

/-- Training.cpp:1949-1955. -/
def neuronFileName (type : NNPType) (stage : ℕ) (id : Str) (epoch : ℕ) : Str :=
  "neuron-stats.".toList ++ id ++ ['.'] ++ zeroPadded 6 epoch ++ ".out".toList ++
    match type with
    | .HDNNP_4G => ".stage-".toList ++ natText stage
    | .HDNNP_Q => ".stage-".toList ++ natText stage
    | _ => []

/-- Training.cpp:1943-1960 `writeNeuronStatisticsEpoch`. -/
noncomputable def writeNeuronStatisticsEpoch (F : FloatText) (every always : ℕ) (type : NNPType) (stage : ℕ) (id : Str)
    (epoch numElements : ℕ) (nets : ℕ → List NeuralNetwork) (fs : Files) : Option Files :=
  if every > 0 ∧ (epoch % every = 0 ∨ epoch ≤ always) then
    writeNeuronStatistics F id (neuronFileName type stage id epoch) numElements nets fs
  else some fs

end N2P2
