import Verif.Model.Cabana
import Verif.Model.WeightFile
import Verif.Model.ScalingFile
import Verif.Model.ElementMap

/-! `ModeCabana::setupNeuralNetworkWeights` (ModeCabana_impl.h:530-602): the weight files as read by
the CabanaMD interface. Simplifications: log output is left out; file name formats are as in
`Verif.Model.WeightFile` (the atomic number, an `int`, is printed as it is). -/

namespace N2P2

/-- `h_weights(attype, layer, end, start) = x`. An index outside of the view is undefined. -/
noncomputable def CabanaNet.putWeight (net : CabanaNet) (attype : ℕ) (layer fin start : ℤ) (x : ℝ) :
    Except Fault CabanaNet :=
  if (0 ≤ layer ∧ layer < net.numLayers) ∧ (0 ≤ fin ∧ fin < net.maxNeurons) ∧
      (0 ≤ start ∧ start < net.maxNeurons) then
    .ok { net with weights := fun e l i j =>
      if e = attype ∧ (l : ℤ) = layer ∧ (i : ℤ) = fin ∧ (j : ℤ) = start then x
      else net.weights e l i j }
  else .error .undefined

/-- `h_bias(attype, layer, start) = x`. -/
noncomputable def CabanaNet.putBias (net : CabanaNet) (attype : ℕ) (layer start : ℤ) (x : ℝ) :
    Except Fault CabanaNet :=
  if (0 ≤ layer ∧ layer < net.numLayers) ∧ (0 ≤ start ∧ start < net.maxNeurons) then
    .ok { net with bias := fun e l i =>
      if e = attype ∧ (l : ℤ) = layer ∧ (i : ℤ) = start then x else net.bias e l i }
  else .error .undefined

/-- ModeCabana_impl.h:572-585: a line which is not a comment, in words. -/
noncomputable def cabanaWeightWords (N : NumberText) (attype : ℕ) (words : List Str)
    (net : CabanaNet) : Except Fault CabanaNet := do
  let kind ← orThrow words[1]?
  if kind = ['a'] then do
    let layer ← orThrow words[3]?
    let start ← orThrow words[4]?
    let fin ← orThrow words[6]?
    let x ← orThrow words[0]?
    net.putWeight attype (textInt layer) (textInt fin - 1) (textInt start - 1) (N.atof x)
  else if kind = ['b'] then do
    let layer ← orThrow words[3]?
    let start ← orThrow words[4]?
    let x ← orThrow words[0]?
    net.putBias attype (textInt layer - 1) (textInt start - 1) (N.atof x)
  else return net

/-- ModeCabana_impl.h:568-586: one line; `line.at(0)` of an empty line throws. -/
noncomputable def cabanaWeightLine (N : NumberText) (attype : ℕ) (net : CabanaNet) (l : Str) :
    Except Fault CabanaNet :=
  match l[0]? with
  | none => .error .exception
  | some c => if c ≠ '#' then cabanaWeightWords N attype (split (reduce l)) net else .ok net

/-- ModeCabana_impl.h:544-552: the atomic number; the last one stays if the symbol is unknown. -/
def cabanaNumber (AN : ℕ) (symbol : Str) : ℕ :=
  match knownElements.findIdx? (· == symbol) with
  | some i => i + 1
  | none => AN

/-- ModeCabana_impl.h:542-589, the element with number `p.2` and name `p.1`. -/
noncomputable def cabanaWeightFile (N : NumberText) (fs : Files) (format : NameFormat)
    (s : ℕ × CabanaNet) (p : Str × ℕ) : Except Fault (ℕ × CabanaNet) := do
  let AN := cabanaNumber s.1 p.1
  let name ← orUndefined (format.name AN)
  let text ← orThrow (fs name)
  let net ← (readLines text).foldlM (cabanaWeightLine N p.2) s.2
  return (AN, net)

/-- ModeCabana_impl.h:530-602 `setupNeuralNetworkWeights`. Element number `k` has the `k`-th name. -/
noncomputable def cabanaWeights (N : NumberText) (fs : Files) (format : NameFormat)
    (names : List Str) (net : CabanaNet) : Except Fault CabanaNet := do
  let s ← names.zipIdx.foldlM (cabanaWeightFile N fs format) (0, net)
  return s.2

end N2P2
