import Verif.Model.LearningCurve
import Verif.Spec.WeightFile

/-! What is expected from the errors reported during training. -/

namespace N2P2

open Training (Key NNPType)

/-- Training set or test set. -/
inductive Part
  | train | test
  deriving DecidableEq

/-- The sample type of the structures in the set. -/
def Part.sample : Part → SampleType
  | .train => .training
  | .test => .test

/-- The set in names of columns and files. -/
def Part.text : Part → Str
  | .train => "train".toList
  | .test => "test".toList

/-- The errors of the set. -/
def PropErrors.of (e : PropErrors) : Part → ErrAcc
  | .train => e.train
  | .test => e.test

/-- Units of a column: physical units or units of the normalised data set. -/
inductive UnitSystem
  | physical | training
  deriving DecidableEq

/-- The units in names of columns. -/
def UnitSystem.text : UnitSystem → Str
  | .physical => "pu".toList
  | .training => "iu".toList

/-! ### Errors -/

/-- Differences of reference and calculated values: one for the energy of a structure, three for the force
on an atom, one for its charge. -/
noncomputable def deviations (k : Key) (s : Structure) : List ℝ :=
  match k with
  | .energy => [s.energyRef - s.energy]
  | .force => s.atoms.flatMap fun a => [a.fRef 0 - a.f 0, a.fRef 1 - a.f 1, a.fRef 2 - a.f 2]
  | .charge => s.atoms.map fun a => a.chargeRef - a.charge

/-- Differences divided by the number of atoms. -/
noncomputable def deviationsPerAtom (k : Key) (s : Structure) : List ℝ :=
  (deviations k s).map (· / s.numAtoms)

/-- The average, if there is one. -/
noncomputable def average (xs : List ℝ) : Option ℝ :=
  if xs = [] then none else some (xs.sum / xs.length)

/-- Root of the mean square. -/
noncomputable def rootMeanSquare (xs : List ℝ) : Option ℝ :=
  (average (xs.map (· ^ 2))).map Real.sqrt

/-- Mean absolute value. -/
noncomputable def meanAbsolute (xs : List ℝ) : Option ℝ := average (xs.map abs)

/-- The error of a set of structures. -/
noncomputable def errorOf (k : Key) (m : Metric) (ss : List Structure) : Option ℝ :=
  match m with
  | .RMSEpa => rootMeanSquare (ss.flatMap (deviationsPerAtom k))
  | .RMSE => rootMeanSquare (ss.flatMap (deviations k))
  | .MAEpa => meanAbsolute (ss.flatMap (deviationsPerAtom k))
  | .MAE => meanAbsolute (ss.flatMap (deviations k))

/-- Structures of a set on all processes, in the order of the processes. -/
def partOf (part : Part) (procs : List (List Structure)) : List Structure :=
  procs.flatten.filter (·.sampleType = part.sample)

/-- A structure with atoms, chosen for the training set or test set; numbers are of type `size_t`. -/
structure Trainable (s : Structure) : Prop where
  set : s.sampleType = .training ∨ s.sampleType = .test
  atoms : 0 < s.numAtoms
  index : s.index < 2 ^ 64
  atomIndex : ∀ a ∈ s.atoms, a.index < 2 ^ 64 ∧ a.indexStructure < 2 ^ 64

/-- Conversion factors are positive. -/
def ModeUnits.Positive (u : ModeUnits) : Prop := 0 < u.convEnergy ∧ 0 < u.convLength ∧ 0 < u.convCharge

/-- Values of an atom in physical units (`a`) and units of the normalised data set (`b`). -/
structure Atom.NormalizedFrom (u : ModeUnits) (a b : Atom) : Prop where
  f : ∀ c, b.f c = a.f c * u.convEnergy / u.convLength
  fRef : ∀ c, b.fRef c = a.fRef c * u.convEnergy / u.convLength
  charge : b.charge = a.charge * u.convCharge
  chargeRef : b.chargeRef = a.chargeRef * u.convCharge

/-- Values of a structure in physical units (`p`) and units of the normalised data set (`s`). -/
structure Structure.NormalizedFrom (u : ModeUnits) (p s : Structure) : Prop where
  sample : s.sampleType = p.sampleType
  numAtoms : s.numAtoms = p.numAtoms
  energy : s.energy = (p.energy - p.numAtoms * u.meanEnergy) * u.convEnergy
  energyRef : s.energyRef = (p.energyRef - p.numAtoms * u.meanEnergy) * u.convEnergy
  atoms : List.Forall₂ (Atom.NormalizedFrom u) p.atoms s.atoms

/-- Without normalisation the units are the same. -/
def InPhysicalUnits (normalize : Bool) (u : ModeUnits) (p s : Structure) : Prop :=
  if normalize then Structure.NormalizedFrom u p s else p = s

/-! ### Files -/

/-- What is printed for an error; `nanText` stands for "not a number". -/
def shownError (N : NumberText) (nanText : Str) : Option ℝ → Str
  | none => nanText
  | some x => N.print x

/-- A word like `-nan`. -/
def NanWord (t : Str) : Prop := IsWord t ∧ '\n' ∉ t ∧ t.length ≤ 24

/-- The property in names of columns. -/
def propertyLetter : Key → Char
  | .energy => 'E'
  | .force => 'F'
  | .charge => 'Q'

/-- The error in names of columns. -/
def metricTitle : Metric → Str
  | .RMSEpa => "RMSEpa".toList
  | .RMSE => "RMSE".toList
  | .MAEpa => "MAEpa".toList
  | .MAE => "MAE".toList

/-- Errors reported: those per atom only for energies. -/
def Reported (k : Key) (m : Metric) : Prop := k = .energy ∨ m = .RMSE ∨ m = .MAE

/-- Name of a column of the learning curve. -/
def columnTitle (k : Key) (m : Metric) (part : Part) (unit : UnitSystem) : Str :=
  metricTitle m ++ ['_', propertyLetter k] ++ part.text ++ ['_'] ++ unit.text

/-- The learning curve. Only potentials with more than one stage of training have the stage in the name. -/
def curveTitle (type : NNPType) (stage : ℕ) : Str :=
  if type = .HDNNP_2G then "learning-curve.out".toList
  else "learning-curve.out.stage-".toList ++ natText stage

/-- A number with leading zeros. -/
def padded (width n : ℕ) : Str := List.replicate (width - (natText n).length) '0' ++ natText n

/-- Name of a comparison file, like `trainpoints.000010.out`. -/
def setFile (part : Part) (k : Key) (epoch : ℕ) : Str :=
  part.text ++ (match k with
    | .energy => "points.".toList
    | .force => "forces.".toList
    | .charge => "charges.".toList) ++ padded 6 epoch ++ ".out".toList

/-- Name of the file written by one process, like `trainpoints.000010.out.0003`. -/
def partFile (part : Part) (k : Key) (epoch rank : ℕ) : Str :=
  setFile part k epoch ++ ['.'] ++ padded 4 rank

/-- A comment line says that column `c` (the first is 0 here, and 1 in the file) has this name. -/
def NamesColumn (text : Str) (c : ℕ) (title : Str) : Prop :=
  ∃ l ∈ readLines text, ∃ rest, split (reduce l) = ['#'] :: natText (c + 1) :: title :: rest

/-- Words in column `c` of the lines which are no comments. -/
def column (text : Str) (c : ℕ) : List (Option Str) :=
  (dataLines text).map fun l => (split (reduce l))[c]?

/-- Lines expected in a comparison file for one structure, as words. -/
noncomputable def comparisonWords (N : NumberText) (k : Key) (s : Structure) : List (List Str) :=
  match k with
  | .energy => [[natText s.index, N.print (s.energyRef / s.numAtoms), N.print (s.energy / s.numAtoms)]]
  | .force => s.atoms.flatMap fun a => [
      [natText a.indexStructure, natText a.index, N.print (a.fRef 0), N.print (a.f 0)],
      [natText a.indexStructure, natText a.index, N.print (a.fRef 1), N.print (a.f 1)],
      [natText a.indexStructure, natText a.index, N.print (a.fRef 2), N.print (a.f 2)]]
  | .charge => s.atoms.map fun a =>
      [natText a.indexStructure, natText a.index, N.print a.chargeRef, N.print a.charge]

/-- Comparison files of property `k` are written in this epoch. -/
def ComparisonDue (every always : Key → ℕ) (epoch : ℕ) (k : Key) : Prop :=
  0 < every k ∧ (every k ∣ epoch ∨ epoch ≤ always k)

/-! ### Runs -/

/-- A training run: numbers are printed readably, conversion factors are positive, properties are
different, there is at least epoch 0 and at least one process, counters are of type `size_t`. -/
structure TrainingRun (N : NumberText) (nanText : Str) (normalize : Bool) (u : ModeUnits)
    (pk : List Key) (epochs : List (List (List Structure))) : Prop where
  numbers : N.Data
  nan : NanWord nanText
  units : normalize = true → u.Positive
  properties : pk.Nodup
  first : epochs ≠ []
  count : epochs.length < 2 ^ 64
  processes : ∀ procs ∈ epochs, procs ≠ [] ∧ procs.length < 2 ^ 64
  structures : ∀ procs ∈ epochs, ∀ ss ∈ procs, ∀ s ∈ ss, Trainable s

/-- The same run in physical units. -/
def SameRun (normalize : Bool) (u : ModeUnits) (phys epochs : List (List (List Structure))) : Prop :=
  List.Forall₂ (List.Forall₂ (List.Forall₂ (InPhysicalUnits normalize u))) phys epochs

end N2P2
