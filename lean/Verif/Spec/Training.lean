import Verif.Model.Training

/-! Specification vocabulary for training set selection. -/

namespace N2P2

namespace Training

/-- Number of structures before position `i` whose set was not determined beforehand. -/
def undecidedBefore (l : List Struct) (i : ℕ) : ℕ :=
  (l.take i).countP fun s => decide (s.sampleType = .unknown)

open Classical in
/-- The set structure number `i` should end up in: as determined beforehand, otherwise test if its
random number is below the desired fraction, else training. -/
noncomputable def expectedType (fraction : ℝ) (rnd : ℕ → ℝ) (l : List Struct) (i : ℕ) (s : Struct) :
    SampleType :=
  if s.sampleType = .unknown then
    if rnd (undecidedBefore l i) < fraction then .test else .training
  else s.sampleType

/-- Training patterns of a structure for a property: one energy, three force components per atom,
one charge per atom (one charge pattern per structure for HDNNP-4G). -/
def patternsOf (nnp : NNPType) (k : Key) (s : Struct) : ℕ :=
  match k with
  | .energy => 1
  | .force => 3 * s.numAtoms
  | .charge => if nnp = .HDNNP_4G then 1 else s.numAtoms

/-- Update candidates structure `i` contributes if it is in the training set: the structure for
energies (and for charges with HDNNP-4G); each atom and component for forces, as sub-candidates of a
single candidate with HDNNP-4G; each atom for charges. -/
def candidatesOf (nnp : NNPType) (k : Key) (i : ℕ) (s : Struct) : List UpdateCandidate :=
  if s.sampleType = .training then
    match k with
    | .energy => [⟨i, 0, []⟩]
    | .force =>
      if nnp = .HDNNP_4G then [⟨i, 0, s.atoms.flatMap fun a => [⟨a, 0⟩, ⟨a, 1⟩, ⟨a, 2⟩]⟩]
      else s.atoms.flatMap fun a => [⟨i, 0, [⟨a, 0⟩]⟩, ⟨i, 0, [⟨a, 1⟩]⟩, ⟨i, 0, [⟨a, 2⟩]⟩]
    | .charge =>
      if nnp = .HDNNP_4G then [⟨i, 0, []⟩] else s.atoms.map fun a => ⟨i, 0, [⟨a, 0⟩]⟩
  else []

/-- A structure as the file readers leave it: the atom count is right and atom number `j` has
index `j`. -/
def Struct.WellFormed (s : Struct) : Prop := s.atoms = List.range s.numAtoms

end Training

end N2P2

namespace N2P2.Training

/-- The candidates met one after the other when going through a list of `size` entries cyclically,
starting at position `pos` (at the beginning if `pos` is past the end). -/
def cyclic (size pos j : ℕ) : ℕ := ((if size ≤ pos then 0 else pos) + j) % size

end N2P2.Training
