import Verif.Model.Normalization
import Verif.Spec.Settings
import Verif.Spec.StructureFile
import Verif.Spec.ScalingFile

/-! Specification vocabulary for the data set normalization. -/

namespace N2P2

/-- Reference energies per atom. -/
noncomputable def refEnergies (ss : List Structure) : List ℝ := ss.map fun s => s.energyRef / s.numAtoms

/-- Components of the reference forces on all atoms. -/
noncomputable def refForces (ss : List Structure) : List ℝ :=
  ss.flatMap fun s => s.atoms.flatMap fun a => [a.fRef 0, a.fRef 1, a.fRef 2]

/-- Components of the computed forces on all atoms. -/
noncomputable def nnpForces (ss : List Structure) : List ℝ :=
  ss.flatMap fun s => s.atoms.flatMap fun a => [a.f 0, a.f 1, a.f 2]

/-- The structures have atoms and count them. -/
def Counted (ss : List Structure) : Prop := ∀ s ∈ ss, s.numAtoms = s.atoms.length ∧ s.atoms ≠ []

/-- The three keywords written. -/
def normKeywords : List Str := ["mean_energy".toList, "conv_energy".toList, "conv_length".toList]

/-- The line begins with the word `kw`, without space in front and followed by a space or nothing. -/
def BeginsWith (kw line : Str) : Prop := line = kw ∨ ∃ rest, line = kw ++ ' ' :: rest

/-- The settings file defines none of the keywords. -/
def WithoutNormalization (lines : List Str) : Prop :=
  ∀ kw ∈ normKeywords, ¬ Present (parseLines lines) kw

/-- The settings file defines each keyword once, in a line that begins with it. -/
def WithNormalization (lines : List Str) : Prop :=
  ∀ kw ∈ normKeywords, ∃ before line after, lines = before ++ line :: after ∧ BeginsWith kw line ∧
    ¬ Present (parseLines (before ++ after)) kw

/-- Printed numbers contain no comment sign. -/
def NumberText.Uncommented (N : NumberText) : Prop := ∀ x, '#' ∉ N.print x ∧ '!' ∉ N.print x

/-- All lookups of the keyword give the same answer (values, not line numbers). -/
def SameAnswers (c c' : Contents) (kw : Str) : Prop :=
  keywordExists c kw = keywordExists c' kw ∧ getValue c kw = getValue c' kw ∧
    (getValues c kw).map (List.map (·.value)) = (getValues c' kw).map (List.map (·.value))

end N2P2
