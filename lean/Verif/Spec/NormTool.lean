import Verif.Model.NormTool
import Verif.Spec.Normalization

/-! What is expected from nnp-norm. -/

namespace N2P2

/-- The four keywords written. -/
def toolKeywords : List Str :=
  ["mean_energy".toList, "conv_energy".toList, "conv_length".toList, "conv_charge".toList]

/-- Charges of all atoms. -/
def refCharges (ss : List Structure) : List ℝ := ss.flatMap fun s => s.atoms.map fun a => a.chargeRef

/-- The structure can be written: elements known to the map, comment not too long. -/
structure Structure.Writable (m : EMap) (s : Structure) : Prop where
  comment : Commentary s.comment
  element : ∀ a ∈ s.atoms, a.element < m.size

/-- Just read from a file: no symmetry functions yet. -/
def Structure.Unevaluated (s : Structure) : Prop := ∀ a ∈ s.atoms, a.hasSymmetryFunctionDerivatives = false

end N2P2
