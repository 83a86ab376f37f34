import Verif.Model.Utility

/-! Specification vocabulary for text lines, independent of the functions modelled. -/

namespace N2P2

/-- Word: non-empty, without blanks. -/
def IsWord (w : Str) : Prop := w ≠ [] ∧ ∀ c ∈ w, isBlank c = false

/-- A string of blanks only. -/
def AllBlank (b : Str) : Prop := ∀ c ∈ b, isBlank c = true

/-- `SpecTokens s ts`: `ts` is the list of maximal blank-free runs of `s`. -/
inductive SpecTokens : Str → List Str → Prop
  | nil {b} : AllBlank b → SpecTokens b []
  | last {b w} : AllBlank b → IsWord w → SpecTokens (b ++ w) [w]
  | cons {b w c s ts} : AllBlank b → IsWord w → isBlank c = true → SpecTokens (c :: s) ts →
      SpecTokens (b ++ w ++ c :: s) (w :: ts)

end N2P2
