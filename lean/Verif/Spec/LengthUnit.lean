import Verif.Spec.Mode

/-! The same potential and the same structure in two units of length. -/

namespace N2P2

/-- The two potentials are defined by the same settings, the same scaling data and the same network
parameters, but for `P'` the keyword `conv_length` with value `c` is there. -/
def Potential.SameSettings (c : ℝ) (P P' : Potential) (n : ℕ) : Prop :=
  ∀ e < n, P'.shape e = P.shape e ∧ P'.weights e = P.weights e ∧
    ∃ E lines t α sc el el', SetupElement E lines none t α sc el ∧
      SetupElement E lines (some c) t α sc el' ∧ P.functions e = el.symmetryFunctions ∧
      P'.functions e = el'.symmetryFunctions

/-- `s'` is `s` with all lengths multiplied by `c`. -/
structure Structure.Rescaled (c : ℝ) (s s' : Structure) : Prop where
  length : s'.atoms.length = s.atoms.length
  element : ∀ i < s.atoms.length, s'.elementOf i = s.elementOf i
  position : ∀ i < s.atoms.length, s'.position i = c • s.position i
  periodic : s'.isPeriodic = s.isPeriodic
  box : s.isPeriodic = true → ∀ k, s'.box k = c • s.box k
  radius : s'.maxCutoffRadiusOverall = c * s.maxCutoffRadiusOverall

/-- `s1` holds the result of evaluating `s`, where energies are differentiable, with the potential `P`. -/
def Potential.Predicts (srt : List Neighbor → List Neighbor) (P : Potential) (n : ℕ) (s s1 : Structure) :
    Prop :=
  ∃ M M1 d, M.SetUp P n ∧ s.Evaluable M P n ∧ P.Smooth (M.listRadius s) s ∧
    M.evaluateNNP srt s true d = some (M1, s1)

end N2P2
