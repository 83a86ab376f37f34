import Verif.Model.SymGrp
import Verif.Spec.SymFncSetup
import Verif.Spec.Mode

/-! Vocabulary for the symmetry function groups. -/

namespace N2P2

/-- Cache indices agree with the layout. -/
def SymFnc.Slots (S : SymFnc) (L : CacheLayout) : Prop :=
  ∀ e ci, S.checkRelevantElement e → S.cacheIndices[e]? = some ci →
    ci = [] ∨ ∃ c ∈ L e, ci = [c.val, c.der] ∧ c.fdf = S.cachedFunction

/-- What the evaluation within a group relies on. Less than for the evaluation of a single function
(`SymFnc.Ready`): only type 13 needs all its neighbour elements cached or none. -/
structure SymFnc.GroupReady (S : SymFnc) (a : Atom) (derivatives : Bool) (L : CacheLayout) (R : ℝ) :
    Prop where
  valid : S.Valid
  list : a.ListOK S.rc
  allocated : S.Allocated a derivatives
  triplets : S.TripletsOK a.env
  disjoint : L.Disjoint
  slots : S.Slots L
  uniform : S.kind = .ExpAngnWeighted → ∀ (e e' : ℕ) ci ci', S.cacheIndices[e]? = some ci →
    S.cacheIndices[e']? = some ci' → (ci = [] ↔ ci' = [])
  le : S.rc ≤ R
  cache : a.CacheOK L R

/-- Parameters for which the evaluation in groups is meant to work: no negative shift in types 3
and 9, and λ ≠ 0 in the Gaussian angular types if derivatives are computed. The scaling factor is
divided out in these types. -/
structure SymFnc.Groupable (S : SymFnc) (derivatives : Bool) : Prop where
  shift : S.kind = .ExpAngn ∨ S.kind = .ExpAngw → 0 ≤ S.rs
  lambda : S.IsExp → S.IsAng → derivatives = true → S.lambda ≠ 0
  scaling : S.IsExp → S.IsAng → S.sf ≠ 0

/-- Functions of type 21 (with the same elements) or 24 with the same radii have the same subtype. -/
def SubtypesAgree (Ss : List SymFnc) : Prop :=
  ∀ S ∈ Ss, ∀ T ∈ Ss, S.kind = .CompAngn ∨ S.kind = .CompAngnWeighted → T.kind = S.kind →
    (S.kind = .CompAngn → T.e1 = S.e1 ∧ T.e2 = S.e2) → T.rc = S.rc → T.rl = S.rl →
    T.subtype = S.subtype

/-- The functions of all elements are meant for the evaluation in groups. -/
structure Potential.Groupable (P : Potential) (n : ℕ) (derivatives : Bool) : Prop where
  function : ∀ k < n, ∀ S ∈ P.functions k, S.Groupable derivatives
  subtypes : ∀ k < n, SubtypesAgree (P.functions k)

/-- The structure without the contents of caches. -/
def Structure.forgetCaches (s : Structure) : Structure :=
  { s with atoms := s.atoms.map Atom.forgetCaches }

end N2P2
