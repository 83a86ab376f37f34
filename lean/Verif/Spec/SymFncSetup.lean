import Verif.Model.SymFncSetup
import Verif.Spec.SymFnc

/-! Vocabulary for the setup of symmetry functions. -/

namespace N2P2

/-- Element indices are in range and there is at least one element. -/
structure SFEnv.OK (E : SFEnv) : Prop where
  pos : 0 < E.numElements
  lt : ∀ s e, E.element s = some e → e < E.numElements

/-- Token `k` is the symbol of element `e`. -/
def SFEnv.IsElem (E : SFEnv) (tok : List Str) (k e : ℕ) : Prop :=
  ∃ s, tok[k]? = some s ∧ E.element s = some e

/-- Token `k` is the number `x`. -/
def SFEnv.IsNum (E : SFEnv) (tok : List Str) (k : ℕ) (x : ℝ) : Prop :=
  ∃ s, tok[k]? = some s ∧ x = E.atof s

/-- Token `k` is the length `x`, given in units of `1 / c`. -/
def SFEnv.IsLength (E : SFEnv) (c : ℝ) (tok : List Str) (k : ℕ) (x : ℝ) : Prop :=
  ∃ s, tok[k]? = some s ∧ x = E.atof s * c

/-- Token `k` is the inverse square length `x`, given in units of `c²`. -/
def SFEnv.IsInvSq (E : SFEnv) (c : ℝ) (tok : List Str) (k : ℕ) (x : ℝ) : Prop :=
  ∃ s, tok[k]? = some s ∧ x = E.atof s / c ^ 2

/-- Token `k` is the angle `x`, given in degrees. -/
def SFEnv.IsAngle (E : SFEnv) (tok : List Str) (k : ℕ) (x : ℝ) : Prop :=
  ∃ s, tok[k]? = some s ∧ x = E.atof s * Real.pi / 180

/-- Tokens 2 and 3 are the elements of the two neighbours, in either order. -/
def SFEnv.IsElemPair (E : SFEnv) (tok : List Str) (e1 e2 : ℕ) : Prop :=
  (E.IsElem tok 2 e1 ∧ E.IsElem tok 3 e2) ∨ (E.IsElem tok 2 e2 ∧ E.IsElem tok 3 e1)

/-- The columns of a `symfunction_short` line as documented (src/doc/sphinx/source/topics/
keywords.rst and the headers of the classes): central element, type number, then the parameters of the type. `c` is the length
conversion. -/
def SymFnc.Documented (E : SFEnv) (c : ℝ) (tok : List Str) (T : SymFnc) : Prop :=
  let number (n : Int) : Prop := ∃ s, tok[1]? = some s ∧ E.atoi s = n
  E.IsElem tok 0 T.sc.ec ∧
  match T.kind with
  | .ExpRad => number 2 ∧ E.IsElem tok 2 T.e1 ∧ E.IsInvSq c tok 3 T.eta ∧ E.IsLength c tok 4 T.rs ∧
      E.IsLength c tok 5 T.rc
  | .ExpAngn | .ExpAngw => number (if T.kind = .ExpAngn then 3 else 9) ∧
      E.IsElemPair tok T.e1 T.e2 ∧ E.IsInvSq c tok 4 T.eta ∧ E.IsNum tok 5 T.lambda ∧
      E.IsNum tok 6 T.zeta ∧ E.IsLength c tok 7 T.rc ∧
      (E.IsLength c tok 8 T.rs ∨ (tok.length ≤ 8 ∧ T.rs = 0))
  | .ExpRadWeighted => number 12 ∧ E.IsInvSq c tok 2 T.eta ∧ E.IsLength c tok 3 T.rs ∧
      E.IsLength c tok 4 T.rc
  | .ExpAngnWeighted => number 13 ∧ E.IsInvSq c tok 2 T.eta ∧ E.IsLength c tok 3 T.rs ∧
      E.IsNum tok 4 T.lambda ∧ E.IsNum tok 5 T.zeta ∧ E.IsLength c tok 6 T.rc
  | .CompRad => number 20 ∧ E.IsElem tok 2 T.e1 ∧ E.IsLength c tok 3 T.rl ∧
      E.IsLength c tok 4 T.rc ∧ tok[5]? = some T.subtype
  | .CompAngn | .CompAngw => number (if T.kind = .CompAngn then 21 else 22) ∧
      E.IsElemPair tok T.e1 T.e2 ∧ E.IsLength c tok 4 T.rl ∧ E.IsLength c tok 5 T.rc ∧
      E.IsAngle tok 6 T.angleLeftRadians ∧ E.IsAngle tok 7 T.angleRightRadians ∧
      tok[8]? = some T.subtype
  | .CompRadWeighted => number 23 ∧ E.IsLength c tok 2 T.rl ∧ E.IsLength c tok 3 T.rc ∧
      tok[4]? = some T.subtype
  | .CompAngnWeighted | .CompAngwWeighted =>
      number (if T.kind = .CompAngnWeighted then 24 else 25) ∧ E.IsLength c tok 2 T.rl ∧
      E.IsLength c tok 3 T.rc ∧ E.IsAngle tok 4 T.angleLeftRadians ∧
      E.IsAngle tok 5 T.angleRightRadians ∧ tok[6]? = some T.subtype

/-- The documented subtypes of the compact functions: core function and asymmetry. -/
def documentedSubtypes : List (String × CoreType × Bool) :=
  [("p1", .POLY1, false), ("p2", .POLY2, false), ("p3", .POLY3, false), ("p4", .POLY4, false),
   ("p1a", .POLY1, true), ("p2a", .POLY2, true), ("p3a", .POLY3, true), ("p4a", .POLY4, true),
   ("e", .EXP, false)]

/-- The environment with all lengths multiplied by `c`. -/
def scaleEnv (c : ℝ) (env : List Site) : List Site := env.map fun x => ⟨x.element, c • x.dr⟩

/-- The format `%16.8E` prints 16 characters, and different numbers used by the functions (radii in
the units of the settings file) are printed differently. -/
structure SFEnv.Prints (E : SFEnv) (Ss : List SymFnc) : Prop where
  length : ∀ x, (E.fmt x).length = 16
  rc : ∀ S ∈ Ss, ∀ T ∈ Ss, E.fmt (S.rc / S.convLength) = E.fmt (T.rc / T.convLength) →
    S.rc / S.convLength = T.rc / T.convLength
  rl : ∀ S ∈ Ss, ∀ T ∈ Ss, E.fmt (S.rl / S.convLength) = E.fmt (T.rl / T.convLength) →
    S.rl / S.convLength = T.rl / T.convLength

/-- Another function needs the same cutoff or compact function for element `e`. -/
def SymFnc.SharesCache (E : SFEnv) (Ss : List SymFnc) (S : SymFnc) (e : ℕ) : Prop :=
  S.checkRelevantElement e ∧ ∃ T ∈ Ss, T.index ≠ S.index ∧ T.checkRelevantElement e ∧
    T.cacheText E = S.cacheText E

/-- The Gaussian angular functions share their cutoff function with another function for all their
neighbour elements or for none. -/
def UniformCaches (E : SFEnv) (Ss : List SymFnc) : Prop :=
  ∀ S ∈ Ss, S.IsExp → S.IsAng → ∀ e e', e < E.numElements → e' < E.numElements →
    S.checkRelevantElement e → S.checkRelevantElement e' →
    (S.SharesCache E Ss e ↔ S.SharesCache E Ss e')

/-- Sensible parameters: the cutoff radius is positive, and exponents ζ are positive and not within
the smallest positive number of an integer without being that integer. -/
def SymFnc.Sensible (S : SymFnc) : Prop :=
  0 < S.rc ∧ (S.IsExp → S.IsAng → 0 < S.zeta ∧
    (|S.zeta - roundInt S.zeta| ≤ DBL_MIN → S.zeta = roundInt S.zeta))

end N2P2
