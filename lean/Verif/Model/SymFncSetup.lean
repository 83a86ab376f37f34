import Mathlib.Data.List.Basic
import Verif.Model.SymFnc

/-! Setup of the symmetry functions of one element: parameter lines, change of the length unit,
cutoff functions, order, derivative memory and caches (SymFnc*.cpp, Element.cpp, Mode.cpp). `none`
stands for an exception or undefined behaviour. -/

namespace N2P2

/-- What the setup takes from elsewhere: size and lookup of the element map (`none` for an unknown
symbol, which throws), atomic numbers, the number parsers of the C library, and the text printed
for the format `%16.8E`. -/
structure SFEnv where
  numElements : ℕ
  element : Str → Option ℕ
  atomicNumber : ℕ → ℕ
  atoi : Str → Int
  atof : Str → ℝ
  fmt : ℝ → Str

/-- `elementMap[splitLine.at(k)]`. -/
def SFEnv.elem (E : SFEnv) (tok : List Str) (k : ℕ) : Option ℕ := tok[k]?.bind E.element

/-- `atof(splitLine.at(k).c_str())`. -/
def SFEnv.num (E : SFEnv) (tok : List Str) (k : ℕ) : Option ℝ := tok[k]?.map E.atof

/-- `numeric_limits<size_t>::max()`. -/
def SIZE_MAX : ℕ := 2 ^ 64 - 1

/-- `numeric_limits<double>::min()`. -/
noncomputable def DBL_MIN : ℝ := 1 / 2 ^ 1022

/-- The number of a type, first argument of the constructors (e.g. SymFncExpRad.cpp:30). -/
def SFKind.number : SFKind → ℕ
  | .ExpRad => 2
  | .ExpAngn => 3
  | .ExpAngw => 9
  | .ExpRadWeighted => 12
  | .ExpAngnWeighted => 13
  | .CompRad => 20
  | .CompAngn => 21
  | .CompAngw => 22
  | .CompRadWeighted => 23
  | .CompAngnWeighted => 24
  | .CompAngwWeighted => 25

/-- The dispatch on the type number (Element.cpp:88-135). -/
def SFKind.ofNumber (n : Int) : Option SFKind :=
  if n = 2 then some .ExpRad
  else if n = 3 then some .ExpAngn
  else if n = 9 then some .ExpAngw
  else if n = 12 then some .ExpRadWeighted
  else if n = 13 then some .ExpAngnWeighted
  else if n = 20 then some .CompRad
  else if n = 21 then some .CompAngn
  else if n = 22 then some .CompAngw
  else if n = 23 then some .CompRadWeighted
  else if n = 24 then some .CompAngnWeighted
  else if n = 25 then some .CompAngwWeighted
  else none

open Classical in
/-- `round`: to the nearest integer, halves away from zero. -/
noncomputable def roundInt (x : ℝ) : Int := if 0 ≤ x then ⌊x + 1 / 2⌋ else ⌈x - 1 / 2⌉

namespace SymFnc

/-- The constructors (SymFnc.cpp:135-167, SymFncBaseCutoff.cpp:51-61, SymFncBaseComp.cpp:94-104 and
those of the classes for the types). -/
noncomputable def create (E : SFEnv) (kind : SFKind) : SymFnc :=
  { kind := kind
    sc := ⟨0, 0, kind.number, .none, 0, 0, 0, 0, 0, 0, 1⟩
    rc := 0, e1 := 0, e2 := 0, eta := 0, rs := 0, lambda := 0, zeta := 0, zetaInt := 0,
    useIntegerPow := false, rl := 0, angleLeft := 0, angleRight := 0, angleLeftRadians := 0,
    angleRightRadians := 0
    subtype := match kind with
      | .ExpRad | .ExpAngn | .ExpAngw | .ExpRadWeighted | .ExpAngnWeighted => "ct0".toList
      | _ => []
    cutoffType := .HARD, cutoffAlpha := 0, convLength := 1, fc := .init, cr := .init, ca := .init
    indexPerElement := List.replicate E.numElements SIZE_MAX
    cacheIndices := List.replicate E.numElements []
    atomicNumber := E.atomicNumber }

/-- `fc.setCutoffRadius(rc); fc.setCutoffParameter(cutoffAlpha)` (e.g. SymFncExpRad.cpp:92-93). -/
noncomputable def resetCutoff (S : SymFnc) : Option SymFnc := do
  let fc ← (S.fc.setCutoffRadius S.rc).setCutoffParameter S.cutoffAlpha
  some { S with fc := fc }

open Classical in
/-- Integer and floating point exponent (SymFncBaseExpAng.cpp:82-90, SymFncExpAngnWeighted.cpp:
106-114). A value outside the range of `int` is undefined behaviour. -/
noncomputable def setZetaInt (S : SymFnc) : Option SymFnc :=
  if |roundInt S.zeta| < 2 ^ 31 then
    some { S with
      zetaInt := roundInt S.zeta
      useIntegerPow := decide (|S.zeta - roundInt S.zeta| ≤ DBL_MIN) }
  else none

/-- `if (e1 > e2)` swap (SymFncBaseExpAng.cpp:75-80, SymFncBaseCompAng.cpp:66-71). -/
def orderElements (S : SymFnc) : SymFnc :=
  if S.e2 < S.e1 then { S with e1 := S.e2, e2 := S.e1 } else S

/-- The core function type selected by a subtype, and whether the asymmetric version is switched on
(SymFncBaseComp.cpp:39-92, build without `N2P2_NO_ASYM_POLY`). -/
def compactCore (subtype : Str) : Option (CoreType × Bool) :=
  if subtype.length < 1 ∨ 3 < subtype.length then none
  else if subtype[0]? = some 'p' then
    let type : Option CoreType :=
      if subtype[1]? = some '1' then some .POLY1
      else if subtype[1]? = some '2' then some .POLY2
      else if subtype[1]? = some '3' then some .POLY3
      else if subtype[1]? = some '4' then some .POLY4
      else none
    if subtype.length = 3 then
      if subtype[2]? = some 'a' then type.map fun t => (t, true) else none
    else type.map fun t => (t, false)
  else if subtype[0]? = some 'e' then some (.EXP, false)
  else none

/-- SymFncBaseComp.cpp:39-92 `setCompactFunction`; the asymmetric version is never switched off. -/
def setCompactFunction (S : SymFnc) (subtype : Str) : Option SymFnc :=
  (compactCore subtype).map fun c =>
    { S with cr := { S.cr with core := ⟨c.1, S.cr.core.asymmetric || c.2⟩ } }

open Classical in
/-- Radial part of the compact types (SymFncBaseCompAng.cpp:74-86 and the same lines in
SymFncCompRad.cpp:84-96, SymFncCompRadWeighted.cpp:80-92, SymFncBaseCompAngWeighted.cpp:61-73). -/
noncomputable def setCompRadial (S : SymFnc) : Option SymFnc :=
  if S.rc < S.rl then none
  else do
    let S ← S.setCompactFunction S.subtype
    let cr ← S.cr.setLeftRight S.rl S.rc
    some { S with cr := cr }

open Classical in
/-- Angular part of the compact types (SymFncBaseCompAng.cpp:89-111, SymFncBaseCompAngWeighted.cpp:
76-98). -/
noncomputable def setCompAngular (S : SymFnc) : Option SymFnc :=
  let center := (S.angleLeft + S.angleRight) / 2
  if S.angleRight ≤ S.angleLeft then none
  else if (S.angleLeft < 0 ∧ center ≠ 0) ∨ (180 < S.angleRight ∧ center ≠ 180) then none
  else if 360 < S.angleRight - S.angleLeft then none
  else do
    let l := S.angleLeft * Real.pi / 180
    let r := S.angleRight * Real.pi / 180
    let ca : CompactFunction := { S.ca with core := { S.ca.core with type := S.cr.core.type } }
    let ca ← ca.setLeftRight l r
    some { S with angleLeftRadians := l, angleRightRadians := r, ca := ca }

/-- `ec = ...`. -/
def setEc (S : SymFnc) (ec : ℕ) : SymFnc := { S with sc := { S.sc with ec := ec } }

/-- The virtual function `setParameters` for the tokens of a line (SymFncExpRad.cpp:77-96,
SymFncBaseExpAng.cpp:50-93, SymFncExpRadWeighted.cpp:74-92, SymFncExpAngnWeighted.cpp:87-117,
SymFncCompRad.cpp:69-99, SymFncBaseCompAng.cpp:48-114, SymFncCompRadWeighted.cpp:66-95,
SymFncBaseCompAngWeighted.cpp:44-101). -/
noncomputable def setParameters (E : SFEnv) (S : SymFnc) (tok : List Str) : Option SymFnc := do
  let ty ← tok[1]?
  if E.atoi ty ≠ S.sc.type then none
  else do
    let ec ← E.elem tok 0
    let S := S.setEc ec
    match S.kind with
    | .ExpRad =>
      let e1 ← E.elem tok 2
      let eta ← E.num tok 3
      let rs ← E.num tok 4
      let rc ← E.num tok 5
      resetCutoff { S with e1 := e1, eta := eta, rs := rs, rc := rc }
    | .ExpRadWeighted =>
      let eta ← E.num tok 2
      let rs ← E.num tok 3
      let rc ← E.num tok 4
      resetCutoff { S with eta := eta, rs := rs, rc := rc }
    | .ExpAngn | .ExpAngw =>
      let e1 ← E.elem tok 2
      let e2 ← E.elem tok 3
      let eta ← E.num tok 4
      let lambda ← E.num tok 5
      let zeta ← E.num tok 6
      let rc ← E.num tok 7
      let rs := (E.num tok 8).getD S.rs
      let S ← resetCutoff { S with
        e1 := e1, e2 := e2, eta := eta, lambda := lambda, zeta := zeta, rc := rc, rs := rs }
      S.orderElements.setZetaInt
    | .ExpAngnWeighted =>
      let eta ← E.num tok 2
      let rs ← E.num tok 3
      let lambda ← E.num tok 4
      let zeta ← E.num tok 5
      let rc ← E.num tok 6
      let S ← resetCutoff { S with eta := eta, rs := rs, lambda := lambda, zeta := zeta, rc := rc }
      S.setZetaInt
    | .CompRad =>
      let e1 ← E.elem tok 2
      let rl ← E.num tok 3
      let rc ← E.num tok 4
      let subtype ← tok[5]?
      setCompRadial { S with e1 := e1, rl := rl, rc := rc, subtype := subtype }
    | .CompRadWeighted =>
      let rl ← E.num tok 2
      let rc ← E.num tok 3
      let subtype ← tok[4]?
      setCompRadial { S with rl := rl, rc := rc, subtype := subtype }
    | .CompAngn | .CompAngw =>
      let e1 ← E.elem tok 2
      let e2 ← E.elem tok 3
      let rl ← E.num tok 4
      let rc ← E.num tok 5
      let angleLeft ← E.num tok 6
      let angleRight ← E.num tok 7
      let subtype ← tok[8]?
      let S ← setCompRadial (orderElements { S with
        e1 := e1, e2 := e2, rl := rl, rc := rc, angleLeft := angleLeft, angleRight := angleRight,
        subtype := subtype })
      S.setCompAngular
    | .CompAngnWeighted | .CompAngwWeighted =>
      let rl ← E.num tok 2
      let rc ← E.num tok 3
      let angleLeft ← E.num tok 4
      let angleRight ← E.num tok 5
      let subtype ← tok[6]?
      let S ← setCompRadial { S with
        rl := rl, rc := rc, angleLeft := angleLeft, angleRight := angleRight, subtype := subtype }
      S.setCompAngular

/-- The virtual function `changeLengthUnit` (SymFncExpRad.cpp:98-109, SymFncBaseExpAng.cpp:95-106,
SymFncExpRadWeighted.cpp:94-105, SymFncExpAngnWeighted.cpp:119-130, SymFncCompRad.cpp:101-110,
SymFncBaseCompAng.cpp:116-125, SymFncCompRadWeighted.cpp:97-106, SymFncBaseCompAngWeighted.cpp:
103-112). -/
noncomputable def changeLengthUnit (S : SymFnc) (convLength : ℝ) : Option SymFnc :=
  match S.kind with
  | .ExpRad | .ExpAngn | .ExpAngw | .ExpRadWeighted | .ExpAngnWeighted =>
    resetCutoff { S with
      convLength := convLength
      eta := S.eta / (convLength * convLength)
      rs := S.rs * convLength
      rc := S.rc * convLength }
  | _ => do
    let cr ← S.cr.setLeftRight (S.rl * convLength) (S.rc * convLength)
    some { S with
      convLength := convLength
      rl := S.rl * convLength
      rc := S.rc * convLength
      cr := cr }

end SymFnc

/-- Numbers of the enumeration `CutoffType` (CutoffFunction.h:42-90). -/
def CutoffType.number : CutoffType → ℕ
  | .HARD => 0
  | .COS => 1
  | .TANHU => 2
  | .TANH => 3
  | .EXP => 4
  | .POLY1 => 5
  | .POLY2 => 6
  | .POLY3 => 7
  | .POLY4 => 8

namespace SymFnc

/-- `Element::setCutoffFunction` (Element.cpp:328-342) for one function: `dynamic_cast` to
`SymFncBaseCutoff` and SymFncBaseCutoff.cpp:38-49; the others are left alone. -/
noncomputable def setCutoffFunction (S : SymFnc) (t : CutoffType) (alpha : ℝ) : Option SymFnc :=
  match S.kind with
  | .ExpRad | .ExpAngn | .ExpAngw | .ExpRadWeighted | .ExpAngnWeighted => do
    let fc ← (S.fc.setCutoffType t).setCutoffParameter alpha
    some { S with
      cutoffType := t, cutoffAlpha := alpha, fc := fc,
      subtype := "ct".toList ++ (Nat.toDigits 10 t.number) }
  | _ => some S

/-! ### Order -/

/-- `if (a < b) return true; else if (a > b) return false;` followed by `rest`. -/
def lexStep {α : Type} [LT α] (a b : α) (rest : Prop) : Prop := a < b ∨ (¬ b < a ∧ rest)

/-- `operator<`: SymFncExpRad.cpp:55-75, SymFncExpAngn.cpp:51-77, SymFncExpAngw.cpp:51-77,
SymFncExpRadWeighted.cpp:53-72, SymFncExpAngnWeighted.cpp:62-85, SymFncCompRad.cpp:51-67,
SymFncCompAngn.cpp:52-74, SymFncCompAngw.cpp:52-74, SymFncCompRadWeighted.cpp:49-64,
SymFncCompAngnWeighted.cpp:51-70, SymFncCompAngwWeighted.cpp:51-70. Functions with the same type
number are of the same class. -/
def lt (S T : SymFnc) : Prop :=
  lexStep S.sc.ec T.sc.ec <| lexStep S.sc.type T.sc.type <|
  match S.kind with
  | .ExpRad =>
    lexStep S.cutoffType.number T.cutoffType.number <| lexStep S.cutoffAlpha T.cutoffAlpha <|
    lexStep S.rc T.rc <| lexStep S.eta T.eta <| lexStep S.rs T.rs <| lexStep S.e1 T.e1 False
  | .ExpAngn | .ExpAngw =>
    lexStep S.cutoffType.number T.cutoffType.number <| lexStep S.cutoffAlpha T.cutoffAlpha <|
    lexStep S.rc T.rc <| lexStep S.eta T.eta <| lexStep S.rs T.rs <| lexStep S.zeta T.zeta <|
    lexStep S.lambda T.lambda <| lexStep S.e1 T.e1 <| lexStep S.e2 T.e2 False
  | .ExpRadWeighted =>
    lexStep S.cutoffType.number T.cutoffType.number <| lexStep S.cutoffAlpha T.cutoffAlpha <|
    lexStep S.rc T.rc <| lexStep S.eta T.eta <| lexStep S.rs T.rs False
  | .ExpAngnWeighted =>
    lexStep S.cutoffType.number T.cutoffType.number <| lexStep S.cutoffAlpha T.cutoffAlpha <|
    lexStep S.rc T.rc <| lexStep S.eta T.eta <| lexStep S.rs T.rs <| lexStep S.zeta T.zeta <|
    lexStep S.lambda T.lambda False
  | .CompRad =>
    lexStep S.subtype T.subtype <| lexStep S.e1 T.e1 <| lexStep S.rc T.rc <|
    lexStep S.rl T.rl False
  | .CompAngn | .CompAngw =>
    lexStep S.subtype T.subtype <| lexStep S.e1 T.e1 <| lexStep S.e2 T.e2 <|
    lexStep S.rc T.rc <| lexStep S.rl T.rl <| lexStep S.angleLeft T.angleLeft <|
    lexStep S.angleRight T.angleRight False
  | .CompRadWeighted =>
    lexStep S.subtype T.subtype <| lexStep S.rc T.rc <| lexStep S.rl T.rl False
  | .CompAngnWeighted | .CompAngwWeighted =>
    lexStep S.subtype T.subtype <| lexStep S.rc T.rc <| lexStep S.rl T.rl <|
    lexStep S.angleLeft T.angleLeft <| lexStep S.angleRight T.angleRight False

/-- `operator==`: SymFncExpRad.cpp:41-53, SymFncExpAngn.cpp:35-49, SymFncExpAngw.cpp:35-49,
SymFncExpRadWeighted.cpp:39-51, SymFncExpAngnWeighted.cpp:46-60, SymFncCompRad.cpp:39-49,
SymFncCompAngn.cpp:37-50, SymFncCompAngw.cpp:37-50, SymFncCompRadWeighted.cpp:37-47,
SymFncCompAngnWeighted.cpp:37-49, SymFncCompAngwWeighted.cpp:37-49. -/
def eq (S T : SymFnc) : Prop :=
  S.sc.ec = T.sc.ec ∧ S.sc.type = T.sc.type ∧
  match S.kind with
  | .ExpRad =>
    S.cutoffType = T.cutoffType ∧ S.cutoffAlpha = T.cutoffAlpha ∧ S.rc = T.rc ∧ S.eta = T.eta ∧
    S.rs = T.rs ∧ S.e1 = T.e1
  | .ExpAngn | .ExpAngw =>
    S.cutoffType = T.cutoffType ∧ S.cutoffAlpha = T.cutoffAlpha ∧ S.rc = T.rc ∧ S.eta = T.eta ∧
    S.zeta = T.zeta ∧ S.lambda = T.lambda ∧ S.e1 = T.e1 ∧ S.e2 = T.e2
  | .ExpRadWeighted =>
    S.cutoffType = T.cutoffType ∧ S.cutoffAlpha = T.cutoffAlpha ∧ S.rc = T.rc ∧ S.eta = T.eta ∧
    S.rs = T.rs
  | .ExpAngnWeighted =>
    S.cutoffType = T.cutoffType ∧ S.cutoffAlpha = T.cutoffAlpha ∧ S.rc = T.rc ∧ S.eta = T.eta ∧
    S.rs = T.rs ∧ S.zeta = T.zeta ∧ S.lambda = T.lambda
  | .CompRad => S.subtype = T.subtype ∧ S.e1 = T.e1 ∧ S.rc = T.rc ∧ S.rl = T.rl
  | .CompAngn | .CompAngw =>
    S.subtype = T.subtype ∧ S.e1 = T.e1 ∧ S.e2 = T.e2 ∧ S.rc = T.rc ∧ S.rl = T.rl ∧
    S.angleLeft = T.angleLeft ∧ S.angleRight = T.angleRight
  | .CompRadWeighted => S.subtype = T.subtype ∧ S.rc = T.rc ∧ S.rl = T.rl
  | .CompAngnWeighted | .CompAngwWeighted =>
    S.subtype = T.subtype ∧ S.rc = T.rc ∧ S.rl = T.rl ∧ S.angleLeft = T.angleLeft ∧
    S.angleRight = T.angleRight

/-- `setIndex`. -/
def setIndex (S : SymFnc) (i : ℕ) : SymFnc := { S with sc := { S.sc with index := i } }

end SymFnc

/-- Element.cpp:82-141 `addSymmetryFunction` for the tokens of a line. -/
noncomputable def addSymmetryFunction (E : SFEnv) (Ss : List SymFnc) (tok : List Str) :
    Option (List SymFnc) := do
  let ty ← tok[1]?
  let kind ← SFKind.ofNumber (E.atoi ty)
  let S ← (SymFnc.create E kind).setParameters E tok
  some (Ss ++ [S])

/-- Possible results of Element.cpp:154-166 `sortSymmetryFunctions`: `std::sort` may return any
sorted permutation; then the indices are set. -/
def SortSymmetryFunctions (Ss Ts : List SymFnc) : Prop :=
  ∃ l : List SymFnc, l.Perm Ss ∧ l.Pairwise (fun S T => ¬ T.lt S) ∧ Ts = l.mapIdx fun i S => S.setIndex i

/-- Possible results for one element of Mode.cpp:615-690 `setupSymmetryFunctions`. `lines` are the
tokens of its lines, `conv` is the length conversion if normalisation is on. -/
def SetupSymmetryFunctions (E : SFEnv) (lines : List (List Str)) (conv : Option ℝ) (t : CutoffType)
    (alpha : ℝ) (Ts : List SymFnc) : Prop :=
  ∃ Ss Us Vs, lines.foldlM (addSymmetryFunction E) [] = some Ss ∧
    (match conv with
      | some c => Ss.mapM fun S => S.changeLengthUnit c
      | none => some Ss) = some Us ∧
    SortSymmetryFunctions Us Vs ∧
    Vs.mapM (fun S => S.setCutoffFunction t alpha) = some Ts

/-! ### Derivative memory -/

/-- Element.cpp:295-302, one function: the loop over neighbour elements. The state is the table and
the function. -/
def setupMemoryOne (numElements : ℕ) (table : List (List ℕ)) (S : SymFnc) :
    List (List ℕ) × SymFnc :=
  (List.range numElements).foldl (fun (s : List (List ℕ) × SymFnc) i =>
    if s.2.checkRelevantElement i then
      let t := (s.1[i]?).getD []
      (s.1.set i (t ++ [s.2.index]),
        { s.2 with indexPerElement := s.2.indexPerElement.set i t.length })
    else s) (table, S)

/-- Element.cpp:289-311 `setupSymmetryFunctionMemory`: `symmetryFunctionTable` and the functions
(`symmetryFunctionNumTable` are the sizes of the table). -/
def setupSymmetryFunctionMemory (numElements : ℕ) (Ss : List SymFnc) :
    List (List ℕ) × List SymFnc :=
  Ss.foldl (fun s S =>
    let r := setupMemoryOne numElements s.1 S
    (r.1, s.2 ++ [r.2])) (List.replicate numElements [], [])

/-! ### Caches -/

/-- A cache identifier: the text "%zu f " or "%zu df " is kept as element and flag, followed by the
rest of the text. (The code gets the element back with `atoi(split(identifier)[0])`.) -/
structure CacheId where
  element : ℕ
  derivative : Bool
  text : Str
  deriving DecidableEq

namespace SymFnc

/-- The part of the identifiers which describes the function (SymFncExpRad.cpp:240-246 and the same
lines in the other files). -/
noncomputable def cacheText (E : SFEnv) (S : SymFnc) : Str :=
  match S.kind with
  | .ExpRad | .ExpAngn | .ExpAngw | .ExpRadWeighted | .ExpAngnWeighted =>
    S.subtype ++ " ".toList ++ ("alpha = ".toList ++ E.fmt S.cutoffAlpha) ++ " ".toList
      ++ ("rc = ".toList ++ E.fmt (S.rc / S.convLength))
  | _ =>
    S.subtype ++ " ".toList ++ ("rl = ".toList ++ E.fmt (S.rl / S.convLength)) ++ " ".toList
      ++ ("rc = ".toList ++ E.fmt (S.rc / S.convLength))

/-- The virtual function `getCacheIdentifiers` (SymFncExpRad.cpp:237-252, SymFncBaseExpAng.cpp:
186-203, SymFncExpRadWeighted.cpp:219-237, SymFncExpAngnWeighted.cpp:344-362, SymFncCompRad.cpp:
229-244, SymFncBaseCompAng.cpp:197-214, SymFncCompRadWeighted.cpp:208-226,
SymFncBaseCompAngWeighted.cpp:175-193). -/
noncomputable def getCacheIdentifiers (E : SFEnv) (S : SymFnc) : List CacheId :=
  let s := S.cacheText E
  let both (e : ℕ) : List CacheId := [⟨e, false, s⟩, ⟨e, true, s⟩]
  match S.kind with
  | .ExpRad | .CompRad => both S.e1
  | .ExpAngn | .ExpAngw | .CompAngn | .CompAngw =>
    both S.e1 ++ if S.e1 ≠ S.e2 then both S.e2 else []
  | _ => (List.range E.numElements).flatMap both

/-- SymFnc.cpp:106-132 `addCacheIndex`. -/
noncomputable def addCacheIndex (E : SFEnv) (S : SymFnc) (element cacheIndex : ℕ) (id : CacheId) :
    Option SymFnc := do
  let ids := S.getCacheIdentifiers E
  if ids.any (fun i => E.numElements ≤ i.element) ∨ E.numElements ≤ element then none
  else do
    let ci ← S.cacheIndices[element]?
    let i ← (ids.filter fun i => i.element == element)[ci.length]?
    if i ≠ id then none
    else some { S with cacheIndices := S.cacheIndices.set element (ci ++ [cacheIndex]) }

end SymFnc

/-- Element.h:44-52 `SFCacheList`. -/
structure SFCacheList where
  element : ℕ
  identifier : CacheId
  indices : List ℕ

/-- Mode.cpp:1003-1020: enter function `index` in the list with the identifier, or append a new
list. -/
def enterCacheList (id : CacheId) (index : ℕ) : List SFCacheList → List SFCacheList
  | [] => [⟨id.element, id, [index]⟩]
  | c :: cs =>
    if id = c.identifier then { c with indices := c.indices ++ [index] } :: cs
    else c :: enterCacheList id index cs

/-- Mode.cpp:1000-1021: one identifier. -/
def collectId (index : ℕ) (lists : List (List SFCacheList)) (id : CacheId) :
    Option (List (List SFCacheList)) := do
  let l ← lists[id.element]?
  some (lists.set id.element (enterCacheList id index l))

/-- Mode.cpp:994-1022: all identifiers of all functions. -/
noncomputable def collectCacheLists (E : SFEnv) (Ss : List SymFnc) :
    Option (List (List SFCacheList)) :=
  Ss.foldlM (fun lists S => (S.getCacheIdentifiers E).foldlM (collectId S.index) lists)
    (List.replicate E.numElements [])

/-- Mode.cpp:1037-1042: remove the lists with at most one function. -/
def removeSingle (c : List SFCacheList) : List SFCacheList :=
  c.filter fun l => 1 < l.indices.length

/-- Element.cpp:544-561 `setCacheIndices`, the innermost loop body. -/
noncomputable def setCacheIndex (E : SFEnv) (c : SFCacheList) (j : ℕ) (Ss : List SymFnc) (k : ℕ) :
    Option (List SymFnc) := do
  let S ← Ss[k]?
  let S ← S.addCacheIndex E c.element j c.identifier
  some (Ss.set k S)

/-- Element.cpp:544-561 `setCacheIndices`. -/
noncomputable def setCacheIndices (E : SFEnv) (lists : List (List SFCacheList))
    (Ss : List SymFnc) : Option (List SymFnc) :=
  lists.foldlM (fun Ss cs => cs.zipIdx.foldlM (fun Ss (cj : SFCacheList × ℕ) =>
    cj.1.indices.foldlM (setCacheIndex E cj.1 cj.2) Ss) Ss) Ss

/-- Mode.cpp:984-1100 `setupSymmetryFunctionCache` for one element: the functions and the sizes of
the cache lists (Element.cpp:563-572 `getCacheSizes`). -/
noncomputable def setupSymmetryFunctionCache (E : SFEnv) (Ss : List SymFnc) :
    Option (List SymFnc × List ℕ) := do
  let lists ← collectCacheLists E Ss
  let lists := lists.map removeSingle
  let Ss ← setCacheIndices E lists Ss
  some (Ss, lists.map List.length)

end N2P2
