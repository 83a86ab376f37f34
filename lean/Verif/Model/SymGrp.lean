import Verif.Model.Loop
import Verif.Model.SymFncSetup

/-! Symmetry function groups (SymGrp*.cpp, Element.cpp:194-287, 449-460). The members of a group are
pointers to the functions of the element; the model copies the functions when the group is set up,
with scaling already set (grouping and order of the members do not look at the scaling). Parallel
vectors with one entry per member are kept as one list of records. `none` stands for an exception,
undefined behaviour, or a number which is infinite or undefined because of a division by zero. -/

namespace N2P2

open Classical in
/-- Division of `double`s; `none` if the result is infinite or undefined. -/
noncomputable def fdiv (x y : ℝ) : Option ℝ := if y = 0 then none else some (x / y)

/-- The vectors `members`, `calculateExp` or `calculateComp`, `factorNorm`, `factorDeriv`,
`scalingFactors` at one position; the copies of parameters of the member (`eta`, `rs`, `mrl`, `mrc`,
`memberIndex`, ...) are read from `sf`. -/
structure GrpMember where
  sf : SymFnc
  fresh : Bool
  factorNorm : ℝ
  factorDeriv : Option ℝ
  scalingFactor : ℝ

/-- Members of `SymGrp` and its subclasses. `members` is the vector before sorting, `rows` what
`sortMembers` and `setScalingFactors` fill in. -/
structure SymGrp where
  kind : SFKind
  ec : ℕ
  e1 : ℕ
  e2 : ℕ
  cutoffType : CutoffType
  cutoffAlpha : ℝ
  rc : ℝ
  convLength : ℝ
  fc : CutoffFunction
  rmin : ℝ
  rmax : ℝ
  members : List SymFnc
  rows : List GrpMember

namespace SymGrp

/-! ### Setup -/

/-- The constructors (SymGrp.cpp:27-32, SymGrpBaseCutoff.cpp:23-28, SymGrpBaseComp.cpp:23-26 and
those of the subclasses). -/
noncomputable def create (kind : SFKind) : SymGrp :=
  { kind := kind, ec := 0, e1 := 0, e2 := 0, cutoffType := .HARD, cutoffAlpha := 0, rc := 0
    convLength := 1, fc := .init, rmin := 0, rmax := 0, members := [], rows := [] }

/-- What `addMember` copies from the first member (e.g. SymGrpExpAngn.cpp:75-89,
SymGrpCompAngn.cpp:67-73). -/
noncomputable def adopt (g : SymGrp) (S : SymFnc) : Option SymGrp :=
  match g.kind with
  | .ExpRad | .ExpAngn | .ExpAngw | .ExpRadWeighted | .ExpAngnWeighted => do
    let fc ← ((g.fc.setCutoffType S.cutoffType).setCutoffRadius S.rc).setCutoffParameter
      S.cutoffAlpha
    some { g with
      ec := S.sc.ec, e1 := S.e1, e2 := S.e2, cutoffType := S.cutoffType
      cutoffAlpha := S.cutoffAlpha, rc := S.rc, convLength := S.convLength, fc := fc }
  | _ => some { g with ec := S.sc.ec, e1 := S.e1, e2 := S.e2, convLength := S.convLength }

/-- The conditions on a new member (e.g. SymGrpExpAngn.cpp:91-96, SymGrpCompAngn.cpp:75-77). -/
def accepts (g : SymGrp) (S : SymFnc) : Prop :=
  match g.kind with
  | .ExpRad => S.cutoffType = g.cutoffType ∧ S.cutoffAlpha = g.cutoffAlpha ∧ S.sc.ec = g.ec ∧
      S.rc = g.rc ∧ S.e1 = g.e1
  | .ExpAngn | .ExpAngw => S.cutoffType = g.cutoffType ∧ S.cutoffAlpha = g.cutoffAlpha ∧
      S.sc.ec = g.ec ∧ S.rc = g.rc ∧ S.e1 = g.e1 ∧ S.e2 = g.e2
  | .ExpRadWeighted | .ExpAngnWeighted => S.cutoffType = g.cutoffType ∧
      S.cutoffAlpha = g.cutoffAlpha ∧ S.sc.ec = g.ec ∧ S.rc = g.rc
  | .CompRad => S.sc.ec = g.ec ∧ S.e1 = g.e1
  | .CompAngn | .CompAngw => S.sc.ec = g.ec ∧ S.e1 = g.e1 ∧ S.e2 = g.e2
  | .CompRadWeighted | .CompAngnWeighted | .CompAngwWeighted => S.sc.ec = g.ec

open Classical in
/-- `members.push_back(sf)` and, for the compact types, the radii before it (e.g.
SymGrpCompAngn.cpp:84-88). -/
noncomputable def push (g : SymGrp) (S : SymFnc) : SymGrp :=
  match g.kind with
  | .ExpRad | .ExpAngn | .ExpAngw | .ExpRadWeighted | .ExpAngnWeighted =>
    { g with members := g.members ++ [S] }
  | _ => { g with
      rmin := if S.rl ≤ 0 then 0 else min g.rmin S.rl
      rmax := max g.rmax S.rc
      members := g.members ++ [S] }

open Classical in
/-- The virtual function `addMember` (SymGrpExpRad.cpp:72-108, SymGrpExpAngn.cpp:68-106,
SymGrpExpAngw.cpp:68-106, SymGrpExpRadWeighted.cpp:68-102, SymGrpExpAngnWeighted.cpp:71-105,
SymGrpCompRad.cpp:60-89, SymGrpCompAngn.cpp:60-91, SymGrpCompAngw.cpp:60-91,
SymGrpCompRadWeighted.cpp:53-80, SymGrpCompAngnWeighted.cpp:52-79, SymGrpCompAngwWeighted.cpp:
52-79). The inner `none` is the return value `false`. -/
noncomputable def addMember (g : SymGrp) (S : SymFnc) : Option (Option SymGrp) :=
  if S.sc.type ≠ g.kind.number then some none
  else do
    let g ← if g.members = [] then g.adopt S else some g
    if g.accepts S then
      if S.convLength ≠ g.convLength then none else some (some (g.push S))
    else some none

/-- Element.cpp:196-273: one symmetry function. -/
noncomputable def addToGroups (S : SymFnc) : List SymGrp → Option (List SymGrp)
  | [] => do
    match ← (create S.kind).addMember S with
    | some g => some [g]
    | none => some [create S.kind]
  | g :: gs => do
    match ← g.addMember S with
    | some g => some (g :: gs)
    | none => (addToGroups S gs).map (g :: ·)

open Classical in
/-- `calculateExp` (SymGrpExpAngn.cpp:121-136) or `calculateComp` (SymGrpCompAngn.cpp:110-126,
SymGrpCompAngw.cpp:111) of a member after the member `prev`. -/
noncomputable def isFresh (kind : SFKind) (prev : Option SymFnc) (S : SymFnc) : Bool :=
  match prev with
  | none => true
  | some P =>
    match kind with
    | .ExpAngn | .ExpAngw | .ExpAngnWeighted => decide (P.eta ≠ S.eta ∨ P.rs ≠ S.rs)
    | .CompAngn | .CompAngnWeighted => decide (P.rc ≠ S.rc ∨ P.rl ≠ S.rl)
    | _ => true

/-- The entries for one member; `scalingFactors` is still empty (SymGrpExpAngn.cpp:115-145). -/
noncomputable def row (kind : SFKind) (prev : Option SymFnc) (S : SymFnc) : GrpMember :=
  { sf := S
    fresh := isFresh kind prev S
    factorNorm := 2 ^ (1 - S.zeta)
    factorDeriv := (fdiv (2 * S.eta) S.zeta).bind fun x => fdiv x S.lambda
    scalingFactor := 0 }

/-- The entries for all members, in order. -/
noncomputable def rowsFrom (kind : SFKind) : Option SymFnc → List SymFnc → List GrpMember
  | _, [] => []
  | prev, S :: l => row kind prev S :: rowsFrom kind (some S) l

/-- Possible results of the virtual function `sortMembers` (e.g. SymGrpExpAngn.cpp:108-148);
`std::sort` may return any sorted permutation. -/
def SortMembers (g g' : SymGrp) : Prop :=
  ∃ l : List SymFnc, l.Perm g.members ∧ l.Pairwise (fun S T => ¬ T.lt S) ∧
    g' = { g with members := l, rows := rowsFrom g.kind none l }

/-- The virtual function `setScalingFactors` (SymGrpExpRad.cpp:127-136, SymGrpBaseExpAng.cpp:45-57,
SymGrpExpRadWeighted.cpp:121-130, SymGrpExpAngnWeighted.cpp:149-159, SymGrpCompRad.cpp:122-131,
SymGrpBaseCompAng.cpp:44-54, SymGrpCompRadWeighted.cpp:105-114, SymGrpBaseCompAngWeighted.cpp:
39-49). -/
noncomputable def setScalingFactors (g : SymGrp) : SymGrp :=
  { g with rows := g.rows.map fun m =>
      { m with
        scalingFactor := m.sf.sf
        factorNorm := match g.kind with
          | .ExpAngn | .ExpAngw | .ExpAngnWeighted => m.factorNorm * m.sf.sf
          | _ => m.factorNorm } }

end SymGrp

/-- Possible results of Element.cpp:194-287 `setupSymmetryFunctionGroups`, followed by
`setScalingFactors` for each group (Element.cpp:356-359, 376-379). The groups are sorted
(Element.cpp:275-277); the model allows any order. -/
def SetupGroups (Ss : List SymFnc) (gs : List SymGrp) : Prop :=
  ∃ gs0 gs1 gs2 : List SymGrp, Ss.foldlM (fun gs S => SymGrp.addToGroups S gs) [] = some gs0 ∧
    gs1.Perm gs0 ∧ List.Forall₂ SymGrp.SortMembers gs1 gs2 ∧
    gs = gs2.map SymGrp.setScalingFactors

namespace SymGrp

/-! ### Evaluation -/

/-- Derivatives of a radial member with respect to neighbour `j` (e.g. SymGrpExpRad.cpp:202-226). -/
noncomputable def saveRadial (m : GrpMember) (j : ℕ) (n : Neighbor) (p1 : ℝ) (a : Atom) :
    Option Atom := do
  let a ← a.addDGdr m.sf.index (p1 • n.dr)
  let i ← m.sf.indexPerElement[n.element]?
  a.subNeighborDGdr j i (p1 • n.dr)

/-- Derivatives of an angular member with respect to neighbours `j`, `k` (e.g. SymGrpExpAngn.cpp:
339-385, SymGrpCompAngn.cpp:340-388). -/
noncomputable def savePair (m : GrpMember) (j k : ℕ) (nj nk : Neighbor) (p1 p2 p3 : ℝ) (a : Atom) :
    Option Atom := do
  let a ← a.addDGdr m.sf.index (p1 • nj.dr + p2 • nk.dr)
  let ij ← m.sf.indexPerElement[nj.element]?
  let a ← a.subNeighborDGdr j ij (p1 • nj.dr + p3 • (nk.dr - nj.dr))
  let ik ← m.sf.indexPerElement[nk.element]?
  a.subNeighborDGdr k ik (p2 • nk.dr - p3 • (nk.dr - nj.dr))

/-- The last loop: `atom.G[memberIndex[l]] = members[l]->scale(...)`; `norm` is what the result is
multiplied with. -/
noncomputable def assign (g : SymGrp) (norm : GrpMember → Option ℝ) (res : Buf) (a : Atom) :
    Option Atom :=
  (List.range g.rows.length).foldlM (fun a l => do
    let m ← g.rows[l]?
    let c ← norm m
    a.setG m.sf.index (m.sf.sc.scale (res l * c))) a

/-- Atomic number of a neighbour for the weighted types, one for the others. -/
noncomputable def weight (g : SymGrp) (m : GrpMember) (n : Neighbor) : ℝ :=
  match g.kind with
  | .ExpRadWeighted | .CompRadWeighted => m.sf.atomicNumber n.element
  | _ => 1

/-- Product of the atomic numbers for the weighted types, one for the others. -/
noncomputable def pairWeight (g : SymGrp) (m : GrpMember) (nj nk : Neighbor) : ℝ :=
  match g.kind with
  | .ExpAngnWeighted | .CompAngnWeighted | .CompAngwWeighted =>
    (m.sf.atomicNumber nj.element * m.sf.atomicNumber nk.element : ℕ)
  | _ => 1

/-- `getCacheIndices()` of the first member at an element (e.g. SymGrpExpRad.cpp:149). -/
def firstCache (g : SymGrp) (e : ℕ) : Option (List ℕ) := do
  let m ← g.rows[0]?
  m.sf.cacheIndices[e]?

/-- Loop bound: types 2 and 3 use the stored number of neighbours (SymGrpExpRad.cpp:166,
SymGrpExpAngn.cpp:171). -/
noncomputable def bound (g : SymGrp) (a : Atom) : ℕ :=
  match g.kind with
  | .ExpRad | .ExpAngn => a.getStoredMinNumNeighbors g.rc
  | _ => a.numNeighbors

/-- Condition on the first neighbour: element and distance (SymGrpExpRad.cpp:169,
SymGrpExpRadWeighted.cpp:154, SymGrpExpAngn.cpp:180, SymGrpExpAngw.cpp:178,
SymGrpExpAngnWeighted.cpp:190, SymGrpCompRad.cpp:151, SymGrpCompRadWeighted.cpp:134,
SymGrpCompAngn.cpp:171, SymGrpCompAngw.cpp:156, SymGrpCompAngnWeighted.cpp:160,
SymGrpCompAngwWeighted.cpp:142). -/
def selJ (g : SymGrp) (n : Neighbor) : Prop :=
  match g.kind with
  | .ExpRad => g.e1 = n.element ∧ n.d < g.rc
  | .ExpAngn | .ExpAngw => (g.e1 = n.element ∨ g.e2 = n.element) ∧ n.d < g.rc
  | .ExpRadWeighted | .ExpAngnWeighted => n.d < g.rc
  | .CompRad => g.e1 = n.element ∧ n.d < g.rmax ∧ g.rmin < n.d
  | .CompAngn | .CompAngw => (g.e1 = n.element ∨ g.e2 = n.element) ∧ n.d < g.rmax ∧ g.rmin < n.d
  | .CompRadWeighted | .CompAngnWeighted | .CompAngwWeighted => n.d < g.rmax ∧ g.rmin < n.d

/-- Condition on the elements of a pair (SymGrpExpAngn.cpp:209-213). -/
def pairElements (g : SymGrp) (nj nk : Neighbor) : Prop :=
  (g.e1 = nj.element ∧ g.e2 = nk.element) ∨ (g.e2 = nj.element ∧ g.e1 = nk.element)

/-- Condition on the second neighbour, and on the distance between the two for the narrow types
(SymGrpExpAngn.cpp:209-227, SymGrpExpAngw.cpp:207-212, SymGrpExpAngnWeighted.cpp:219-235,
SymGrpCompAngn.cpp:208-225, SymGrpCompAngw.cpp:193-199, SymGrpCompAngnWeighted.cpp:196-212,
SymGrpCompAngwWeighted.cpp:178-183). -/
def selK (g : SymGrp) (nj nk : Neighbor) : Prop :=
  match g.kind with
  | .ExpAngn => g.pairElements nj nk ∧ nk.d < g.rc ∧ (nk.dr - nj.dr).norm2 < g.rc * g.rc
  | .ExpAngw => g.pairElements nj nk ∧ nk.d < g.rc
  | .ExpAngnWeighted => nk.d < g.rc ∧ (nk.dr - nj.dr).norm2 < g.rc * g.rc
  | .CompAngn => g.pairElements nj nk ∧ (nk.d < g.rmax ∧ g.rmin < nk.d) ∧
      ¬ (g.rmax * g.rmax ≤ (nk.dr - nj.dr).norm2 ∨ (nk.dr - nj.dr).norm2 ≤ g.rmin * g.rmin)
  | .CompAngw => g.pairElements nj nk ∧ nk.d < g.rmax ∧ g.rmin < nk.d
  | .CompAngnWeighted => (nk.d < g.rmax ∧ g.rmin < nk.d) ∧
      ¬ (g.rmax * g.rmax ≤ (nk.dr - nj.dr).norm2 ∨ (nk.dr - nj.dr).norm2 ≤ g.rmin * g.rmin)
  | .CompAngwWeighted => nk.d < g.rmax ∧ g.rmin < nk.d
  | _ => False

/-! #### Radial types -/

/-- Loop over members (SymGrpExpRad.cpp:191-227, SymGrpExpRadWeighted.cpp:177-214): member `l`. `p`
are value and derivative of the cutoff function. -/
noncomputable def expRadMember (g : SymGrp) (derivatives : Bool) (j : ℕ) (n : Neighbor)
    (p : ℝ × ℝ) (s : Buf × Atom) (l : ℕ) : Option (Buf × Atom) := do
  let m ← g.rows[l]?
  let pexp := g.weight m n * Real.exp (-m.sf.eta * (n.d - m.sf.rs) * (n.d - m.sf.rs))
  let res := s.1.set l (s.1 l + pexp * p.1)
  if derivatives then
    let p1 := m.scalingFactor * (p.2 - 2 * m.sf.eta * (n.d - m.sf.rs) * p.1) * pexp / n.d
    let a ← saveRadial m j n p1 s.2
    some (res, a)
  else some (res, s.2)

open Classical in
/-- Loop over neighbours (SymGrpExpRad.cpp:166-229, SymGrpExpRadWeighted.cpp:151-216). -/
noncomputable def expRadStep (g : SymGrp) (derivatives : Bool) (s : Buf × Atom) (j : ℕ) :
    Option (Buf × Atom) := do
  let n ← s.2.neighbors[j]?
  if g.selJ n then
    let ci ← g.firstCache n.element
    let (p, n) ← cachedFdf g.fc.fdf ci ci n
    (List.range g.rows.length).foldlM (g.expRadMember derivatives j n p)
      (s.1, s.2.setNeighbor j n)
  else some s

/-- SymGrpExpRad.cpp:149-158: `.at(e1)`, `.at(0)`, `.at(1)` do not throw. -/
def cacheAtE1 (g : SymGrp) : Option Unit := do
  let ci ← g.firstCache g.e1
  if ci.length = 1 then none else some ()

/-- SymGrpExpRad.cpp:144-239, SymGrpExpRadWeighted.cpp:138-226. -/
noncomputable def expRadCalculate (g : SymGrp) (a : Atom) (derivatives : Bool) : Option Atom := do
  let s ← (List.range (g.bound a)).foldlM (g.expRadStep derivatives) (fun _ => 0, a)
  g.assign (fun _ => some 1) s.1 s.2

open Classical in
/-- Loop over members (SymGrpCompRad.cpp:155-208, SymGrpCompRadWeighted.cpp:139-192). -/
noncomputable def compRadMember (g : SymGrp) (derivatives : Bool) (j : ℕ) (s : Buf × Atom)
    (l : ℕ) : Option (Buf × Atom) := do
  let m ← g.rows[l]?
  let n ← s.2.neighbors[j]?
  if n.d ≤ m.sf.rl ∨ m.sf.rc ≤ n.d then some s
  else do
    let ci ← m.sf.cacheIndices[n.element]?
    let (p, n) ← cachedFdf m.sf.cr.fdf ci ci n
    let a := s.2.setNeighbor j n
    let res := s.1.set l (s.1 l + g.weight m n * p.1)
    if ¬ derivatives ∨ p.2 = 0 then some (res, a)
    else do
      let a ← saveRadial m j n (p.2 * (g.weight m n * m.scalingFactor / n.d)) a
      some (res, a)

open Classical in
/-- Loop over neighbours (SymGrpCompRad.cpp:147-210, SymGrpCompRadWeighted.cpp:130-195). -/
noncomputable def compRadStep (g : SymGrp) (derivatives : Bool) (s : Buf × Atom) (j : ℕ) :
    Option (Buf × Atom) := do
  let n ← s.2.neighbors[j]?
  if g.selJ n then
    (List.range g.rows.length).foldlM (g.compRadMember derivatives j) s
  else some s

/-- SymGrpCompRad.cpp:139-219, SymGrpCompRadWeighted.cpp:122-204. -/
noncomputable def compRadCalculate (g : SymGrp) (a : Atom) (derivatives : Bool) : Option Atom := do
  let s ← (List.range (g.bound a)).foldlM (g.compRadStep derivatives) (fun _ => 0, a)
  g.assign (fun _ => some 1) s.1 s.2

/-! #### Gaussian angular types -/

/-- `vexp`, `rijs`, `riks`, `rjks`, kept from member to member. -/
structure ExpShift where
  vexp : ℝ
  rijs : ℝ
  riks : ℝ
  rjks : ℝ

open Classical in
/-- The factor `fg` (SymGrpExpAngn.cpp:292-306). -/
noncomputable def power (m : GrpMember) (vexp plambda : ℝ) : Option ℝ :=
  if plambda ≤ 0 then some 0
  else if m.sf.useIntegerPow then (powInt plambda (m.sf.zetaInt - 1)).map (vexp * ·)
  else some (vexp * plambda ^ (m.sf.zeta - 1))

open Classical in
/-- `vexp` and the shifted distances for a member of type 3; kept if eta and shift are those of the
member before (SymGrpExpAngn.cpp:276-291). -/
noncomputable def shiftExpAngn (m : GrpMember) (rij rik rjk : ℝ) (e : ExpShift) : ExpShift :=
  if m.fresh then
    if 0 < m.sf.rs then
      { vexp := Real.exp (-m.sf.eta * ((rij - m.sf.rs) * (rij - m.sf.rs)
          + (rik - m.sf.rs) * (rik - m.sf.rs) + (rjk - m.sf.rs) * (rjk - m.sf.rs)))
        rijs := rij - m.sf.rs
        riks := rik - m.sf.rs
        rjks := rjk - m.sf.rs }
    else { e with vexp := Real.exp (-m.sf.eta * (rij * rij + rik * rik + rjk * rjk)) }
  else e

open Classical in
/-- The same for type 9 (SymGrpExpAngw.cpp:256-269). -/
noncomputable def shiftExpAngw (m : GrpMember) (rij rik : ℝ) (e : ExpShift) : ExpShift :=
  if m.fresh then
    if 0 < m.sf.rs then
      { vexp := Real.exp (-m.sf.eta * ((rij - m.sf.rs) * (rij - m.sf.rs)
          + (rik - m.sf.rs) * (rik - m.sf.rs)))
        rijs := rij - m.sf.rs
        riks := rik - m.sf.rs
        rjks := e.rjks }
    else { e with vexp := Real.exp (-m.sf.eta * (rij * rij + rik * rik)) }
  else e

open Classical in
/-- The same for type 13 (SymGrpExpAngnWeighted.cpp:285-294). -/
noncomputable def shiftExpAngnWeighted (m : GrpMember) (rij rik rjk : ℝ) (e : ExpShift) : ExpShift :=
  if m.fresh then
    { vexp := Real.exp (-m.sf.eta * ((rij - m.sf.rs) * (rij - m.sf.rs)
        + (rik - m.sf.rs) * (rik - m.sf.rs) + (rjk - m.sf.rs) * (rjk - m.sf.rs)))
      rijs := rij - m.sf.rs
      riks := rik - m.sf.rs
      rjks := rjk - m.sf.rs }
  else e

open Classical in
/-- Member of type 3 for a pair (SymGrpExpAngn.cpp:248-337): what is kept for the next member, the
summand and the prefactors of the distance vectors. -/
noncomputable def bodyExpAngn (fc : CutoffFunction) (derivatives : Bool) (m : GrpMember)
    (nj nk : Neighbor) (pij pik : ℝ × ℝ) (e : ExpShift) : Option (ExpShift × SymFnc.PairTerm) := do
  let rij := nj.d
  let rik := nk.d
  let rjk := √(nk.dr - nj.dr).norm2
  let pjk := fc.fdf rjk
  let rinvijik := 1 / rij / rik
  let costijk := nj.dr.dot nk.dr * rinvijik
  let pfc := pij.1 * pik.1 * pjk.1
  let pr1 := pik.1 * pjk.1 * pij.2 / rij
  let pr2 := pij.1 * pjk.1 * pik.2 / rik
  let pr3 := pij.1 * pik.1 * pjk.2 / rjk
  let e := shiftExpAngn m rij rik rjk e
  let plambda := 1 + m.sf.lambda * costijk
  let fg ← power m e.vexp plambda
  let value := fg * plambda * pfc
  if derivatives then do
    let factorDeriv ← m.factorDeriv
    let fg := fg * m.factorNorm
    let pfczl := pfc * (m.sf.zeta * m.sf.lambda)
    let p2etapl := plambda * factorDeriv
    if 0 < m.sf.rs then
      some (e, {
        value := value
        p1 := fg * (pfczl * (rinvijik - costijk / (rij * rij) - p2etapl * e.rijs / rij)
          + pr1 * plambda)
        p2 := fg * (pfczl * (rinvijik - costijk / (rik * rik) - p2etapl * e.riks / rik)
          + pr2 * plambda)
        p3 := fg * (pfczl * (rinvijik + p2etapl * e.rjks / rjk) - pr3 * plambda) })
    else
      some (e, {
        value := value
        p1 := fg * (pfczl * (rinvijik - costijk / (rij * rij) - p2etapl) + pr1 * plambda)
        p2 := fg * (pfczl * (rinvijik - costijk / (rik * rik) - p2etapl) + pr2 * plambda)
        p3 := fg * (pfczl * (rinvijik + p2etapl) - pr3 * plambda) })
  else some (e, ⟨value, 0, 0, 0⟩)

open Classical in
/-- Member of type 9 for a pair (SymGrpExpAngw.cpp:239-310). -/
noncomputable def bodyExpAngw (derivatives : Bool) (m : GrpMember)
    (nj nk : Neighbor) (pij pik : ℝ × ℝ) (e : ExpShift) : Option (ExpShift × SymFnc.PairTerm) := do
  let rij := nj.d
  let rik := nk.d
  let rinvijik := 1 / rij / rik
  let costijk := nj.dr.dot nk.dr * rinvijik
  let pfc := pij.1 * pik.1
  let pr1 := pik.1 * pij.2 / rij
  let pr2 := pij.1 * pik.2 / rik
  let e := shiftExpAngw m rij rik e
  let plambda := 1 + m.sf.lambda * costijk
  let fg ← power m e.vexp plambda
  let value := fg * plambda * pfc
  if derivatives then do
    let factorDeriv ← m.factorDeriv
    let fg := fg * m.factorNorm
    let pfczl := pfc * (m.sf.zeta * m.sf.lambda)
    let p2etapl := plambda * factorDeriv
    if 0 < m.sf.rs then
      some (e, {
        value := value
        p1 := fg * (pfczl * (rinvijik - costijk / (rij * rij) - p2etapl * e.rijs / rij)
          + pr1 * plambda)
        p2 := fg * (pfczl * (rinvijik - costijk / (rik * rik) - p2etapl * e.riks / rik)
          + pr2 * plambda)
        p3 := fg * pfczl * rinvijik })
    else
      some (e, {
        value := value
        p1 := fg * (pfczl * (rinvijik - costijk / (rij * rij) - p2etapl) + pr1 * plambda)
        p2 := fg * (pfczl * (rinvijik - costijk / (rik * rik) - p2etapl) + pr2 * plambda)
        p3 := fg * pfczl * rinvijik })
  else some (e, ⟨value, 0, 0, 0⟩)

open Classical in
/-- Member of type 13 for a pair (SymGrpExpAngnWeighted.cpp:254-325); `z` is the product of the
atomic numbers. -/
noncomputable def bodyExpAngnWeighted (fc : CutoffFunction) (z : ℝ) (derivatives : Bool)
    (m : GrpMember) (nj nk : Neighbor) (pij pik : ℝ × ℝ) (e : ExpShift) :
    Option (ExpShift × SymFnc.PairTerm) := do
  let rij := nj.d
  let rik := nk.d
  let rjk := √(nk.dr - nj.dr).norm2
  let pjk := fc.fdf rjk
  let rinvijik := 1 / rij / rik
  let costijk := nj.dr.dot nk.dr * rinvijik
  let pfc := z * pij.1 * pik.1 * pjk.1
  let pr1 := z * pik.1 * pjk.1 * pij.2 / rij
  let pr2 := z * pij.1 * pjk.1 * pik.2 / rik
  let pr3 := z * pij.1 * pik.1 * pjk.2 / rjk
  let e := shiftExpAngnWeighted m rij rik rjk e
  let plambda := 1 + m.sf.lambda * costijk
  let fg ← power m e.vexp plambda
  let value := fg * plambda * pfc
  if derivatives then do
    let factorDeriv ← m.factorDeriv
    let fg := fg * m.factorNorm
    let pfczl := pfc * (m.sf.zeta * m.sf.lambda)
    let p2etapl := plambda * factorDeriv
    some (e, {
      value := value
      p1 := fg * (pfczl * (rinvijik - costijk / (rij * rij) - p2etapl * e.rijs / rij)
        + pr1 * plambda)
      p2 := fg * (pfczl * (rinvijik - costijk / (rik * rik) - p2etapl * e.riks / rik)
        + pr2 * plambda)
      p3 := fg * (pfczl * (rinvijik + p2etapl * e.rjks / rjk) - pr3 * plambda) })
  else some (e, ⟨value, 0, 0, 0⟩)

/-- Member of a Gaussian angular group for a pair. -/
noncomputable def bodyExp (g : SymGrp) (derivatives : Bool) (m : GrpMember)
    (nj nk : Neighbor) (pij pik : ℝ × ℝ) (e : ExpShift) : Option (ExpShift × SymFnc.PairTerm) :=
  match g.kind with
  | .ExpAngn => bodyExpAngn g.fc derivatives m nj nk pij pik e
  | .ExpAngw => bodyExpAngw derivatives m nj nk pij pik e
  | _ => bodyExpAngnWeighted g.fc (g.pairWeight m nj nk) derivatives m nj nk pij pik e

/-- Loop over members: member `l`. -/
noncomputable def expAngMember (g : SymGrp) (derivatives : Bool) (j k : ℕ) (nj nk : Neighbor)
    (pij pik : ℝ × ℝ) (s : ExpShift × Buf × Atom) (l : ℕ) : Option (ExpShift × Buf × Atom) := do
  let m ← g.rows[l]?
  let (e, t) ← g.bodyExp derivatives m nj nk pij pik s.1
  let res := s.2.1.set l (s.2.1 l + t.value)
  if derivatives then
    let a ← savePair m j k nj nk t.p1 t.p2 t.p3 s.2.2
    some (e, res, a)
  else some (e, res, s.2.2)

open Classical in
/-- Loop over the second neighbour (SymGrpExpAngn.cpp:205-390, SymGrpExpAngw.cpp:202-363,
SymGrpExpAngnWeighted.cpp:215-376). Types 3 and 9 look at the cache indices of the second neighbour
to decide whether its values are cached, type 13 at those of the first. -/
noncomputable def expAngStep (g : SymGrp) (derivatives : Bool) (j : ℕ) (pij : ℝ × ℝ)
    (s : Buf × Atom) (k : ℕ) : Option (Buf × Atom) := do
  let nj ← s.2.neighbors[j]?
  let nk ← s.2.neighbors[k]?
  if g.selK nj nk then
    let cj ← g.firstCache nj.element
    let ck ← g.firstCache nk.element
    let (pik, nk) ← cachedFdf g.fc.fdf (if g.kind = .ExpAngnWeighted then cj else ck) ck nk
    let r ← (List.range g.rows.length).foldlM (g.expAngMember derivatives j k nj nk pij pik)
      (⟨0, 0, 0, 0⟩, s.1, s.2.setNeighbor k nk)
    some r.2
  else some s

open Classical in
/-- Loop over the first neighbour (SymGrpExpAngn.cpp:175-390 and the same lines in the other files);
`m` is `numNeighbors`. -/
noncomputable def expAngOuterStep (g : SymGrp) (derivatives : Bool) (m : ℕ) (s : Buf × Atom)
    (j : ℕ) : Option (Buf × Atom) := do
  let nj ← s.2.neighbors[j]?
  if g.selJ nj then
    let cj ← g.firstCache nj.element
    let (pij, nj) ← cachedFdf g.fc.fdf cj cj nj
    (List.range' (j + 1) (m - (j + 1))).foldlM (g.expAngStep derivatives j pij)
      (s.1, s.2.setNeighbor j nj)
  else some s

/-- SymGrpExpAngn.cpp:156-403, SymGrpExpAngw.cpp:156-376, SymGrpExpAngnWeighted.cpp:167-389. -/
noncomputable def expAngCalculate (g : SymGrp) (a : Atom) (derivatives : Bool) : Option Atom := do
  let m := if g.bound a = 0 then 1 else g.bound a
  let s ← (List.range (m - 1)).foldlM (g.expAngOuterStep derivatives m) (fun _ => 0, a)
  g.assign (fun m => fdiv m.factorNorm m.scalingFactor) s.1 s.2

/-! #### Compact angular types -/

open Classical in
/-- Radial part for the first neighbour (SymGrpCompAngn.cpp:175-199, SymGrpCompAngw.cpp:160-184,
SymGrpCompAngnWeighted.cpp:164-188, SymGrpCompAngwWeighted.cpp:146-170): member `l`. The state are
`radij` with `dradij` and the atom. -/
noncomputable def compRadij (g : SymGrp) (j : ℕ) (s : (ℕ → ℝ × ℝ) × Atom) (l : ℕ) :
    Option ((ℕ → ℝ × ℝ) × Atom) := do
  let m ← g.rows[l]?
  let n ← s.2.neighbors[j]?
  if m.sf.rl < n.d ∧ n.d < m.sf.rc then
    let ci ← m.sf.cacheIndices[n.element]?
    let (p, n) ← cachedFdf m.sf.cr.fdf ci ci n
    some (Function.update s.1 l p, s.2.setNeighbor j n)
  else some (Function.update s.1 l (0, (s.1 l).2), s.2)

/-- `skip`, and `radjk` with `dradjk` (not initialised before the first member). -/
structure CompState where
  skip : Bool
  jk : Option (ℝ × ℝ)

/-- Narrow types have a factor for the distance between the neighbours. -/
def narrow (g : SymGrp) : Bool :=
  match g.kind with
  | .CompAngn | .CompAngnWeighted => true
  | _ => false

/-- The break conditions (SymGrpCompAngn.cpp:264-267, SymGrpCompAngw.cpp:239-241). -/
def compBreak (g : SymGrp) (m : GrpMember) (radij rik rjk acostijk : ℝ) : Prop :=
  radij = 0 ∨ rik ≤ m.sf.rl ∨ m.sf.rc ≤ rik ∨
    (g.narrow = true ∧ (rjk ≤ m.sf.rl ∨ m.sf.rc ≤ rjk)) ∨
    acostijk ≤ m.sf.angleLeft * Real.pi / 180 ∨ m.sf.angleRight * Real.pi / 180 ≤ acostijk

open Classical in
/-- The prefactors of the distance vectors (SymGrpCompAngn.cpp:303-338, SymGrpCompAngw.cpp:268-299,
SymGrpCompAngnWeighted.cpp:292-327, SymGrpCompAngwWeighted.cpp:254-285). `q` are value and
derivative of the angular function, `z` the product of the atomic numbers, `pjk` is `(1, 0)` for the
wide types. The inner `none` is `continue`. -/
noncomputable def compPrefactors (m : GrpMember) (z rij rik rjk costijk : ℝ)
    (pij pik pjk q : ℝ × ℝ) : Option (ℝ × ℝ × ℝ) :=
  let rinvijik := 1 / (rij * rik)
  let rinvij := rinvijik * rik
  let rinvik := rinvijik * rij
  let rinvjk := 1 / rjk
  let rad := pij.1 * pik.1 * pjk.1
  let ang := q.1 * z
  let dang := q.2 * (-1 / √(1 - costijk * costijk))
  let phiijik := rinvij * (rinvik - rinvij * costijk) * dang
  let phiikij := rinvik * (rinvij - rinvik * costijk) * dang
  let psiijik := rinvijik * dang
  let chiij := rinvij * pij.2 * pik.1 * pjk.1
  let chiik := rinvik * pij.1 * pik.2 * pjk.1
  let chijk := -rinvjk * pij.1 * pik.1 * pjk.2
  if dang ≠ 0 ∧ rad ≠ 0 then
    let rad := rad * (m.scalingFactor * z)
    let ang := ang * m.scalingFactor
    some (rad * phiijik + ang * chiij, rad * phiikij + ang * chiik, rad * psiijik + ang * chijk)
  else if ang ≠ 0 then
    let ang := ang * m.scalingFactor
    some (ang * chiij, ang * chiik, ang * chijk)
  else none

open Classical in
/-- Loop over members (SymGrpCompAngn.cpp:261-388, SymGrpCompAngw.cpp:236-349,
SymGrpCompAngnWeighted.cpp:247-377, SymGrpCompAngwWeighted.cpp:219-335): member `l`. For the wide
types the factor for the distance between the neighbours is one. -/
noncomputable def compAngMember (g : SymGrp) (derivatives : Bool) (j k : ℕ)
    (radij : ℕ → ℝ × ℝ) (s : CompState × Buf × Atom) (l : ℕ) :
    Option (CompState × Buf × Atom) := do
  let m ← g.rows[l]?
  let nj ← s.2.2.neighbors[j]?
  let nk ← s.2.2.neighbors[k]?
  let rjk := √(nk.dr - nj.dr).norm2
  let costijk := nj.dr.dot nk.dr * (1 / (nj.d * nk.d))
  let acostijk := Real.arccos costijk
  if g.compBreak m (radij l).1 nk.d rjk acostijk then some ({ s.1 with skip := true }, s.2)
  else do
    let ck ← m.sf.cacheIndices[nk.element]?
    let (pik, nk) ← cachedFdf m.sf.cr.fdf ck ck nk
    let a := s.2.2.setNeighbor k nk
    let c : CompState :=
      if g.narrow then
        if m.fresh ∨ s.1.skip then ⟨false, some (m.sf.cr.fdf rjk)⟩ else s.1
      else ⟨false, some (1, 0)⟩
    let pjk ← c.jk
    let q := m.sf.ca.fdf acostijk
    let z := g.pairWeight m nj nk
    let res := s.2.1.set l (s.2.1 l + (radij l).1 * pik.1 * pjk.1 * (q.1 * z))
    if derivatives then
      match compPrefactors m z nj.d nk.d rjk costijk (radij l) pik pjk q with
      | none => some (c, res, a)
      | some t => do
        let a ← savePair m j k nj nk t.1 t.2.1 t.2.2 a
        some (c, res, a)
    else some (c, res, a)

open Classical in
/-- Loop over the second neighbour (SymGrpCompAngn.cpp:204-391, SymGrpCompAngw.cpp:189-352,
SymGrpCompAngnWeighted.cpp:193-379, SymGrpCompAngwWeighted.cpp:175-337). -/
noncomputable def compAngStep (g : SymGrp) (derivatives : Bool) (j : ℕ) (radij : ℕ → ℝ × ℝ)
    (s : Buf × Atom) (k : ℕ) : Option (Buf × Atom) := do
  let nj ← s.2.neighbors[j]?
  let nk ← s.2.neighbors[k]?
  let costijk := nj.dr.dot nk.dr * (1 / (nj.d * nk.d))
  if g.selK nj nk ∧ ¬ (costijk ≤ -1 ∨ 1 ≤ costijk) then
    let r ← (List.range g.rows.length).foldlM (g.compAngMember derivatives j k radij)
      (⟨false, none⟩, s)
    some r.2
  else some s

open Classical in
/-- Loop over the first neighbour (SymGrpCompAngn.cpp:165-394 and the same lines in the other
files); `m` is `numNeighbors`. The arrays `radij`, `dradij` are kept from neighbour to neighbour. -/
noncomputable def compAngOuterStep (g : SymGrp) (derivatives : Bool) (m : ℕ)
    (s : (ℕ → ℝ × ℝ) × Buf × Atom) (j : ℕ) : Option ((ℕ → ℝ × ℝ) × Buf × Atom) := do
  let nj ← s.2.2.neighbors[j]?
  if g.selJ nj then
    let (radij, a) ← (List.range g.rows.length).foldlM (g.compRadij j) (s.1, s.2.2)
    let r ← (List.range' (j + 1) (m - (j + 1))).foldlM (g.compAngStep derivatives j radij)
      (s.2.1, a)
    some (radij, r)
  else some s

/-- SymGrpCompAngn.cpp:146-405, SymGrpCompAngw.cpp:134-366, SymGrpCompAngnWeighted.cpp:134-393,
SymGrpCompAngwWeighted.cpp:119-351. -/
noncomputable def compAngCalculate (g : SymGrp) (a : Atom) (derivatives : Bool) : Option Atom := do
  let m := if g.bound a = 0 then 1 else g.bound a
  let s ← (List.range (m - 1)).foldlM (g.compAngOuterStep derivatives m)
    (fun _ => (0, 0), fun _ => 0, a)
  g.assign (fun _ => some 1) s.2.1 s.2.2

/-- The virtual function `calculate(atom, derivatives)`. The types 3, 9, 12 and 13 use
`members.at(0)`. The atomic numbers are assumed known (the code throws for an unknown symbol). -/
noncomputable def calculate (g : SymGrp) (a : Atom) (derivatives : Bool) : Option Atom :=
  match g.kind with
  | .ExpRad => do g.cacheAtE1; g.expRadCalculate a derivatives
  | .ExpRadWeighted => do let _ ← g.rows[0]?; g.expRadCalculate a derivatives
  | .CompRad | .CompRadWeighted => g.compRadCalculate a derivatives
  | .ExpAngn | .ExpAngw | .ExpAngnWeighted => do
    let _ ← g.rows[0]?; g.expAngCalculate a derivatives
  | .CompAngn | .CompAngw | .CompAngnWeighted | .CompAngwWeighted =>
    g.compAngCalculate a derivatives

end SymGrp

/-- Element.cpp:449-460 `Element::calculateSymmetryFunctionGroups`. -/
noncomputable def calculateSymmetryFunctionGroups (gs : List SymGrp) (a : Atom)
    (derivatives : Bool) : Option Atom :=
  gs.foldlM (fun a g => g.calculate a derivatives) a

end N2P2
