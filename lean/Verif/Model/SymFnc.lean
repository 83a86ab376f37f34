import Mathlib.Analysis.SpecialFunctions.Trigonometric.Inverse
import Mathlib.Analysis.SpecialFunctions.Pow.Real
import Verif.Model.Cutoff
import Verif.Model.Geometry
import Verif.Model.Scaling
import Verif.Model.Utility

/-! Evaluation of the symmetry functions (SymFnc*.cpp). `double` is ℝ. `none` stands for undefined
behaviour (access outside a vector) or an exception. The build without `N2P2_NO_SF_CACHE` and
without `N2P2_FULL_SFD_MEMORY` is modelled. -/

namespace N2P2

/-- The concrete subclasses of `SymFnc`. -/
inductive SFKind
  | ExpRad | ExpAngn | ExpAngw | ExpRadWeighted | ExpAngnWeighted
  | CompRad | CompAngn | CompAngw | CompRadWeighted | CompAngnWeighted | CompAngwWeighted
  deriving DecidableEq

/-- Members of `SymFnc` (SymFnc.h:265-313) and its subclasses in one record; a subclass uses only
its own members. `sc` holds `ec`, `index`, `type` and the scaling members. `atomicNumber` is
`elementMap.atomicNumber`. -/
structure SymFnc where
  kind : SFKind
  sc : SymFncScaling
  rc : ℝ
  e1 : ℕ
  e2 : ℕ
  eta : ℝ
  rs : ℝ
  lambda : ℝ
  zeta : ℝ
  zetaInt : Int
  useIntegerPow : Bool
  rl : ℝ
  angleLeft : ℝ
  angleRight : ℝ
  angleLeftRadians : ℝ
  angleRightRadians : ℝ
  subtype : Str
  cutoffType : CutoffType
  cutoffAlpha : ℝ
  convLength : ℝ
  fc : CutoffFunction
  cr : CompactFunction
  ca : CompactFunction
  indexPerElement : List ℕ
  cacheIndices : List (List ℕ)
  atomicNumber : ℕ → ℕ

namespace SymFnc

/-- `index` of the function within its element. -/
def index (S : SymFnc) : ℕ := S.sc.index

/-- `scalingFactor`. -/
def sf (S : SymFnc) : ℝ := S.sc.scalingFactor

/-- `checkRelevantElement` (SymFncExpRad.cpp:230-234, SymFncBaseExpAng.cpp:179-183,
SymFncExpRadWeighted.cpp:213-216, SymFncExpAngnWeighted.cpp:338-341, SymFncCompRad.cpp:222-226,
SymFncBaseCompAng.cpp:190-194, SymFncCompRadWeighted.cpp:202-205,
SymFncBaseCompAngWeighted.cpp:169-172). -/
def checkRelevantElement (S : SymFnc) (e : ℕ) : Bool :=
  match S.kind with
  | .ExpRad | .CompRad => e == S.e1
  | .ExpAngn | .ExpAngw | .CompAngn | .CompAngw => e == S.e1 || e == S.e2
  | .ExpRadWeighted | .ExpAngnWeighted | .CompRadWeighted | .CompAngnWeighted
  | .CompAngwWeighted => true

end SymFnc

/-! ### Access to neighbour data -/

open Classical in
/-- Value and derivative of `fdf` at the distance of neighbour `n`, through the cache if `check` is
not empty (e.g. SymFncExpAngn.cpp:104-116). The cache slots are `idx[0]`, `idx[1]`. `none`: access
outside a vector. -/
noncomputable def cachedFdf (fdf : ℝ → ℝ × ℝ) (check idx : List ℕ) (n : Neighbor) :
    Option ((ℝ × ℝ) × Neighbor) :=
  if check.length = 0 then some (fdf n.d, n)
  else do
    let c0 ← idx[0]?
    let c1 ← idx[1]?
    let v ← n.cache[c0]?
    let _ ← n.cache[c1]?
    let cache := if v < 0 then (n.cache.set c0 (fdf n.d).1).set c1 (fdf n.d).2 else n.cache
    let p ← cache[c0]?
    let dp ← cache[c1]?
    some ((p, dp), { n with cache := cache })

/-- `atom.neighbors[j] = n`. -/
def Atom.setNeighbor (a : Atom) (j : ℕ) (n : Neighbor) : Atom :=
  { a with neighbors := a.neighbors.set j n }

/-- `atom.dGdr[i] += v`. -/
def Atom.addDGdr (a : Atom) (i : ℕ) (v : Vec3) : Option Atom := do
  let old ← a.dGdr[i]?
  some { a with dGdr := a.dGdr.set i (old + v) }

/-- `atom.neighbors[j].dGdr[i] -= v`. -/
def Atom.subNeighborDGdr (a : Atom) (j i : ℕ) (v : Vec3) : Option Atom := do
  let n ← a.neighbors[j]?
  let old ← n.dGdr[i]?
  some (a.setNeighbor j { n with dGdr := n.dGdr.set i (old - v) })

/-- `atom.G[i] = v`. -/
def Atom.setG (a : Atom) (i : ℕ) (v : ℝ) : Option Atom := do
  let _ ← a.G[i]?
  some { a with G := a.G.set i v }

/-! ### Radial functions -/

/-- What distinguishes the radial types: loop bound, condition on the neighbour, cached function,
summand and prefactor of the derivative. -/
structure RadialKernel where
  bound : Atom → ℕ
  sel : Neighbor → Prop
  fdf : ℝ → ℝ × ℝ
  term : Neighbor → ℝ × ℝ → ℝ
  p1 : Neighbor → ℝ × ℝ → ℝ

namespace SymFnc

open Classical in
/-- Loop body for neighbour `j`; the state is `result` and the atom (SymFncExpRad.cpp:139-178,
SymFncExpRadWeighted.cpp:123-164, SymFncCompRad.cpp:140-177, SymFncCompRadWeighted.cpp:124-163). -/
noncomputable def radialStep (S : SymFnc) (K : RadialKernel) (derivatives : Bool) (s : ℝ × Atom)
    (j : ℕ) : Option (ℝ × Atom) := do
  let n ← s.2.neighbors[j]?
  if K.sel n then
    let ci ← S.cacheIndices[n.element]?
    let (p, n) ← cachedFdf K.fdf ci ci n
    let a := s.2.setNeighbor j n
    let result := s.1 + K.term n p
    if derivatives then
      let dij := K.p1 n p • n.dr
      let a ← a.addDGdr S.index dij
      let i ← S.indexPerElement[n.element]?
      let a ← a.subNeighborDGdr j i dij
      some (result, a)
    else some (result, a)
  else some s

/-- The loop over neighbours and the final assignment. -/
noncomputable def radialCalculate (S : SymFnc) (K : RadialKernel) (a : Atom) (derivatives : Bool) :
    Option Atom := do
  let s ← (List.range (K.bound a)).foldlM (S.radialStep K derivatives) (0, a)
  s.2.setG S.index (S.sc.scale s.1)

/-- SymFncExpRad.cpp:139-169. -/
noncomputable def kernelExpRad (S : SymFnc) : RadialKernel where
  bound a := a.getStoredMinNumNeighbors S.rc
  sel n := S.e1 = n.element ∧ n.d < S.rc
  fdf := S.fc.fdf
  term n p :=
    let pexp := Real.exp (-S.eta * (n.d - S.rs) * (n.d - S.rs))
    pexp * p.1
  p1 n p :=
    let pexp := Real.exp (-S.eta * (n.d - S.rs) * (n.d - S.rs))
    S.sf * (p.2 - 2 * S.eta * (n.d - S.rs) * p.1) * pexp / n.d

/-- SymFncExpRadWeighted.cpp:123-156. -/
noncomputable def kernelExpRadWeighted (S : SymFnc) : RadialKernel where
  bound a := a.numNeighbors
  sel n := n.d < S.rc
  fdf := S.fc.fdf
  term n p :=
    let pexp := S.atomicNumber n.element * Real.exp (-S.eta * (n.d - S.rs) * (n.d - S.rs))
    pexp * p.1
  p1 n p :=
    let pexp := S.atomicNumber n.element * Real.exp (-S.eta * (n.d - S.rs) * (n.d - S.rs))
    S.sf * (p.2 - 2 * S.eta * (n.d - S.rs) * p.1) * pexp / n.d

/-- SymFncCompRad.cpp:140-169. -/
noncomputable def kernelCompRad (S : SymFnc) : RadialKernel where
  bound a := a.numNeighbors
  sel n := S.e1 = n.element ∧ S.rl < n.d ∧ n.d < S.rc
  fdf := S.cr.fdf
  term _ p := p.1
  p1 n p := S.sf * p.2 / n.d

/-- SymFncCompRadWeighted.cpp:124-155. -/
noncomputable def kernelCompRadWeighted (S : SymFnc) : RadialKernel where
  bound a := a.numNeighbors
  sel n := S.rl < n.d ∧ n.d < S.rc
  fdf := S.cr.fdf
  term n p := p.1 * S.atomicNumber n.element
  p1 n p := S.sf * S.atomicNumber n.element * p.2 / n.d

/-- SymFncExpRad.cpp:127-137 and SymFncCompRad.cpp:128-138: `cacheIndices.at(e1)` and, if it is not
empty, `.at(0)`, `.at(1)` do not throw. -/
def cacheAtE1 (S : SymFnc) : Option Unit := do
  let ci ← S.cacheIndices[S.e1]?
  if ci.length = 1 then none else some ()

/-! ### Angular functions -/

/-- What an angular function computes for a pair of neighbours: the summand and the prefactors of
the three distance vectors. -/
structure PairTerm where
  value : ℝ
  p1 : ℝ
  p2 : ℝ
  p3 : ℝ

/-- What distinguishes the angular types. `selK` is checked before the cache of neighbour `k` is
used; `checkJ` says whether the test for cached values of `k` looks at the cache indices of the
element of `j`. The inner `none` of `body` is `continue`. `pnorm` is multiplied to the result after
the loops. -/
structure PairKernel where
  bound : Atom → ℕ
  selJ : Neighbor → Prop
  selK : Neighbor → Neighbor → Prop
  fdf : ℝ → ℝ × ℝ
  checkJ : Bool
  body : Neighbor → Neighbor → ℝ × ℝ → ℝ × ℝ → Option (Option PairTerm)
  pnorm : ℝ

open Classical in
/-- Body of the loop over `k` (SymFncExpAngn.cpp:120-216, SymFncExpAngw.cpp:119-199,
SymFncExpAngnWeighted.cpp:188-279, SymFncCompAngn.cpp:112-209, SymFncCompAngw.cpp:110-198,
SymFncCompAngnWeighted.cpp:108-205, SymFncCompAngwWeighted.cpp:106-193). `pij` are the function
values for neighbour `j`. -/
noncomputable def pairStep (S : SymFnc) (K : PairKernel) (derivatives : Bool) (j : ℕ)
    (pij : ℝ × ℝ) (s : ℝ × Atom) (k : ℕ) : Option (ℝ × Atom) := do
  let nj ← s.2.neighbors[j]?
  let nk ← s.2.neighbors[k]?
  if K.selK nj nk then
    let cj ← S.cacheIndices[nj.element]?
    let ck ← S.cacheIndices[nk.element]?
    let (pik, nk) ← cachedFdf K.fdf (if K.checkJ then cj else ck) ck nk
    let a := s.2.setNeighbor k nk
    match ← K.body nj nk pij pik with
    | none => some (s.1, a)
    | some t =>
      let result := s.1 + t.value
      if derivatives then
        let drij := (t.p1 * S.sf) • nj.dr
        let drik := (t.p2 * S.sf) • nk.dr
        let drjk := (t.p3 * S.sf) • (nk.dr - nj.dr)
        let a ← a.addDGdr S.index (drij + drik)
        let ij ← S.indexPerElement[nj.element]?
        let a ← a.subNeighborDGdr j ij (drij + drjk)
        let ik ← S.indexPerElement[nk.element]?
        let a ← a.subNeighborDGdr k ik (drik - drjk)
        some (result, a)
      else some (result, a)
  else some s

open Classical in
/-- Body of the loop over `j`; `m` is `numNeighbors` (SymFncExpAngn.cpp:92-218 and the other files).
-/
noncomputable def pairOuterStep (S : SymFnc) (K : PairKernel) (derivatives : Bool) (m : ℕ)
    (s : ℝ × Atom) (j : ℕ) : Option (ℝ × Atom) := do
  let nj ← s.2.neighbors[j]?
  if K.selJ nj then
    let cj ← S.cacheIndices[nj.element]?
    let (pij, nj) ← cachedFdf K.fdf cj cj nj
    (List.range' (j + 1) (m - (j + 1))).foldlM (S.pairStep K derivatives j pij)
      (s.1, s.2.setNeighbor j nj)
  else some s

/-- The loops over pairs and the final assignment. -/
noncomputable def pairCalculate (S : SymFnc) (K : PairKernel) (a : Atom) (derivatives : Bool) :
    Option Atom := do
  let m := if K.bound a = 0 then 1 else K.bound a
  let s ← (List.range (m - 1)).foldlM (S.pairOuterStep K derivatives m) (0, a)
  s.2.setG S.index (S.sc.scale (s.1 * K.pnorm))

open Classical in
/-- The factor `fg` (SymFncExpAngn.cpp:170-182): `w` times the power of `1 + lambda * cos`. -/
noncomputable def expAngPower (S : SymFnc) (w plambda : ℝ) : Option ℝ :=
  if plambda ≤ 0 then some 0
  else if S.useIntegerPow then (powInt plambda (S.zetaInt - 1)).map (w * ·)
  else some (w * plambda ^ (S.zeta - 1))

/-- SymFncExpAngn.cpp:147-199 and, with the weight `w`, SymFncExpAngnWeighted.cpp:211-263. -/
noncomputable def bodyExpAngn (S : SymFnc) (w : Neighbor → Neighbor → ℝ) (nj nk : Neighbor)
    (pij pik : ℝ × ℝ) : Option (Option PairTerm) := do
  let rij := nj.d
  let rik := nk.d
  let rjk := √(nk.dr - nj.dr).norm2
  let pjk := S.fc.fdf rjk
  let rinvijik := 1 / rij / rik
  let costijk := nj.dr.dot nk.dr * rinvijik
  let pfc := pij.1 * pik.1 * pjk.1
  let rijs := rij - S.rs
  let riks := rik - S.rs
  let rjks := rjk - S.rs
  let pexp := w nj nk * Real.exp (-S.eta * (rijs * rijs + riks * riks + rjks * rjks))
  let plambda := 1 + S.lambda * costijk
  let fg ← S.expAngPower pexp plambda
  let value := fg * plambda * pfc
  let fg := fg * (2 : ℝ) ^ (1 - S.zeta)
  let rinvijik := rinvijik * (S.zeta * S.lambda)
  let costijk := costijk * (S.zeta * S.lambda)
  let p2etapl := 2 * S.eta * plambda
  some (some
    { value := value
      p1 := (fg * (pfc * (rinvijik - costijk / (rij * rij) - p2etapl * rijs / rij)
        + pik.1 * pjk.1 * pij.2 * plambda / rij))
      p2 := (fg * (pfc * (rinvijik - costijk / (rik * rik) - p2etapl * riks / rik)
        + pij.1 * pjk.1 * pik.2 * plambda / rik))
      p3 := (fg * (pfc * (rinvijik + p2etapl * rjks / rjk)
        - pij.1 * pik.1 * pjk.2 * plambda / rjk)) })

/-- SymFncExpAngw.cpp:142-183. -/
noncomputable def bodyExpAngw (S : SymFnc) (nj nk : Neighbor) (pij pik : ℝ × ℝ) :
    Option (Option PairTerm) := do
  let rij := nj.d
  let rik := nk.d
  let rinvijik := 1 / rij / rik
  let costijk := nj.dr.dot nk.dr * rinvijik
  let pfc := pij.1 * pik.1
  let rijs := rij - S.rs
  let riks := rik - S.rs
  let pexp := Real.exp (-S.eta * (rijs * rijs + riks * riks))
  let plambda := 1 + S.lambda * costijk
  let fg ← S.expAngPower pexp plambda
  let value := fg * plambda * pfc
  let fg := fg * (2 : ℝ) ^ (1 - S.zeta)
  let rinvijik := rinvijik * (S.zeta * S.lambda)
  let costijk := costijk * (S.zeta * S.lambda)
  let p2etapl := 2 * S.eta * plambda
  some (some
    { value := value
      p1 := (fg * (pfc * (rinvijik - costijk / (rij * rij) - p2etapl * rijs / rij)
        + pik.1 * pij.2 * plambda / rij))
      p2 := (fg * (pfc * (rinvijik - costijk / (rik * rik) - p2etapl * riks / rik)
        + pij.1 * pik.2 * plambda / rik))
      p3 := fg * pfc * rinvijik })

open Classical in
/-- SymFncCompAngn.cpp:148-195 and, with the weight `w`, SymFncCompAngnWeighted.cpp:143-191. -/
noncomputable def bodyCompAngn (S : SymFnc) (w : Neighbor → Neighbor → ℝ) (nj nk : Neighbor)
    (pij pik : ℝ × ℝ) : Option (Option PairTerm) :=
  let rij := nj.d
  let rik := nk.d
  let rjk := √(nk.dr - nj.dr).norm2
  let pjk := S.cr.fdf rjk
  let rinvijik := 1 / rij / rik
  let costijk := nj.dr.dot nk.dr * rinvijik
  if costijk ≤ -1 ∨ 1 ≤ costijk then some none
  else
    let acostijk := Real.arccos costijk
    if acostijk < S.angleLeftRadians ∨ S.angleRightRadians < acostijk then some none
    else
      let q := S.ca.fdf acostijk
      let rad := pij.1 * pik.1 * pjk.1
      let ang := q.1 * w nj nk
      let dang := q.2 * (-1 / √(1 - costijk * costijk)) * w nj nk
      let rinvij := rinvijik * rik
      let rinvik := rinvijik * rij
      let rinvjk := 1 / rjk
      let phiijik := rinvij * (rinvik - rinvij * costijk) * dang
      let phiikij := rinvik * (rinvij - rinvik * costijk) * dang
      let psiijik := rinvijik * dang
      let chiij := rinvij * pij.2 * pik.1 * pjk.1
      let chiik := rinvik * pij.1 * pik.2 * pjk.1
      let chijk := -rinvjk * pij.1 * pik.1 * pjk.2
      some (some
        { value := rad * ang
          p1 := rad * phiijik + ang * chiij
          p2 := rad * phiikij + ang * chiik
          p3 := rad * psiijik + ang * chijk })

open Classical in
/-- SymFncCompAngw.cpp:137-185 and, with the weight `w`, SymFncCompAngwWeighted.cpp:131-180. -/
noncomputable def bodyCompAngw (S : SymFnc) (w : Neighbor → Neighbor → ℝ) (nj nk : Neighbor)
    (pij pik : ℝ × ℝ) : Option (Option PairTerm) :=
  let rij := nj.d
  let rik := nk.d
  let rinvijik := 1 / rij / rik
  let costijk := nj.dr.dot nk.dr * rinvijik
  if costijk ≤ -1 ∨ 1 ≤ costijk then some none
  else
    let acostijk := Real.arccos costijk
    if acostijk < S.angleLeftRadians ∨ S.angleRightRadians < acostijk then some none
    else
      let q := S.ca.fdf acostijk
      let rad := pij.1 * pik.1
      let ang := q.1 * w nj nk
      let dang := q.2 * (-1 / √(1 - costijk * costijk)) * w nj nk
      let rinvij := rinvijik * rik
      let rinvik := rinvijik * rij
      let phiijik := rinvij * (rinvik - rinvij * costijk) * dang
      let phiikij := rinvik * (rinvij - rinvik * costijk) * dang
      let psiijik := rinvijik * dang
      let chiij := rinvij * pik.1 * pij.2
      let chiik := rinvik * pij.1 * pik.2
      some (some
        { value := rad * ang
          p1 := rad * phiijik + ang * chiij
          p2 := rad * phiikij + ang * chiik
          p3 := rad * psiijik })

/-- Condition on the elements of a pair (SymFncExpAngn.cpp:124-125). -/
def pairElements (S : SymFnc) (nj nk : Neighbor) : Prop :=
  (S.e1 = nj.element ∧ S.e2 = nk.element) ∨ (S.e2 = nj.element ∧ S.e1 = nk.element)

/-- Product of the atomic numbers. -/
noncomputable def pairWeight (S : SymFnc) (nj nk : Neighbor) : ℝ :=
  (S.atomicNumber nj.element * S.atomicNumber nk.element : ℕ)

/-- SymFncExpAngn.cpp:79-225. -/
noncomputable def kernelExpAngn (S : SymFnc) : PairKernel where
  bound a := a.getStoredMinNumNeighbors S.rc
  selJ n := (S.e1 = n.element ∨ S.e2 = n.element) ∧ n.d < S.rc
  selK nj nk := S.pairElements nj nk ∧ nk.d < S.rc ∧ (nk.dr - nj.dr).norm2 < S.rc * S.rc
  fdf := S.fc.fdf
  checkJ := true
  body := S.bodyExpAngn fun _ _ => 1
  pnorm := 2 ^ (1 - S.zeta)

/-- SymFncExpAngw.cpp:79-208. -/
noncomputable def kernelExpAngw (S : SymFnc) : PairKernel where
  bound a := a.numNeighbors
  selJ n := (S.e1 = n.element ∨ S.e2 = n.element) ∧ n.d < S.rc
  selK nj nk := S.pairElements nj nk ∧ nk.d < S.rc
  fdf := S.fc.fdf
  checkJ := true
  body := S.bodyExpAngw
  pnorm := 2 ^ (1 - S.zeta)

/-- SymFncExpAngnWeighted.cpp:147-288. -/
noncomputable def kernelExpAngnWeighted (S : SymFnc) : PairKernel where
  bound a := a.numNeighbors
  selJ n := n.d < S.rc
  selK nj nk := nk.d < S.rc ∧ (nk.dr - nj.dr).norm2 < S.rc * S.rc
  fdf := S.fc.fdf
  checkJ := true
  body := S.bodyExpAngn S.pairWeight
  pnorm := 2 ^ (1 - S.zeta)

open Classical in
/-- SymFncCompAngn.cpp:76-80: `r2l`. -/
noncomputable def r2l (S : SymFnc) : ℝ := if 0 < S.rl then S.rl * S.rl else 0

/-- SymFncCompAngn.cpp:76-216. -/
noncomputable def kernelCompAngn (S : SymFnc) : PairKernel where
  bound a := a.numNeighbors
  selJ n := (S.e1 = n.element ∨ S.e2 = n.element) ∧ n.d < S.rc ∧ S.rl < n.d
  selK nj nk := S.pairElements nj nk ∧ (nk.d < S.rc ∧ S.rl < nk.d) ∧
    ¬ (S.rc * S.rc ≤ (nk.dr - nj.dr).norm2 ∨ (nk.dr - nj.dr).norm2 ≤ S.r2l)
  fdf := S.cr.fdf
  checkJ := false
  body := S.bodyCompAngn fun _ _ => 1
  pnorm := 1

/-- SymFncCompAngw.cpp:76-205. -/
noncomputable def kernelCompAngw (S : SymFnc) : PairKernel where
  bound a := a.numNeighbors
  selJ n := (S.e1 = n.element ∨ S.e2 = n.element) ∧ n.d < S.rc ∧ S.rl < n.d
  selK nj nk := S.pairElements nj nk ∧ nk.d < S.rc ∧ S.rl < nk.d
  fdf := S.cr.fdf
  checkJ := false
  body := S.bodyCompAngw fun _ _ => 1
  pnorm := 1

/-- SymFncCompAngnWeighted.cpp:72-212. -/
noncomputable def kernelCompAngnWeighted (S : SymFnc) : PairKernel where
  bound a := a.numNeighbors
  selJ n := n.d < S.rc ∧ S.rl < n.d
  selK nj nk := (nk.d < S.rc ∧ S.rl < nk.d) ∧
    ¬ (S.rc * S.rc ≤ (nk.dr - nj.dr).norm2 ∨ (nk.dr - nj.dr).norm2 ≤ S.r2l)
  fdf := S.cr.fdf
  checkJ := false
  body := S.bodyCompAngn S.pairWeight
  pnorm := 1

/-- SymFncCompAngwWeighted.cpp:72-200. -/
noncomputable def kernelCompAngwWeighted (S : SymFnc) : PairKernel where
  bound a := a.numNeighbors
  selJ n := n.d < S.rc ∧ S.rl < n.d
  selK _ nk := nk.d < S.rc ∧ S.rl < nk.d
  fdf := S.cr.fdf
  checkJ := false
  body := S.bodyCompAngw S.pairWeight
  pnorm := 1

/-- The virtual function `calculate(atom, derivatives)`. The atomic numbers are assumed known (the
code throws for an unknown symbol). -/
noncomputable def calculate (S : SymFnc) (a : Atom) (derivatives : Bool) : Option Atom :=
  match S.kind with
  | .ExpRad => do S.cacheAtE1; S.radialCalculate S.kernelExpRad a derivatives
  | .ExpRadWeighted => S.radialCalculate S.kernelExpRadWeighted a derivatives
  | .CompRad => do S.cacheAtE1; S.radialCalculate S.kernelCompRad a derivatives
  | .CompRadWeighted => S.radialCalculate S.kernelCompRadWeighted a derivatives
  | .ExpAngn => S.pairCalculate S.kernelExpAngn a derivatives
  | .ExpAngw => S.pairCalculate S.kernelExpAngw a derivatives
  | .ExpAngnWeighted => S.pairCalculate S.kernelExpAngnWeighted a derivatives
  | .CompAngn => S.pairCalculate S.kernelCompAngn a derivatives
  | .CompAngw => S.pairCalculate S.kernelCompAngw a derivatives
  | .CompAngnWeighted => S.pairCalculate S.kernelCompAngnWeighted a derivatives
  | .CompAngwWeighted => S.pairCalculate S.kernelCompAngwWeighted a derivatives

end SymFnc

/-- Element.cpp:436-447 `Element::calculateSymmetryFunctions`. -/
noncomputable def calculateSymmetryFunctions (Ss : List SymFnc) (a : Atom) (derivatives : Bool) :
    Option Atom :=
  Ss.foldlM (fun a S => S.calculate a derivatives) a

end N2P2
