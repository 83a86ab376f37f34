import Verif.Model.SymFnc
import Verif.Spec.Cutoff

/-! Vocabulary for the symmetry function properties: the formulas of the documentation, written for
an environment given as a list of neighbours (element and vector from neighbour to central atom). -/

namespace N2P2

/-- A neighbour as seen by the formulas. -/
structure Site where
  element : ℕ
  dr : Vec3

/-- Sum over all unordered pairs of entries of a list. -/
def pairSum {α : Type} (f : α → α → ℝ) : List α → ℝ
  | [] => 0
  | x :: xs => (xs.map (f x)).sum + pairSum f xs

/-- Cosine of the angle between two vectors. -/
noncomputable def cosAngle (u v : Vec3) : ℝ := u.dot v / (u.norm * v.norm)

namespace SymFnc

open Classical in
/-- A compact function, continued by zero outside its support `(l, r)`. -/
noncomputable def compact (c : CompactFunction) (l r x : ℝ) : ℝ :=
  if l < x ∧ x < r then c.f x else 0

/-- Gaussian around the shift. -/
noncomputable def gauss (S : SymFnc) (r : ℝ) : ℝ := Real.exp (-S.eta * (r - S.rs) ^ 2)

/-- `2^(1-ζ) (1 + λ cos θ)^ζ`; a negative base counts as zero (possible only for |λ| > 1). -/
noncomputable def angularFactor (S : SymFnc) (c : ℝ) : ℝ :=
  2 ^ (1 - S.zeta) * max 0 (1 + S.lambda * c) ^ S.zeta

open Classical in
/-- One if the elements of the two neighbours are those of the function, zero otherwise. -/
noncomputable def ofPair (S : SymFnc) (x y : Site) : ℝ :=
  if (x.element = S.e1 ∧ y.element = S.e2) ∨ (x.element = S.e2 ∧ y.element = S.e1) then 1 else 0

/-- Atomic number of a neighbour. -/
noncomputable def Z (S : SymFnc) (x : Site) : ℝ := S.atomicNumber x.element

/-- Compact radial function of the distance. -/
noncomputable def radial (S : SymFnc) (r : ℝ) : ℝ := compact S.cr S.rl S.rc r

/-- Compact function of the angle. -/
noncomputable def angular (S : SymFnc) (u v : Vec3) : ℝ :=
  compact S.ca S.angleLeftRadians S.angleRightRadians (Real.arccos (cosAngle u v))

open Classical in
/-- Summand of the documented formula of a radial function (zero for the angular ones). -/
noncomputable def siteTerm (S : SymFnc) (x : Site) : ℝ :=
  let r := x.dr.norm
  match S.kind with
  | .ExpRad => if x.element = S.e1 then S.gauss r * S.fc.f r else 0
  | .ExpRadWeighted => S.Z x * S.gauss r * S.fc.f r
  | .CompRad => if x.element = S.e1 then S.radial r else 0
  | .CompRadWeighted => S.Z x * S.radial r
  | _ => 0

/-- Summand of the documented formula of an angular function (zero for the radial ones). -/
noncomputable def pairTerm (S : SymFnc) (x y : Site) : ℝ :=
  let rx := x.dr.norm
  let ry := y.dr.norm
  let rxy := (x.dr - y.dr).norm
  let expAng := S.angularFactor (cosAngle x.dr y.dr)
    * (S.gauss rx * S.gauss ry) * (S.fc.f rx * S.fc.f ry)
  let compAng := S.angular x.dr y.dr * (S.radial rx * S.radial ry)
  match S.kind with
  | .ExpAngn => S.ofPair x y * (expAng * S.gauss rxy * S.fc.f rxy)
  | .ExpAngw => S.ofPair x y * expAng
  | .ExpAngnWeighted => S.Z x * S.Z y * (expAng * S.gauss rxy * S.fc.f rxy)
  | .CompAngn => S.ofPair x y * (compAng * S.radial rxy)
  | .CompAngw => S.ofPair x y * compAng
  | .CompAngnWeighted => S.Z x * S.Z y * (compAng * S.radial rxy)
  | .CompAngwWeighted => S.Z x * S.Z y * compAng
  | _ => 0

/-- The documented formula of a symmetry function: a sum over neighbours or over unordered pairs of
neighbours. -/
noncomputable def formula (S : SymFnc) (env : List Site) : ℝ :=
  (env.map S.siteTerm).sum + pairSum S.pairTerm env

/-- The types built from Gaussians and a cutoff function. -/
def IsExp (S : SymFnc) : Prop :=
  S.kind = .ExpRad ∨ S.kind = .ExpAngn ∨ S.kind = .ExpAngw ∨ S.kind = .ExpRadWeighted ∨
    S.kind = .ExpAngnWeighted

/-- The types with an angular part. -/
def IsAng (S : SymFnc) : Prop :=
  S.kind ≠ .ExpRad ∧ S.kind ≠ .ExpRadWeighted ∧ S.kind ≠ .CompRad ∧ S.kind ≠ .CompRadWeighted

/-- The parameters are as after `setParameters` of a line with exponent ζ > 0: cutoff and compact
functions were set up with the stored radii and angles, and the integer power is used only for an
integer exponent. -/
structure Valid (S : SymFnc) : Prop where
  rc_pos : 0 < S.rc
  fc : S.IsExp → ∃ t α, S.fc.Configured t S.rc α
  cr : ¬ S.IsExp → ∃ t as, S.cr.Configured t as S.rl S.rc
  ca : ¬ S.IsExp → S.IsAng → ∃ t as,
    S.ca.Configured t as S.angleLeftRadians S.angleRightRadians
  zeta : S.IsExp → S.IsAng → 0 < S.zeta
  pow : S.IsExp → S.IsAng → S.useIntegerPow = true → S.zeta = S.zetaInt ∧ S.zetaInt < 2 ^ 31

end SymFnc

/-- The environment of an atom. -/
def Atom.env (a : Atom) : List Site := a.neighbors.map fun n => ⟨n.element, n.dr⟩

/-- The environment of an atom whose neighbours have been moved. -/
def Atom.envAt (a : Atom) (dr : ℕ → Vec3) : List Site :=
  a.neighbors.mapIdx fun k n => ⟨n.element, dr k⟩

/-- The scaling parameters come from `setScalingType`. -/
def SymFnc.Scaled (S : SymFnc) : Prop :=
  ∃ old t l Smin Smax, setScalingType old t l Smin Smax = some S.sc

/-- The derivative of the symmetry function with respect to a neighbour, as stored with the
neighbour (zero if no memory is provided). -/
def SymFnc.stored (S : SymFnc) (n : Neighbor) : Vec3 :=
  if S.checkRelevantElement n.element then
    match S.indexPerElement[n.element]? with
    | some i => (n.dGdr[i]?).getD 0
    | none => 0
  else 0

/-- A triplet on which the compact angular functions follow the formula: if it is collinear the
angular part vanishes (true if the angular support lies between 0 and 180 degrees), for the
exponential core function the angle is not exactly at the end of the support, and the neighbours are
not on top of each other. -/
structure SymFnc.TripletOK (S : SymFnc) (x y : Site) : Prop where
  apart : 0 < (x.dr - y.dr).norm
  collinear : |cosAngle x.dr y.dr| = 1 → S.angular x.dr y.dr = 0
  ends : S.ca.core.type = .EXP → |cosAngle x.dr y.dr| ≠ 1 →
    Real.arccos (cosAngle x.dr y.dr) ≠ S.angleLeftRadians ∧
    Real.arccos (cosAngle x.dr y.dr) ≠ S.angleRightRadians

/-- All triplets of an environment are in order; only needed for the compact angular functions. -/
def SymFnc.TripletsOK (S : SymFnc) (env : List Site) : Prop :=
  ¬ S.IsExp → S.IsAng → env.Pairwise S.TripletOK

/-- The environment is one where the formula is differentiable and the code divides by no zero: no
distance is exactly at the jump of a hard cutoff, the neighbours in an angle are apart from each
other, and the angular power is differentiable. -/
structure SymFnc.Smooth (S : SymFnc) (env : List Site) : Prop where
  hard : S.IsExp → S.fc.cutoffType = .HARD → (∀ x ∈ env, x.dr.norm ≠ S.rc) ∧
    env.Pairwise fun x y => (x.dr - y.dr).norm ≠ S.rc
  apart : S.IsAng → env.Pairwise fun x y => 0 < (x.dr - y.dr).norm
  power : S.IsExp → S.IsAng → 1 < S.zeta ∨ (1 ≤ S.zeta ∧ |S.lambda| ≤ 1) ∨
    env.Pairwise fun x y => 1 + S.lambda * cosAngle x.dr y.dr ≠ 0

/-- No cache is used. -/
def SymFnc.uncached (S : SymFnc) : SymFnc :=
  { S with cacheIndices := S.cacheIndices.map fun _ => [] }

/-- The neighbour list is consistent: stored distances are the lengths of the distance vectors, no
neighbour sits on top of the atom, the number of neighbours is right, and the stored count for `rc`, if there is one, leaves out only
neighbours not closer than `rc`. -/
structure Atom.ListOK (a : Atom) (rc : ℝ) : Prop where
  d : ∀ n ∈ a.neighbors, n.d = n.dr.norm
  pos : ∀ n ∈ a.neighbors, 0 < n.d
  num : a.numNeighbors = a.neighbors.length
  stored_le : a.getStoredMinNumNeighbors rc ≤ a.neighbors.length
  stored : ∀ n ∈ a.neighbors.drop (a.getStoredMinNumNeighbors rc), rc ≤ n.d

/-- The memory needed by `calculate` is there (`Atom::allocate`, `setupSymmetryFunctionMemory`). -/
structure SymFnc.Allocated (S : SymFnc) (a : Atom) (derivatives : Bool) : Prop where
  G : S.index < a.G.length
  dGdr : derivatives = true → S.index < a.dGdr.length
  cache : S.e1 < S.cacheIndices.length ∧ ∀ n ∈ a.neighbors, n.element < S.cacheIndices.length
  slot : derivatives = true → ∀ n ∈ a.neighbors, n.d < S.rc → S.checkRelevantElement n.element →
    ∃ i, S.indexPerElement[n.element]? = some i ∧ i < n.dGdr.length

end N2P2

namespace N2P2

/-! ### Caches -/

/-- Two slots of a neighbour's cache and the function whose value and derivative they hold. -/
structure CacheSlot where
  val : ℕ
  der : ℕ
  fdf : ℝ → ℝ × ℝ

/-- Slots in use for each neighbour element. -/
abbrev CacheLayout := ℕ → List CacheSlot

/-- No slot is used twice. -/
def CacheLayout.Disjoint (L : CacheLayout) : Prop :=
  ∀ e, ∀ c ∈ L e, c.val ≠ c.der ∧ ∀ c' ∈ L e, c = c' ∨
    (c.val ≠ c'.val ∧ c.val ≠ c'.der ∧ c.der ≠ c'.val ∧ c.der ≠ c'.der)

/-- Each slot exists; it is either unused (negative value) or holds what the function gives for the
distance of this neighbour. -/
def Neighbor.CacheOK (L : CacheLayout) (n : Neighbor) : Prop :=
  ∀ c ∈ L n.element, ∃ v w, n.cache[c.val]? = some v ∧ n.cache[c.der]? = some w ∧
    (v < 0 ∨ (v, w) = c.fdf n.d)

/-- All caches of neighbours closer than `R` are in order. -/
def Atom.CacheOK (L : CacheLayout) (R : ℝ) (a : Atom) : Prop :=
  ∀ n ∈ a.neighbors, n.d < R → n.CacheOK L

/-- The function which is cached. -/
noncomputable def SymFnc.cachedFunction (S : SymFnc) : ℝ → ℝ × ℝ :=
  match S.kind with
  | .ExpRad | .ExpAngn | .ExpAngw | .ExpRadWeighted | .ExpAngnWeighted => S.fc.fdf
  | _ => S.cr.fdf

/-- The cache indices of a symmetry function agree with the layout, and for the Gaussian angular
functions either all relevant elements are cached or none is. -/
structure SymFnc.CacheUse (S : SymFnc) (L : CacheLayout) : Prop where
  slots : ∀ e ci, S.checkRelevantElement e → S.cacheIndices[e]? = some ci →
    ci = [] ∨ ∃ c ∈ L e, ci = [c.val, c.der] ∧ c.fdf = S.cachedFunction
  uniform : S.IsExp → S.IsAng → ∀ e e' ci ci', S.checkRelevantElement e → S.checkRelevantElement e' →
    S.cacheIndices[e]? = some ci → S.cacheIndices[e']? = some ci' → (ci = [] ↔ ci' = [])

/-- Everything `calculate` relies on: parameters, neighbour list, memory and caches are in order. -/
structure SymFnc.Ready (S : SymFnc) (a : Atom) (derivatives : Bool) (L : CacheLayout) (R : ℝ) :
    Prop where
  valid : S.Valid
  list : a.ListOK S.rc
  allocated : S.Allocated a derivatives
  triplets : S.TripletsOK a.env
  disjoint : L.Disjoint
  use : S.CacheUse L
  le : S.rc ≤ R
  cache : a.CacheOK L R

/-- Stored value of the symmetry function. -/
def Atom.value (a : Atom) (S : SymFnc) : Option ℝ := a.G[S.index]?

/-- Stored derivative with respect to the position of the atom itself. -/
def Atom.gradSelf (a : Atom) (S : SymFnc) : Vec3 := (a.dGdr[S.index]?).getD 0

/-- Stored derivative with respect to the position of neighbour `k`. -/
def Atom.gradNeighbor (a : Atom) (S : SymFnc) (k : ℕ) : Vec3 :=
  match a.neighbors[k]? with
  | some n => S.stored n
  | none => 0

/-- The atom without its caches. -/
def Atom.forgetCaches (a : Atom) : Atom :=
  { a with neighbors := a.neighbors.map fun n => { n with cache := [] } }

open Classical in
/-- The neighbours closer than `rc`, without their caches. -/
noncomputable def Atom.nearNeighbors (a : Atom) (rc : ℝ) : List Neighbor :=
  a.forgetCaches.neighbors.filter fun n => decide (n.d < rc)

/-- Environment of an atom at `x0` with neighbours of given elements at given positions. -/
def envOf (x0 : Vec3) (others : List (ℕ × Vec3)) : List Site :=
  others.map fun p => ⟨p.1, x0 - p.2⟩

end N2P2
