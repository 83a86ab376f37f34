import Verif.Spec.Message
import Mathlib.Tactic.Ring
import Mathlib.Tactic.FinCases
import Mathlib.Data.Fintype.Basic
import Mathlib.Tactic.Linarith
import Mathlib.Algebra.BigOperators.Group.List.Basic
import Mathlib.Algebra.BigOperators.Ring.List

/-! Packing and unpacking of structures. -/

namespace N2P2

variable {Byte : Type} (F : MpiFormat Byte)

/-! ### The contents of the buffer -/

def bytesOf (T : MpiType) (vs : List T.Val) : List Byte := vs.flatMap (F.enc T)

def bytesOfList (T : MpiType) (vs : List T.Val) : List Byte :=
  F.enc .sizeT vs.length ++ bytesOf F T vs

def bytesOfVec (v : Vec3) : List Byte := bytesOf F .double v.toList

def bytesOfVecs (vs : List Vec3) : List Byte :=
  F.enc .sizeT vs.length ++ vs.flatMap (bytesOfVec F)

def bytesOfNeighbor (n : Neighbor) : List Byte :=
  F.enc .sizeT n.index ++ (F.enc .int64 n.tag ++ (F.enc .sizeT n.element ++ (F.enc .double n.d ++
    (bytesOfVec F n.dr ++ (bytesOfList F .double n.cache ++ bytesOfVecs F n.dGdr)))))

def bytesOfNeighbors (ns : List Neighbor) : List Byte := ns.flatMap (bytesOfNeighbor F)

def bytesOfAtom (a : Atom) : List Byte :=
  F.enc .char (boolChar a.hasNeighborList) ++ (F.enc .char (boolChar a.hasSymmetryFunctions) ++
  (F.enc .char (boolChar a.hasSymmetryFunctionDerivatives) ++
  (F.enc .char (boolChar a.useChargeNeuron) ++ (F.enc .sizeT a.index ++
  (F.enc .sizeT a.indexStructure ++ (F.enc .int64 a.tag ++ (F.enc .sizeT a.element ++
  (F.enc .sizeT a.numNeighbors ++ (F.enc .sizeT a.numNeighborsUnique ++
  (F.enc .sizeT a.numSymmetryFunctions ++ (F.enc .double a.energy ++ (F.enc .double a.chi ++
  (F.enc .double a.charge ++ (F.enc .double a.chargeRef ++ (bytesOfVec F a.r ++ (bytesOfVec F a.f ++
  (bytesOfVec F a.fRef ++ (bytesOfList F .sizeT a.neighborsUnique ++
  (bytesOfList F .sizeT a.numNeighborsPerElement ++
  (bytesOfList F .sizeT a.numSymmetryFunctionDerivatives ++
  (bytesOfList F .sizeT a.cacheSizePerElement ++ (bytesOfList F .double a.G ++
  (bytesOfList F .double a.dEdG ++ (bytesOfList F .double a.dQdG ++ (bytesOfVecs F a.dGdr ++
  (F.enc .sizeT a.neighbors.length ++ bytesOfNeighbors F a.neighbors))))))))))))))))))))))))))

def bytesOfAtoms (as : List Atom) : List Byte := as.flatMap (bytesOfAtom F)

/-- `vc`, `ve`, `va`: the `size_t` found for the three sizes kept in an `int`. -/
def bytesOfStructure (vc ve va : ℕ) (s : Structure) : List Byte :=
  F.enc .char (boolChar s.isPeriodic) ++ (F.enc .char (boolChar s.isTriclinic) ++
  (F.enc .char (boolChar s.hasNeighborList) ++ (F.enc .char (boolChar s.hasSymmetryFunctions) ++
  (F.enc .char (boolChar s.hasSymmetryFunctionDerivatives) ++ (F.enc .sizeT s.index ++
  (F.enc .sizeT s.numAtoms ++ (F.enc .sizeT s.numElements ++ (F.enc .sizeT s.numElementsPresent ++
  (bytesOf F .int [s.pbc 0, s.pbc 1, s.pbc 2] ++ (F.enc .double s.energy ++
  (F.enc .double s.energyRef ++ (F.enc .double s.charge ++ (F.enc .double s.chargeRef ++
  (F.enc .double s.volume ++ (F.enc .int s.sampleType.toInt ++ (F.enc .sizeT vc ++
  (bytesOf F .char (s.comment ++ [Char.ofNat 0]) ++ (bytesOfVec F (s.box 0) ++
  (bytesOfVec F (s.box 1) ++ (bytesOfVec F (s.box 2) ++ (bytesOfVec F (s.invbox 0) ++
  (bytesOfVec F (s.invbox 1) ++ (bytesOfVec F (s.invbox 2) ++ (F.enc .sizeT ve ++
  (bytesOf F .sizeT s.numAtomsPerElement ++ (F.enc .sizeT va ++
  bytesOfAtoms F s.atoms))))))))))))))))))))))))))

/-! ### Packing -/

/-- Appending to the buffer if there is room. -/
def fit (bs : ℤ) (p x : List Byte) : Option (List Byte) :=
  if (p.length + x.length : ℤ) ≤ bs then some (p ++ x) else none

def Packs (bs : ℤ) (f : List Byte → Option (List Byte)) (x : List Byte) : Prop :=
  ∀ p : List Byte, (p.length : ℤ) ≤ bs → f p = fit bs p x

theorem Packs.step {bs : ℤ} {f g : List Byte → Option (List Byte)} {x y : List Byte}
    (hf : Packs bs f x) {p : List Byte} (hp : (p.length : ℤ) ≤ bs) (hg : Packs bs g y) :
    (f p >>= g) = fit bs p (x ++ y) := by
  rw [hf p hp]
  by_cases h : (p.length + x.length : ℤ) ≤ bs
  · have e : fit bs p x = some (p ++ x) := if_pos h
    rw [e]
    show g (p ++ x) = _
    rw [hg _ (by push_cast [List.length_append]; exact h)]
    unfold fit
    push_cast [List.length_append]
    simp only [List.append_assoc, add_assoc]
  · have e : fit bs p x = none := if_neg h
    have e2 : fit bs p (x ++ y) = none := if_neg (by push_cast [List.length_append]; omega)
    rw [e, e2]
    rfl

theorem Packs.skip (bs : ℤ) : Packs (Byte := Byte) bs some [] := by
  intro p hp
  unfold fit
  rw [if_pos (by simpa using hp), List.append_nil]

theorem length_bytesOf (T : MpiType) (vs : List T.Val) :
    (bytesOf F T vs).length = vs.length * F.size T := by
  induction vs with
  | nil => simp [bytesOf]
  | cons v vs ih =>
    unfold bytesOf at ih ⊢
    rw [List.flatMap_cons, List.length_append, ih, F.length_enc, List.length_cons]
    ring

theorem packs_many (bs : ℤ) (T : MpiType) (vs : List T.Val) :
    Packs bs (mpiPack F bs T vs) (bytesOf F T vs) := by
  intro p _
  unfold mpiPack fit
  rw [length_bytesOf]
  push_cast
  rfl

theorem bytesOf_one (T : MpiType) (v : T.Val) : bytesOf F T [v] = F.enc T v := by
  simp [bytesOf]

theorem packs_one (bs : ℤ) (T : MpiType) (v : T.Val) :
    Packs bs (mpiPack F bs T [v]) (F.enc T v) := by
  rw [← bytesOf_one]
  exact packs_many F bs T [v]

theorem packs_list (bs : ℤ) (T : MpiType) (vs : List T.Val) :
    Packs bs (mpiPackList F bs T vs) (bytesOfList F T vs) := by
  intro p hp
  refine Packs.step (packs_one F bs .sizeT vs.length) hp ?_
  cases vs with
  | nil => exact Packs.skip bs
  | cons v vs => exact packs_many F bs T (v :: vs)

theorem packs_fold {α : Type} (bs : ℤ) (f : List Byte → α → Option (List Byte))
    (enc : α → List Byte) (h : ∀ a, Packs bs (fun p => f p a) (enc a)) (l : List α) :
    Packs bs (fun p => l.foldlM f p) (l.flatMap enc) := by
  induction l with
  | nil => exact Packs.skip bs
  | cons a l ih =>
    intro p hp
    show List.foldlM f p (a :: l) = _
    rw [List.foldlM_cons, List.flatMap_cons]
    exact Packs.step (h a) hp ih

theorem packs_guarded {α : Type} (bs : ℤ) (f : List Byte → α → Option (List Byte))
    (enc : α → List Byte) (h : ∀ a, Packs bs (fun p => f p a) (enc a)) (l : List α) :
    Packs bs (fun p => if 0 < l.length then l.foldlM f p else some p) (l.flatMap enc) := by
  cases l with
  | nil => exact Packs.skip bs
  | cons a l => exact packs_fold bs f enc h (a :: l)

theorem packs_vec (bs : ℤ) (v : Vec3) :
    Packs bs (mpiPack F bs .double v.toList) (bytesOfVec F v) := packs_many F bs .double _

theorem packs_vecs (bs : ℤ) (vs : List Vec3) :
    Packs bs (mpiPackVecs F bs vs) (bytesOfVecs F vs) := by
  intro p hp
  refine Packs.step (packs_one F bs .sizeT vs.length) hp ?_
  exact packs_guarded bs _ _ (packs_vec F bs) vs

theorem packs_neighbor (bs : ℤ) (n : Neighbor) :
    Packs bs (fun p => packNeighbor F bs p n) (bytesOfNeighbor F n) := by
  intro p hp
  refine Packs.step (packs_one F bs .sizeT n.index) hp fun p hp => ?_
  refine Packs.step (packs_one F bs .int64 n.tag) hp fun p hp => ?_
  refine Packs.step (packs_one F bs .sizeT n.element) hp fun p hp => ?_
  refine Packs.step (packs_one F bs .double n.d) hp fun p hp => ?_
  refine Packs.step (packs_vec F bs n.dr) hp fun p hp => ?_
  exact Packs.step (packs_list F bs .double n.cache) hp (packs_vecs F bs n.dGdr)

theorem packs_atom (bs : ℤ) (a : Atom) :
    Packs bs (fun p => packAtom F bs p a) (bytesOfAtom F a) := by
  intro p hp
  refine Packs.step (packs_one F bs .char (boolChar a.hasNeighborList)) hp fun p hp => ?_
  refine Packs.step (packs_one F bs .char (boolChar a.hasSymmetryFunctions)) hp fun p hp => ?_
  refine Packs.step (packs_one F bs .char (boolChar a.hasSymmetryFunctionDerivatives)) hp
    fun p hp => ?_
  refine Packs.step (packs_one F bs .char (boolChar a.useChargeNeuron)) hp fun p hp => ?_
  refine Packs.step (packs_one F bs .sizeT a.index) hp fun p hp => ?_
  refine Packs.step (packs_one F bs .sizeT a.indexStructure) hp fun p hp => ?_
  refine Packs.step (packs_one F bs .int64 a.tag) hp fun p hp => ?_
  refine Packs.step (packs_one F bs .sizeT a.element) hp fun p hp => ?_
  refine Packs.step (packs_one F bs .sizeT a.numNeighbors) hp fun p hp => ?_
  refine Packs.step (packs_one F bs .sizeT a.numNeighborsUnique) hp fun p hp => ?_
  refine Packs.step (packs_one F bs .sizeT a.numSymmetryFunctions) hp fun p hp => ?_
  refine Packs.step (packs_one F bs .double a.energy) hp fun p hp => ?_
  refine Packs.step (packs_one F bs .double a.chi) hp fun p hp => ?_
  refine Packs.step (packs_one F bs .double a.charge) hp fun p hp => ?_
  refine Packs.step (packs_one F bs .double a.chargeRef) hp fun p hp => ?_
  refine Packs.step (packs_vec F bs a.r) hp fun p hp => ?_
  refine Packs.step (packs_vec F bs a.f) hp fun p hp => ?_
  refine Packs.step (packs_vec F bs a.fRef) hp fun p hp => ?_
  refine Packs.step (packs_list F bs .sizeT a.neighborsUnique) hp fun p hp => ?_
  refine Packs.step (packs_list F bs .sizeT a.numNeighborsPerElement) hp fun p hp => ?_
  refine Packs.step (packs_list F bs .sizeT a.numSymmetryFunctionDerivatives) hp fun p hp => ?_
  refine Packs.step (packs_list F bs .sizeT a.cacheSizePerElement) hp fun p hp => ?_
  refine Packs.step (packs_list F bs .double a.G) hp fun p hp => ?_
  refine Packs.step (packs_list F bs .double a.dEdG) hp fun p hp => ?_
  refine Packs.step (packs_list F bs .double a.dQdG) hp fun p hp => ?_
  refine Packs.step (packs_vecs F bs a.dGdr) hp fun p hp => ?_
  refine Packs.step (packs_one F bs .sizeT a.neighbors.length) hp ?_
  exact packs_guarded bs _ _ (packs_neighbor F bs) a.neighbors

theorem toInt32_of_lt {x : ℤ} (h0 : 0 ≤ x) (h : x < 2 ^ 31) : toInt32 x = x := by
  unfold toInt32
  omega

theorem toInt32_le {x : ℤ} (h0 : 0 ≤ x) : toInt32 x ≤ x := by
  unfold toInt32
  omega

theorem toInt32_lt (x : ℤ) : toInt32 x < 2 ^ 31 := by
  unfold toInt32
  omega

theorem packs_counts (bs : ℤ) (l : List ℕ) :
    Packs bs (packElementCounts F bs l.length l) (bytesOf F .sizeT l) := by
  intro p hp
  unfold packElementCounts
  rw [Int.toNat_natCast, List.take_of_length_le le_rfl]
  cases l with
  | nil => exact Packs.skip bs p hp
  | cons v vs =>
    rw [if_pos (by simp)]
    exact packs_many F bs .sizeT (v :: vs) p hp

theorem some_bind_eq {α β : Type} (a : α) (f : α → Option β) : (some a >>= f) = f a := rfl

theorem bind_of_eq {α β : Type} {o : Option α} {a : α} {g : α → Option β} {r : Option β}
    (h : o = some a) (hg : g a = r) : (o >>= g) = r := by
  rw [h]
  exact hg

/-- Everything is packed if it fits. -/
theorem sendStructure_eq (m : IntAsSizeT) (s : Structure) {vc ve va : ℕ}
    (hc : s.comment.length + 1 < 2 ^ 31) (he : s.numAtomsPerElement.length < 2 ^ 31)
    (ha : s.atoms.length < 2 ^ 31) (rc : m.read (s.comment.length + 1 : ℕ) = some vc)
    (re : m.read s.numAtomsPerElement.length = some ve) (ra : m.read s.atoms.length = some va)
    (hb : 0 ≤ calculateBufferSize F s) :
    sendStructure F m s = fit (calculateBufferSize F s) [] (bytesOfStructure F vc ve va s) := by
  have hp : (([] : List Byte).length : ℤ) ≤ calculateBufferSize F s := by simpa using hb
  have tc : toInt32 ((s.comment.length : ℤ) + 1) = ((s.comment.length + 1 : ℕ) : ℤ) := by
    push_cast
    exact toInt32_of_lt (by omega) (by omega)
  have te : toInt32 (s.numAtomsPerElement.length : ℤ) = s.numAtomsPerElement.length :=
    toInt32_of_lt (by omega) (by omega)
  have ta : toInt32 (s.atoms.length : ℤ) = s.atoms.length :=
    toInt32_of_lt (by omega) (by omega)
  unfold sendStructure
  dsimp only
  rw [tc, te, ta, rc, re, ra, if_neg (not_lt.2 hb)]
  generalize calculateBufferSize F s = bs at hp
  have tk : (s.comment ++ [Char.ofNat 0]).take (((s.comment.length + 1 : ℕ) : ℤ)).toNat =
      s.comment ++ [Char.ofNat 0] := by
    rw [Int.toNat_natCast]
    exact List.take_of_length_le (by simp)
  rw [tk]
  refine Packs.step (packs_one F bs .char (boolChar s.isPeriodic)) hp fun p hp => ?_
  refine Packs.step (packs_one F bs .char (boolChar s.isTriclinic)) hp fun p hp => ?_
  refine Packs.step (packs_one F bs .char (boolChar s.hasNeighborList)) hp fun p hp => ?_
  refine Packs.step (packs_one F bs .char (boolChar s.hasSymmetryFunctions)) hp fun p hp => ?_
  refine Packs.step (packs_one F bs .char (boolChar s.hasSymmetryFunctionDerivatives)) hp
    fun p hp => ?_
  refine Packs.step (packs_one F bs .sizeT s.index) hp fun p hp => ?_
  refine Packs.step (packs_one F bs .sizeT s.numAtoms) hp fun p hp => ?_
  refine Packs.step (packs_one F bs .sizeT s.numElements) hp fun p hp => ?_
  refine Packs.step (packs_one F bs .sizeT s.numElementsPresent) hp fun p hp => ?_
  refine Packs.step (packs_many F bs .int [s.pbc 0, s.pbc 1, s.pbc 2]) hp fun p hp => ?_
  refine Packs.step (packs_one F bs .double s.energy) hp fun p hp => ?_
  refine Packs.step (packs_one F bs .double s.energyRef) hp fun p hp => ?_
  refine Packs.step (packs_one F bs .double s.charge) hp fun p hp => ?_
  refine Packs.step (packs_one F bs .double s.chargeRef) hp fun p hp => ?_
  refine Packs.step (packs_one F bs .double s.volume) hp fun p hp => ?_
  refine Packs.step (packs_one F bs .int s.sampleType.toInt) hp fun p hp => ?_
  refine (some_bind_eq vc _).trans ?_
  refine Packs.step (packs_one F bs .sizeT vc) hp fun p hp => ?_
  refine Packs.step (packs_many F bs .char (s.comment ++ [Char.ofNat 0])) hp fun p hp => ?_
  refine Packs.step (packs_vec F bs (s.box 0)) hp fun p hp => ?_
  refine Packs.step (packs_vec F bs (s.box 1)) hp fun p hp => ?_
  refine Packs.step (packs_vec F bs (s.box 2)) hp fun p hp => ?_
  refine Packs.step (packs_vec F bs (s.invbox 0)) hp fun p hp => ?_
  refine Packs.step (packs_vec F bs (s.invbox 1)) hp fun p hp => ?_
  refine Packs.step (packs_vec F bs (s.invbox 2)) hp fun p hp => ?_
  refine (some_bind_eq ve _).trans ?_
  refine Packs.step (packs_one F bs .sizeT ve) hp fun p hp => ?_
  refine Packs.step (packs_counts F bs s.numAtomsPerElement) hp fun p hp => ?_
  refine (some_bind_eq va _).trans ?_
  refine Packs.step (packs_one F bs .sizeT va) hp fun p hp => ?_
  have := packs_guarded bs _ _ (packs_atom F bs) s.atoms p hp
  rw [← show _ = fit bs p (bytesOfAtoms F s.atoms) from this]
  dsimp only
  by_cases h : 0 < s.atoms.length
  · rw [if_pos h, if_pos (by exact_mod_cast h)]
  · rw [if_neg h, if_neg (by exact_mod_cast h)]

/-- What has been read if packing succeeds. -/
theorem sendStructure_reads (m : IntAsSizeT) (s : Structure) {p : List Byte}
    (h : sendStructure F m s = some p) : 0 ≤ calculateBufferSize F s ∧
      (∃ v, m.read (toInt32 (s.comment.length + 1)) = some v) ∧
      (∃ v, m.read (toInt32 s.numAtomsPerElement.length) = some v) ∧
      ∃ v, m.read (toInt32 s.atoms.length) = some v := by
  unfold sendStructure at h
  dsimp only at h
  by_cases hb : calculateBufferSize F s < 0
  · rw [if_pos hb] at h
    cases h
  rw [if_neg hb] at h
  obtain ⟨_, -, h⟩ := Option.bind_eq_some_iff.1 h
  obtain ⟨_, -, h⟩ := Option.bind_eq_some_iff.1 h
  obtain ⟨_, -, h⟩ := Option.bind_eq_some_iff.1 h
  obtain ⟨_, -, h⟩ := Option.bind_eq_some_iff.1 h
  obtain ⟨_, -, h⟩ := Option.bind_eq_some_iff.1 h
  obtain ⟨_, -, h⟩ := Option.bind_eq_some_iff.1 h
  obtain ⟨_, -, h⟩ := Option.bind_eq_some_iff.1 h
  obtain ⟨_, -, h⟩ := Option.bind_eq_some_iff.1 h
  obtain ⟨_, -, h⟩ := Option.bind_eq_some_iff.1 h
  obtain ⟨_, -, h⟩ := Option.bind_eq_some_iff.1 h
  obtain ⟨_, -, h⟩ := Option.bind_eq_some_iff.1 h
  obtain ⟨_, -, h⟩ := Option.bind_eq_some_iff.1 h
  obtain ⟨_, -, h⟩ := Option.bind_eq_some_iff.1 h
  obtain ⟨_, -, h⟩ := Option.bind_eq_some_iff.1 h
  obtain ⟨_, -, h⟩ := Option.bind_eq_some_iff.1 h
  obtain ⟨_, -, h⟩ := Option.bind_eq_some_iff.1 h
  obtain ⟨vc, hc, h⟩ := Option.bind_eq_some_iff.1 h
  obtain ⟨_, -, h⟩ := Option.bind_eq_some_iff.1 h
  obtain ⟨_, -, h⟩ := Option.bind_eq_some_iff.1 h
  obtain ⟨_, -, h⟩ := Option.bind_eq_some_iff.1 h
  obtain ⟨_, -, h⟩ := Option.bind_eq_some_iff.1 h
  obtain ⟨_, -, h⟩ := Option.bind_eq_some_iff.1 h
  obtain ⟨_, -, h⟩ := Option.bind_eq_some_iff.1 h
  obtain ⟨_, -, h⟩ := Option.bind_eq_some_iff.1 h
  obtain ⟨_, -, h⟩ := Option.bind_eq_some_iff.1 h
  obtain ⟨ve, he, h⟩ := Option.bind_eq_some_iff.1 h
  obtain ⟨_, -, h⟩ := Option.bind_eq_some_iff.1 h
  obtain ⟨_, -, h⟩ := Option.bind_eq_some_iff.1 h
  obtain ⟨va, ha, h⟩ := Option.bind_eq_some_iff.1 h
  exact ⟨not_lt.1 hb, ⟨vc, hc⟩, ⟨ve, he⟩, ⟨va, ha⟩⟩

/-! ### The number of bytes -/

theorem length_bytesOfVec (v : Vec3) : (bytesOfVec F v).length = 3 * F.size .double :=
  length_bytesOf F .double v.toList

theorem length_flatMap_sum {α : Type} (enc : α → List Byte) (len : α → ℕ)
    (h : ∀ a, (enc a).length = len a) (l : List α) :
    (l.flatMap enc).length = (l.map len).sum := by
  rw [List.length_flatMap]
  exact congrArg List.sum (List.map_congr_left fun a _ => h a)

theorem length_bytesOfList (T : MpiType) (l : List T.Val) :
    (bytesOfList F T l).length = F.size .sizeT + l.length * F.size T := by
  rw [bytesOfList, List.length_append, F.length_enc, length_bytesOf]

theorem length_bytesOfVecs (l : List Vec3) :
    (bytesOfVecs F l).length = F.size .sizeT + l.length * 3 * F.size .double := by
  rw [bytesOfVecs, List.length_append, F.length_enc,
    length_flatMap_sum _ _ (length_bytesOfVec F), List.map_const', List.sum_replicate, smul_eq_mul,
    mul_assoc]

theorem length_bytesOfNeighbor (n : Neighbor) :
    (bytesOfNeighbor F n).length = n.bufferSize F := by
  simp only [bytesOfNeighbor, List.length_append, F.length_enc, length_bytesOfVec,
    length_bytesOfVecs, length_bytesOfList, Neighbor.bufferSize]
  ring

theorem length_bytesOfAtom (a : Atom) :
    (bytesOfAtom F a).length = 4 * F.size .char + 6 * F.size .sizeT + F.size .int64 +
      4 * F.size .double + 3 * 3 * F.size .double + a.bufferSize F := by
  simp only [bytesOfAtom, bytesOfNeighbors, List.length_append, F.length_enc, length_bytesOfVec,
    length_bytesOfVecs, length_bytesOfList,
    length_flatMap_sum _ _ (length_bytesOfNeighbor F), Atom.bufferSize]
  ring

theorem length_bytesOfStructure (vc ve va : ℕ) (s : Structure) :
    calculateBufferSize F s = toInt32 (bytesOfStructure F vc ve va s).length := by
  unfold calculateBufferSize
  refine congrArg toInt32 (congrArg Nat.cast ?_)
  simp only [bytesOfStructure, bytesOfAtoms, List.length_append, F.length_enc, length_bytesOfVec,
    length_bytesOf, length_flatMap_sum _ _ (length_bytesOfAtom F), List.sum_map_add,
    List.map_const', List.sum_replicate, smul_eq_mul, List.length_cons, List.length_nil]
  ring

theorem Neighbor.bufferSize_eq (n : Neighbor) : n.bufferSize F =
    F.size .int64 + 4 * F.size .sizeT +
      (4 + n.cache.length + 3 * n.dGdr.length) * F.size .double := by
  unfold Neighbor.bufferSize
  ring

theorem neighbors_bufferSize (ns : List Neighbor) : (ns.map (Neighbor.bufferSize F)).sum =
    ns.length * F.size .int64 + 4 * ns.length * F.size .sizeT +
      (ns.map fun n => 4 + n.cache.length + 3 * n.dGdr.length).sum * F.size .double := by
  induction ns with
  | nil => simp
  | cons n ns ih =>
    rw [List.map_cons, List.sum_cons, ih, Neighbor.bufferSize_eq, List.map_cons, List.sum_cons,
      List.length_cons]
    ring

theorem atoms_messageBytes (as : List Atom) : ((as.map fun a => (bytesOfAtom F a).length).sum) =
    4 * as.length * F.size .char + (as.map fun a => 1 + a.neighbors.length).sum * F.size .int64 +
    (as.map fun a => 15 + a.neighborsUnique.length + a.numNeighborsPerElement.length +
      a.numSymmetryFunctionDerivatives.length + a.cacheSizePerElement.length +
      4 * a.neighbors.length).sum * F.size .sizeT +
    (as.map fun a => 13 + a.G.length + a.dEdG.length + a.dQdG.length + 3 * a.dGdr.length +
      (a.neighbors.map fun n => 4 + n.cache.length + 3 * n.dGdr.length).sum).sum *
        F.size .double := by
  induction as with
  | nil => simp
  | cons a as ih =>
    simp only [List.map_cons, List.sum_cons, List.length_cons]
    rw [ih, length_bytesOfAtom, Atom.bufferSize, neighbors_bufferSize]
    ring

theorem length_messageBytes (vc ve va : ℕ) (s : Structure) :
    (bytesOfStructure F vc ve va s).length = s.messageBytes F := by
  simp only [bytesOfStructure, bytesOfAtoms, List.length_append, F.length_enc, length_bytesOfVec,
    length_bytesOf, length_flatMap_sum _ _ (fun a => Eq.refl (bytesOfAtom F a).length),
    List.length_cons, List.length_nil]
  rw [atoms_messageBytes]
  unfold Structure.messageBytes Structure.tags Structure.sizes Structure.doubles
  ring

/-! ### Unpacking -/

def Unpacks {α : Type} (r : Recv Byte α) (x : List Byte) (v : α) : Prop :=
  ∀ rest : List Byte, r (x ++ rest) = some (v, rest)

theorem Unpacks.step {α β : Type} {r : Recv Byte α} {x y rest : List Byte} {v : α}
    {g : α × List Byte → Option β} {o : Option β} (h : Unpacks r x v)
    (hg : g (v, y ++ rest) = o) : (r ((x ++ y) ++ rest) >>= g) = o := by
  rw [List.append_assoc, h]
  exact hg

theorem decodeAll_bytesOf (T : MpiType) (vs : List T.Val) (rest : List Byte) :
    decodeAll F T vs.length (bytesOf F T vs ++ rest) = vs := by
  induction vs with
  | nil => rfl
  | cons v vs ih =>
    have e : bytesOf F T (v :: vs) ++ rest = F.enc T v ++ (bytesOf F T vs ++ rest) := by
      simp [bytesOf]
    rw [e, List.length_cons, decodeAll, ← F.length_enc T v, List.take_left, List.drop_left, ih,
      F.dec_enc]

theorem unpacks_many (T : MpiType) (vs : List T.Val) :
    Unpacks (mpiUnpack F T vs.length) (bytesOf F T vs) vs := by
  intro rest
  unfold mpiUnpack
  rw [if_pos (by rw [List.length_append, length_bytesOf]; omega), decodeAll_bytesOf,
    ← length_bytesOf, List.drop_left]

theorem unpacks_one (T : MpiType) (v : T.Val) : Unpacks (mpiUnpack1 F T) (F.enc T v) v := by
  intro rest
  have := unpacks_many F T [v] rest
  rw [bytesOf_one] at this
  unfold mpiUnpack1
  rw [show mpiUnpack F T 1 (F.enc T v ++ rest) = _ from this]
  rfl

theorem charBool_boolChar (b : Bool) : charBool (boolChar b) = b := by
  cases b <;> decide

theorem unpacks_bool (b : Bool) : Unpacks (mpiUnpackBool F) (F.enc .char (boolChar b)) b := by
  intro rest
  unfold mpiUnpackBool
  rw [unpacks_one F .char (boolChar b) rest]
  show some (charBool (boolChar b), rest) = _
  rw [charBool_boolChar]

theorem Vec3.ofList_toList (v : Vec3) : Vec3.ofList v.toList = v := by
  funext i
  fin_cases i <;> rfl

theorem unpacks_vec (v : Vec3) : Unpacks (mpiUnpackVec F) (bytesOfVec F v) v := by
  intro rest
  unfold mpiUnpackVec
  rw [show mpiUnpack F .double 3 (bytesOfVec F v ++ rest) = _ from
    unpacks_many F .double v.toList rest]
  show some (Vec3.ofList v.toList, rest) = _
  rw [Vec3.ofList_toList]

theorem unpacks_recvMany {α β : Type} (r : Recv Byte β) (enc : α → List Byte) (g : α → β)
    (h : ∀ a, Unpacks r (enc a) (g a)) (l : List α) :
    Unpacks (recvMany r l.length) (l.flatMap enc) (l.map g) := by
  induction l with
  | nil => intro rest; rfl
  | cons a l ih =>
    intro rest
    rw [List.flatMap_cons, List.length_cons]
    unfold recvMany
    refine Unpacks.step (h a) ?_
    show (recvMany r l.length (l.flatMap enc ++ rest)).bind _ = _
    rw [ih rest]
    rfl

theorem unpacks_list (T : MpiType) (vs : List T.Val) :
    Unpacks (mpiUnpackList F T []) (bytesOfList F T vs) vs := by
  intro rest
  unfold mpiUnpackList bytesOfList
  refine Unpacks.step (unpacks_one F .sizeT vs.length) ?_
  cases vs with
  | nil => rfl
  | cons v vs => exact unpacks_many F T (v :: vs) rest

theorem unpacks_vecs (vs : List Vec3) :
    Unpacks (mpiUnpackVecs F []) (bytesOfVecs F vs) vs := by
  intro rest
  unfold mpiUnpackVecs bytesOfVecs
  refine Unpacks.step (unpacks_one F .sizeT vs.length) ?_
  cases vs with
  | nil => rfl
  | cons v vs =>
    have := unpacks_recvMany _ _ _ (unpacks_vec F) (v :: vs) rest
    rw [List.map_id'] at this
    exact this

theorem unpacks_neighbor (n : Neighbor) :
    Unpacks (recvNeighbor F) (bytesOfNeighbor F n) n := by
  intro rest
  unfold recvNeighbor bytesOfNeighbor
  refine Unpacks.step (unpacks_one F .sizeT n.index) ?_
  refine Unpacks.step (unpacks_one F .int64 n.tag) ?_
  refine Unpacks.step (unpacks_one F .sizeT n.element) ?_
  refine Unpacks.step (unpacks_one F .double n.d) ?_
  refine Unpacks.step (unpacks_vec F n.dr) ?_
  refine Unpacks.step (unpacks_list F .double n.cache) ?_
  show (mpiUnpackVecs F [] (bytesOfVecs F n.dGdr ++ rest)).bind _ = _
  rw [unpacks_vecs F n.dGdr rest]
  rfl

theorem unpacks_neighbors (ns : List Neighbor) :
    Unpacks (recvNeighbors F) (F.enc .sizeT ns.length ++ bytesOfNeighbors F ns) ns := by
  intro rest
  unfold recvNeighbors
  refine Unpacks.step (unpacks_one F .sizeT ns.length) ?_
  cases ns with
  | nil => rfl
  | cons n ns =>
    have := unpacks_recvMany _ _ _ (unpacks_neighbor F) (n :: ns) rest
    rw [List.map_id'] at this
    exact this

theorem unpacks_atom (a : Atom) : Unpacks (recvAtom F) (bytesOfAtom F a) a.received := by
  intro rest
  unfold recvAtom bytesOfAtom
  refine Unpacks.step (unpacks_bool F a.hasNeighborList) ?_
  refine Unpacks.step (unpacks_bool F a.hasSymmetryFunctions) ?_
  refine Unpacks.step (unpacks_bool F a.hasSymmetryFunctionDerivatives) ?_
  refine Unpacks.step (unpacks_bool F a.useChargeNeuron) ?_
  refine Unpacks.step (unpacks_one F .sizeT a.index) ?_
  refine Unpacks.step (unpacks_one F .sizeT a.indexStructure) ?_
  refine Unpacks.step (unpacks_one F .int64 a.tag) ?_
  refine Unpacks.step (unpacks_one F .sizeT a.element) ?_
  refine Unpacks.step (unpacks_one F .sizeT a.numNeighbors) ?_
  refine Unpacks.step (unpacks_one F .sizeT a.numNeighborsUnique) ?_
  refine Unpacks.step (unpacks_one F .sizeT a.numSymmetryFunctions) ?_
  refine Unpacks.step (unpacks_one F .double a.energy) ?_
  refine Unpacks.step (unpacks_one F .double a.chi) ?_
  refine Unpacks.step (unpacks_one F .double a.charge) ?_
  refine Unpacks.step (unpacks_one F .double a.chargeRef) ?_
  refine Unpacks.step (unpacks_vec F a.r) ?_
  refine Unpacks.step (unpacks_vec F a.f) ?_
  refine Unpacks.step (unpacks_vec F a.fRef) ?_
  refine Unpacks.step (unpacks_list F .sizeT a.neighborsUnique) ?_
  refine Unpacks.step (unpacks_list F .sizeT a.numNeighborsPerElement) ?_
  refine Unpacks.step (unpacks_list F .sizeT a.numSymmetryFunctionDerivatives) ?_
  refine Unpacks.step (unpacks_list F .sizeT a.cacheSizePerElement) ?_
  refine Unpacks.step (unpacks_list F .double a.G) ?_
  refine Unpacks.step (unpacks_list F .double a.dEdG) ?_
  refine Unpacks.step (unpacks_list F .double a.dQdG) ?_
  refine Unpacks.step (unpacks_vecs F a.dGdr) ?_
  show (recvNeighbors F (_ ++ rest)).bind _ = _
  rw [unpacks_neighbors F a.neighbors rest]
  rfl

theorem unpacks_counts (l old : List ℕ) (h : l = [] → old = []) :
    Unpacks (recvElementCounts F l.length old) (bytesOf F .sizeT l) l := by
  intro rest
  unfold recvElementCounts
  cases l with
  | nil => rw [h rfl]; rfl
  | cons v vs =>
    rw [if_pos (by simp), Int.toNat_natCast]
    exact unpacks_many F .sizeT (v :: vs) rest

theorem unpacks_atoms (l old : List Atom) (h : l = [] → old = []) :
    Unpacks (recvAtoms F l.length old) (bytesOfAtoms F l) (l.map Atom.received) := by
  intro rest
  unfold recvAtoms
  cases l with
  | nil => rw [h rfl]; rfl
  | cons v vs =>
    rw [if_pos (by simp), Int.toNat_natCast]
    exact unpacks_recvMany _ _ _ (unpacks_atom F) (v :: vs) rest

theorem SampleType.ofInt_toInt (t : SampleType) : SampleType.ofInt t.toInt = t := by
  cases t <;> decide

theorem takeWhile_nul (c : Str) (h : Char.ofNat 0 ∉ c) :
    (c ++ [Char.ofNat 0]).takeWhile (· ≠ Char.ofNat 0) = c := by
  have hx : ∀ x ∈ c, decide (x ≠ Char.ofNat 0) = true := fun x hx =>
    decide_eq_true fun e => h (by rw [← e]; exact hx)
  rw [List.takeWhile_append_of_pos hx]
  simp

theorem recvStructure_eq (m : IntAsSizeT) (s t : Structure) {vc ve va : ℕ}
    (hc : Char.ofNat 0 ∉ s.comment) (he : s.numAtomsPerElement = [] → t.numAtomsPerElement = [])
    (ha : s.atoms = [] → t.atoms = [])
    (wc : m.write vc = some (s.comment.length + 1 : ℕ))
    (we : m.write ve = some s.numAtomsPerElement.length) (wa : m.write va = some s.atoms.length) :
    recvStructure F m t (bytesOfStructure F vc ve va s) = some (s.received t) := by
  rw [← List.append_nil (bytesOfStructure F vc ve va s)]
  unfold recvStructure bytesOfStructure
  refine Unpacks.step (unpacks_bool F s.isPeriodic) ?_
  refine Unpacks.step (unpacks_bool F s.isTriclinic) ?_
  refine Unpacks.step (unpacks_bool F s.hasNeighborList) ?_
  refine Unpacks.step (unpacks_bool F s.hasSymmetryFunctions) ?_
  refine Unpacks.step (unpacks_bool F s.hasSymmetryFunctionDerivatives) ?_
  refine Unpacks.step (unpacks_one F .sizeT s.index) ?_
  refine Unpacks.step (unpacks_one F .sizeT s.numAtoms) ?_
  refine Unpacks.step (unpacks_one F .sizeT s.numElements) ?_
  refine Unpacks.step (unpacks_one F .sizeT s.numElementsPresent) ?_
  refine Unpacks.step (unpacks_many F .int [s.pbc 0, s.pbc 1, s.pbc 2]) ?_
  refine Unpacks.step (unpacks_one F .double s.energy) ?_
  refine Unpacks.step (unpacks_one F .double s.energyRef) ?_
  refine Unpacks.step (unpacks_one F .double s.charge) ?_
  refine Unpacks.step (unpacks_one F .double s.chargeRef) ?_
  refine Unpacks.step (unpacks_one F .double s.volume) ?_
  refine Unpacks.step (unpacks_one F .int s.sampleType.toInt) ?_
  refine Unpacks.step (unpacks_one F .sizeT vc) ?_
  refine bind_of_eq wc ?_
  have hl : (((s.comment.length + 1 : ℕ) : ℤ)).toNat = (s.comment ++ [Char.ofNat 0]).length := by
    simp
  have hu : Unpacks (mpiUnpack F .char (((s.comment.length + 1 : ℕ) : ℤ)).toNat)
      (bytesOf F .char (s.comment ++ [Char.ofNat 0])) (s.comment ++ [Char.ofNat 0]) := by
    rw [hl]
    exact unpacks_many F .char (s.comment ++ [Char.ofNat 0])
  refine Unpacks.step hu ?_
  refine Unpacks.step (unpacks_vec F (s.box 0)) ?_
  refine Unpacks.step (unpacks_vec F (s.box 1)) ?_
  refine Unpacks.step (unpacks_vec F (s.box 2)) ?_
  refine Unpacks.step (unpacks_vec F (s.invbox 0)) ?_
  refine Unpacks.step (unpacks_vec F (s.invbox 1)) ?_
  refine Unpacks.step (unpacks_vec F (s.invbox 2)) ?_
  refine Unpacks.step (unpacks_one F .sizeT ve) ?_
  refine bind_of_eq we ?_
  refine Unpacks.step (unpacks_counts F s.numAtomsPerElement t.numAtomsPerElement he) ?_
  refine Unpacks.step (unpacks_one F .sizeT va) ?_
  refine bind_of_eq wa ?_
  refine bind_of_eq (unpacks_atoms F s.atoms t.atoms ha []) ?_
  dsimp only
  rw [takeWhile_nul s.comment hc, SampleType.ofInt_toInt]
  have hp : (![[s.pbc 0, s.pbc 1, s.pbc 2].getD 0 0, [s.pbc 0, s.pbc 1, s.pbc 2].getD 1 0,
      [s.pbc 0, s.pbc 1, s.pbc 2].getD 2 0] : Fin 3 → ℤ) = s.pbc := by
    funext i
    fin_cases i <;> rfl
  have hb : ![s.box 0, s.box 1, s.box 2] = s.box := by
    funext i
    fin_cases i <;> rfl
  have hi : ![s.invbox 0, s.invbox 1, s.invbox 2] = s.invbox := by
    funext i
    fin_cases i <;> rfl
  rw [hp, hb, hi]
  rfl

end N2P2
