import Verif.Lemma.Units
import Mathlib.Algebra.BigOperators.Fin
import Mathlib.Algebra.BigOperators.Intervals
import Mathlib.Tactic.NormNum

/-! Properties C30 (structure unit conversion), C37 (energy offset), C38 (value conversion),
C59 (derivative arrays in converted units). -/

namespace N2P2

/-! ### C30 -/

/-- C30: normalising and converting back restores the complete structure. -/
theorem C30_normalize_then_physical (s t : Structure) (mE cE cL cQ : ℝ) (hE : cE ≠ 0)
    (hL : cL ≠ 0) (hQ : cQ ≠ 0) (h : s.toNormalizedUnits mE cE cL cQ = some t) :
    t.toPhysicalUnits mE cE cL cQ = some s := by
  unfold Structure.toNormalizedUnits at h
  rw [Option.map_eq_some_iff] at h
  obtain ⟨atoms, hat, rfl⟩ := h
  unfold Structure.toPhysicalUnits
  simp only
  rw [mapM_inverse (fun a b => Atom.normalize_physical a b cE cL cQ hE hL hQ) _ _ hat]
  rcases s with ⟨p, tr, hN, so, hSF, hSFD, ix, nA, nE, nEP, pbc, e, eR, eS, eE, hC, c, cR, v, mc,
    la, hA, A, st, co, box, inv, nape, at0⟩
  simp only [Option.map_some, Option.some.injEq, Structure.mk.injEq, true_and, and_true]
  refine ⟨by field_simp; ring, by field_simp; ring, by field_simp, by field_simp, by field_simp,
    ?_, ?_⟩
  · cases p
    · rfl
    · funext i; simp only [if_true]; rw [div_smul_id hL (box i)]
  · cases p
    · rfl
    · funext i; simp only [if_true]; rw [smul_div_id hL (inv i)]

/-- C30: the reverse order restores the structure as well. -/
theorem C30_physical_then_normalize (s t : Structure) (mE cE cL cQ : ℝ) (hE : cE ≠ 0)
    (hL : cL ≠ 0) (hQ : cQ ≠ 0) (h : s.toPhysicalUnits mE cE cL cQ = some t) :
    t.toNormalizedUnits mE cE cL cQ = some s := by
  unfold Structure.toPhysicalUnits at h
  rw [Option.map_eq_some_iff] at h
  obtain ⟨atoms, hat, rfl⟩ := h
  unfold Structure.toNormalizedUnits
  simp only
  rw [mapM_inverse (fun a b => Atom.physical_normalize a b cE cL cQ hE hL hQ) _ _ hat]
  rcases s with ⟨p, tr, hN, so, hSF, hSFD, ix, nA, nE, nEP, pbc, e, eR, eS, eE, hC, c, cR, v, mc,
    la, hA, A, st, co, box, inv, nape, at0⟩
  simp only [Option.map_some, Option.some.injEq, Structure.mk.injEq, true_and, and_true]
  refine ⟨by field_simp; ring, by field_simp; ring, by field_simp, by field_simp, by field_simp,
    ?_, ?_⟩
  · cases p
    · rfl
    · funext i; simp only [if_true]; rw [smul_div_id hL (box i)]
  · cases p
    · rfl
    · funext i; simp only [if_true]; rw [div_smul_id hL (inv i)]

/-- C30: what normalisation means for the geometry: positions, box, distances and difference
vectors are all scaled by the length factor (so periodic images are scaled consistently). -/
theorem C30_lengths_scaled (s t : Structure) (mE cE cL cQ : ℝ) (hp : s.isPeriodic = true)
    (hnl : ∀ a ∈ s.atoms, a.hasNeighborList = true)
    (h : s.toNormalizedUnits mE cE cL cQ = some t) :
    (∀ i, t.box i = cL • s.box i) ∧
    t.atoms.map (fun a => a.r) = s.atoms.map (fun a => cL • a.r) ∧
    t.atoms.map (fun a => a.neighbors.map (fun n => (n.index, n.d, n.dr))) =
      s.atoms.map (fun a => a.neighbors.map (fun n => (n.index, n.d * cL, cL • n.dr))) := by
  unfold Structure.toNormalizedUnits at h
  rw [Option.map_eq_some_iff] at h
  obtain ⟨atoms, hat, rfl⟩ := h
  refine ⟨fun i => by simp [hp], ?_, ?_⟩
  all_goals
    simp only
    revert hnl
    generalize s.atoms = l at hat ⊢
    induction l generalizing atoms with
    | nil => intro _; simp at hat; subst hat; rfl
    | cons a as ih =>
      intro hnl
      rw [List.mapM_cons] at hat
      cases ha : a.toNormalizedUnits cE cL cQ with
      | none => rw [ha] at hat; simp at hat
      | some b =>
        rw [ha] at hat
        cases has : as.mapM (fun a : Atom => a.toNormalizedUnits cE cL cQ) with
        | none => rw [has] at hat; simp at hat
        | some bs =>
          rw [has] at hat
          have hl : b :: bs = atoms := by simpa using hat
          subst hl
          have hb : b.r = cL • a.r ∧ b.neighbors = a.neighbors.map
              (fun n => { n with d := n.d * cL, dr := cL • n.dr }) := by
            unfold Atom.toNormalizedUnits at ha
            split at ha
            · injection ha with ha
              subst ha
              simp [hnl a (by simp)]
            · cases ha
          rw [List.map_cons, List.map_cons, ih bs has (fun x hx => hnl x (by simp [hx]))]
          simp [hb.1, hb.2]

/-- An atom with one neighbour and stored derivatives. -/
def exNeighbor : Neighbor := ⟨1, 1, 0, 2, ![2, 0, 0], [], [![1, 0, 0]]⟩
def exAtom : Atom :=
  { Atom.init with
    hasNeighborList := true, hasSymmetryFunctionDerivatives := true, numSymmetryFunctions := 1,
    dEdG := [3], dGdr := [![1, 0, 0]], neighbors := [exNeighbor], numNeighbors := 1, r := ![1, 0, 0] }
def exStructure : Structure :=
  { Structure.init with isPeriodic := true, numAtoms := 1, atoms := [exAtom] }

example : (exStructure.toNormalizedUnits 1 2 3 1).isSome = true := by
  simp [Structure.toNormalizedUnits, exStructure, Atom.toNormalizedUnits,
    Atom.derivativesAllocated, exAtom, Atom.init]

/-! ### C37 -/

/-- C37: removing the offset after adding it (and vice versa) restores the structure. -/
theorem C37_offset_inverse (offs : List ℝ) (s t : Structure) (ref : Bool) :
    (addEnergyOffset offs s ref = some t → removeEnergyOffset offs t ref = some s) ∧
    (removeEnergyOffset offs s ref = some t → addEnergyOffset offs t ref = some s) := by
  unfold addEnergyOffset removeEnergyOffset
  simp only [foldl_offset_add, foldl_offset_sub]
  constructor
  all_goals
    intro h
    split at h
    · cases h
    · rename_i hl
      cases ref
      · simp only [Bool.false_eq_true, if_false, Option.some.injEq] at h ⊢
        subst h
        rw [if_neg hl]
        simp
      · simp only [if_true, Option.some.injEq] at h ⊢
        subst h
        rw [if_neg hl]
        simp

/-- C37: with correct per-element counters the offset is the sum over the atoms of the offset of
their element, and it is the amount by which the energy changes. -/
theorem C37_offset_is_sum_over_atoms (offs : List ℝ) (s : Structure)
    (hel : ∀ a ∈ s.atoms, a.element < offs.length)
    (hcnt : s.numAtomsPerElement =
      (List.range offs.length).map (fun i => s.atoms.countP (fun a => a.element = i))) :
    getEnergyOffset offs s = some ((s.atoms.map (fun a => offs.getD a.element 0)).sum) ∧
    (∀ ref, getEnergyWithOffset offs s ref =
      some ((if ref then s.energyRef else s.energy) +
        (s.atoms.map (fun a => offs.getD a.element 0)).sum)) ∧
    addEnergyOffset offs s false =
      some { s with energy := s.energy + (s.atoms.map (fun a => offs.getD a.element 0)).sum } ∧
    addEnergyOffset offs s true =
      some { s with
        energyRef := s.energyRef + (s.atoms.map (fun a => offs.getD a.element 0)).sum } := by
  have hlen : ¬ s.numAtomsPerElement.length < offs.length := by rw [hcnt]; simp
  have hsum : ((List.zip s.numAtomsPerElement offs).map (fun p => (p.1 : ℝ) * p.2)).sum =
      (s.atoms.map (fun a => offs.getD a.element 0)).sum := by
    have hz : (List.zip s.numAtomsPerElement offs).map (fun p => (p.1 : ℝ) * p.2) =
        (List.range offs.length).map
          (fun i => ((s.atoms.countP (fun a => a.element = i) : ℕ) : ℝ) * offs.getD i 0) := by
      apply List.ext_getElem?
      intro i
      rw [hcnt]
      simp only [List.getElem?_map]
      by_cases hi : i < offs.length
      · simp [hi]
      · rw [List.getElem?_eq_none (by simpa using hi), List.getElem?_eq_none (by simpa using hi)]
        rfl
    rw [hz]
    clear hz hcnt hlen
    generalize s.atoms = as at hel ⊢
    induction as with
    | nil => simp
    | cons a as ih =>
      rw [List.map_cons, List.sum_cons, ← ih (fun x hx => hel x (by simp [hx]))]
      have : ∀ n, a.element < n → ∀ f : ℕ → ℝ,
          ((List.range n).map (fun i =>
            (((a :: as).countP (fun a => a.element = i) : ℕ) : ℝ) * f i)).sum =
          f a.element + ((List.range n).map (fun i =>
            ((as.countP (fun a => a.element = i) : ℕ) : ℝ) * f i)).sum := by
        intro n hn f
        have e : ∀ g : ℕ → ℝ, ((List.range n).map g).sum = ∑ i ∈ Finset.range n, g i := by
          intro g; rw [Finset.sum_range, ← List.sum_ofFn]; congr 1
          apply List.ext_getElem <;> simp
        rw [e, e]
        have h1 : ∀ i ∈ Finset.range n,
            (((a :: as).countP (fun a => a.element = i) : ℕ) : ℝ) * f i =
            (if a.element = i then f i else 0) +
              ((as.countP (fun a => a.element = i) : ℕ) : ℝ) * f i := by
          intro i _
          rw [List.countP_cons]
          by_cases h : a.element = i <;> simp [h]
          ring
        rw [Finset.sum_congr rfl h1, Finset.sum_add_distrib, Finset.sum_ite_eq]
        rw [if_pos (by simpa using hn)]
      exact this _ (hel a (by simp)) _
  refine ⟨?_, fun ref => ?_, ?_, ?_⟩
  · unfold getEnergyOffset; rw [if_neg hlen, foldl_offset_add, hsum, zero_add]
  · unfold getEnergyWithOffset; rw [if_neg hlen, foldl_offset_add, hsum]
  · unfold addEnergyOffset; simp [hlen, foldl_offset_add, hsum]
  · unfold addEnergyOffset; simp [hlen, foldl_offset_add, hsum]

example : getEnergyOffset [2, 5] { Structure.init with
    numAtomsPerElement := [2, 1],
    atoms := [{ Atom.init with element := 0 }, { Atom.init with element := 1 },
      { Atom.init with element := 0 }] } = some 9 := by
  rw [(C37_offset_is_sum_over_atoms _ _ (by simp) (by decide)).1]
  norm_num

/-! ### C38 -/

/-- C38: the properties the conversions know. -/
theorem C38_known_properties (m : ModeUnits) (p : String) (v : ℝ) :
    (m.normalized p v).isSome ↔ p ∈ ["energy", "force", "charge", "hardness", "negativity"] := by
  unfold ModeUnits.normalized
  split_ifs <;> simp_all

/-- C38: converting to normalised units and back (or in the other order) is the identity. -/
theorem C38_value_roundtrip (m : ModeUnits) (hE : m.convEnergy ≠ 0) (hL : m.convLength ≠ 0)
    (hQ : m.convCharge ≠ 0) (p : String)
    (hp : p ∈ ["energy", "force", "charge", "hardness", "negativity"]) (v : ℝ) :
    (m.normalized p v).bind (m.physical p) = some v ∧
    (m.physical p v).bind (m.normalized p) = some v := by
  simp only [List.mem_cons, List.not_mem_nil, or_false] at hp
  rcases hp with rfl | rfl | rfl | rfl | rfl <;>
    simp only [ModeUnits.normalized, ModeUnits.physical, if_true, if_false,
      String.reduceEq, Option.bind_some, Option.some.injEq] <;>
    constructor <;> field_simp

/-- C38: the structure energy converts like the structure itself, and back. -/
theorem C38_structure_energy (m : ModeUnits) (hE : m.convEnergy ≠ 0) (s t : Structure)
    (h : s.toNormalizedUnits m.meanEnergy m.convEnergy m.convLength m.convCharge = some t)
    (ref : Bool) :
    (if ref then t.energyRef else t.energy) = m.normalizedEnergy s ref ∧
    m.physicalEnergy t ref = (if ref then s.energyRef else s.energy) ∧
    (m.normalized "energy" ((if ref then s.energyRef else s.energy) - s.numAtoms * m.meanEnergy)) =
      some (m.normalizedEnergy s ref) := by
  unfold Structure.toNormalizedUnits at h
  rw [Option.map_eq_some_iff] at h
  obtain ⟨atoms, _, rfl⟩ := h
  cases ref <;>
    simp only [ModeUnits.normalizedEnergy, ModeUnits.physicalEnergy, ModeUnits.normalized, if_true,
      Bool.false_eq_true, if_false, true_and, and_true] <;>
    field_simp <;> ring

example : (⟨-1, 2, 3, 5⟩ : ModeUnits).normalized "force" 6 = some 4 := by
  simp only [ModeUnits.normalized, String.reduceEq, if_false, if_true]; norm_num

/-! ### C59 -/

/-- C59 (partial): if the atom has no neighbours, its symmetry function derivatives are scaled by
the inverse length factor, as they should. Missing: atoms with neighbours, see
`C59_derivatives_scaled_too_often`. -/
theorem C59_derivatives_scaled_partial (a b : Atom) (cE cL cQ : ℝ)
    (h : a.toNormalizedUnits cE cL cQ = some b) (hd : a.hasSymmetryFunctionDerivatives = true)
    (hlen : a.dGdr.length = a.numSymmetryFunctions) (hn : a.neighbors = []) :
    b.dGdr = a.dGdr.map (fun v => (1 / cL) • v) := by
  unfold Atom.toNormalizedUnits at h
  split at h
  · injection h with h
    subst h
    simp only [hd, hn, List.foldl_nil, ite_self]
    unfold onPrefix
    rw [← hlen]
    simp only [List.take_length, List.drop_length, List.append_nil]
    rfl
  · cases h

/-- C59: for an atom with one neighbour the code divides its derivatives by the length factor
twice, and the neighbour's derivatives not at all. -/
theorem C59_derivatives_scaled_too_often :
    ∃ (a b : Atom) (cL : ℝ), cL ≠ 0 ∧ a.toNormalizedUnits 1 cL 1 = some b ∧
      a.hasSymmetryFunctionDerivatives = true ∧ a.dGdr.length = a.numSymmetryFunctions ∧
      b.dGdr ≠ a.dGdr.map (fun v => (1 / cL) • v) ∧
      b.neighbors.map (·.dGdr) ≠
        a.neighbors.map (fun n => n.dGdr.map (fun v => (1 / cL) • v)) := by
  have key : (exAtom.toNormalizedUnits 1 2 1).map (fun b => (b.dGdr, b.neighbors.map (·.dGdr))) =
      some ([(1 / (2 : ℝ)) • (1 / (2 : ℝ)) • ![1, 0, 0]], [[![1, 0, 0]]]) := by
    unfold Atom.toNormalizedUnits
    rw [if_pos (by simp [Atom.derivativesAllocated, exAtom, Atom.init])]
    rfl
  rw [Option.map_eq_some_iff] at key
  obtain ⟨b, hb, hk⟩ := key
  obtain ⟨k1, k2⟩ := Prod.mk.inj hk
  refine ⟨exAtom, b, 2, by norm_num, hb, rfl, rfl, ?_, ?_⟩
  · rw [k1]
    intro h
    have h0 := congrArg (fun l => (l.map (fun v : Vec3 => v 0))) h
    simp [exAtom] at h0
  · rw [k2]
    intro h
    have h0 := congrArg (fun l => l.map (fun m => m.map (fun v : Vec3 => v 0))) h
    simp [exAtom, exNeighbor] at h0

end N2P2
