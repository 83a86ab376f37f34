import Verif.Lemma.ElecGrad

/-! Structures which agree in positions, elements and neighbour lists, except for caches and derivatives
of symmetry functions. -/

namespace N2P2

theorem bare_length {a b : Atom} (h : b.bareNeighbors = a.bareNeighbors) :
    b.neighbors.length = a.neighbors.length := by
  have := congrArg List.length h
  simpa [Atom.bareNeighbors] using this

structure Structure.SameLists (s s' : Structure) : Prop where
  count : s'.atoms.length = s.atoms.length
  num : s'.numAtoms = s.numAtoms
  per : s'.isPeriodic = s.isPeriodic
  box : s'.box = s.box
  sorted : s'.neighborListIsSorted = s.neighborListIsSorted
  atom : ∀ i, (s'.atom i).r = (s.atom i).r ∧ (s'.atom i).element = (s.atom i).element ∧
    (s'.atom i).bareNeighbors = (s.atom i).bareNeighbors ∧
    (s'.atom i).numNeighbors = (s.atom i).numNeighbors ∧
    (s'.atom i).neighborCutoffs = (s.atom i).neighborCutoffs

namespace Structure.SameLists

variable {s s' s'' : Structure} {q : Qeq}

theorem refl (s : Structure) : s.SameLists s :=
  ⟨rfl, rfl, rfl, rfl, rfl, fun _ => ⟨rfl, rfl, rfl, rfl, rfl⟩⟩

theorem trans (h : s.SameLists s') (h' : s'.SameLists s'') : s.SameLists s'' := by
  refine ⟨h'.count.trans h.count, h'.num.trans h.num, h'.per.trans h.per, h'.box.trans h.box,
    h'.sorted.trans h.sorted, fun i => ?_⟩
  obtain ⟨a1, a2, a3, a4, a5⟩ := h.atom i
  obtain ⟨b1, b2, b3, b4, b5⟩ := h'.atom i
  exact ⟨b1.trans a1, b2.trans a2, b3.trans a3, b4.trans a4, b5.trans a5⟩

theorem of_mapIdx (g : ℕ → Atom → Atom)
    (hg : ∀ i a, (g i a).r = a.r ∧ (g i a).element = a.element ∧ (g i a).bareNeighbors = a.bareNeighbors ∧
      (g i a).numNeighbors = a.numNeighbors ∧ (g i a).neighborCutoffs = a.neighborCutoffs)
    (hn : s'.numAtoms = s.numAtoms) (hp : s'.isPeriodic = s.isPeriodic) (hb : s'.box = s.box)
    (hs : s'.neighborListIsSorted = s.neighborListIsSorted)
    (h : s'.atoms = s.atoms.mapIdx g) : s.SameLists s' := by
  refine ⟨by rw [h]; simp, hn, hp, hb, hs, fun i => ?_⟩
  unfold Structure.atom
  rw [h]
  simp only [List.getD_eq_getElem?_getD, List.getElem?_mapIdx]
  cases h : s.atoms[i]? with
  | none => exact ⟨rfl, rfl, rfl, rfl, rfl⟩
  | some a => exact hg i a

theorem storeCharges (s : Structure) (A : ℕ → ℕ → ℝ) (Q : ℕ → ℝ) (e : ℝ) :
    s.SameLists ((s.storeCharges A Q).withElec e) := by
  refine of_mapIdx (fun i (a : Atom) => if i < s.numAtoms then { a with charge := Q i } else a)
    (fun i a => ?_) rfl rfl rfl rfl rfl
  split_ifs <;> exact ⟨rfl, rfl, rfl, rfl, rfl⟩

theorem position (h : s.SameLists s') (i : ℕ) : s'.position i = s.position i := by
  rw [← Structure.atom_r, ← Structure.atom_r, (h.atom i).1]

theorem elementOf (h : s.SameLists s') (i : ℕ) : s'.elementOf i = s.elementOf i := by
  rw [← Structure.atom_element, ← Structure.atom_element, (h.atom i).2.1]

theorem separation (h : s.SameLists s') (i : ℕ) (p : ℕ × (Fin 3 → ℤ)) :
    s'.separation i p = s.separation i p := by
  unfold Structure.separation
  rw [h.position, h.position, h.box]

theorem isPartner (h : s.SameLists s') (i : ℕ) (p : ℕ × (Fin 3 → ℤ)) :
    s'.IsPartner i p ↔ s.IsPartner i p := by
  unfold Structure.IsPartner
  rw [h.count, h.per]

theorem apart (h : s.SameLists s') (ha : s.Apart) : s'.Apart := fun i hi p hp => by
  rw [h.separation]
  exact ha i (h.count ▸ hi) p ((h.isPartner i p).1 hp)

theorem get (h : s.SameLists s') {i : ℕ} {b : Atom} (hb : s'.atoms[i]? = some b) :
    ∃ a, s.atoms[i]? = some a ∧ b.r = a.r ∧ b.element = a.element ∧
      b.bareNeighbors = a.bareNeighbors ∧
      b.numNeighbors = a.numNeighbors ∧ b.neighborCutoffs = a.neighborCutoffs := by
  have hi := (List.getElem?_eq_some_iff.1 hb).1
  rw [Structure.atom_get hi] at hb
  cases hb
  exact ⟨_, Structure.atom_get (h.count ▸ hi), h.atom i⟩

theorem symm (h : s.SameLists s') : s'.SameLists s := by
  refine ⟨h.count.symm, h.num.symm, h.per.symm, h.box.symm, h.sorted.symm, fun i => ?_⟩
  obtain ⟨a1, a2, a3, a4, a5⟩ := h.atom i
  exact ⟨a1.symm, a2.symm, a3.symm, a4.symm, a5.symm⟩

theorem describes (h : s.SameLists s') {nb : Neighbor} {r : Vec3} {j : ℕ} {n : Fin 3 → ℤ}
    (hd : nb.Describes s.box s.atoms r j n) : nb.Describes s'.box s'.atoms r j n := by
  obtain ⟨b, h1, h2, h3, h4, h5, h6⟩ := hd
  obtain ⟨a, g1, g2, g3, -⟩ := h.symm.get h1
  exact ⟨a, g1, h2, h3, h4.trans g3, by rw [h5, g2, h.box], h6⟩

theorem stored (h : s.SameLists s') (i : ℕ) (R : ℝ) :
    (s'.atom i).getStoredMinNumNeighbors R = (s.atom i).getStoredMinNumNeighbors R := by
  obtain ⟨-, -, -, a4, a5⟩ := h.atom i
  unfold Atom.getStoredMinNumNeighbors
  rw [a4, a5]

theorem listed (h : s.SameLists s') {full : ℕ → List (ℕ × (Fin 3 → ℤ))} (hl : s.Listed full) :
    s'.Listed full := by
  refine ⟨h.sorted.trans hl.sorted, fun b hb => ?_, fun i b hb => ?_, fun b hb => ?_,
    fun i hi => hl.nodup i (h.count ▸ hi),
    fun i hi p hp => (h.isPartner i p).2 (hl.partner i (h.count ▸ hi) p hp)⟩
  · obtain ⟨i, hi⟩ := List.getElem?_of_mem hb
    obtain ⟨a, ha, -, -, a3, a4, -⟩ := h.get hi
    rw [bare_length a3, a4]
    exact hl.number a (List.mem_of_getElem? ha)
  · obtain ⟨a, ha, a1, -, a3, -⟩ := h.get hb
    have h1 := List.forall₂_map_left_iff (f := Neighbor.bare)
      (R := fun nb p => nb.Describes s'.box s'.atoms b.r p.1 p.2) (l := b.neighbors) (u := full i)
    refine h1.1 ?_
    show List.Forall₂ _ b.bareNeighbors _
    rw [a3, a1]
    refine List.forall₂_map_left_iff.2 ?_
    exact (hl.describes i a ha).imp fun nb p h' => h.describes h'
  · obtain ⟨i, hi⟩ := List.getElem?_of_mem hb
    obtain ⟨a, ha, -, -, a3, -⟩ := h.get hi
    have h1 : b.bareNeighbors.Pairwise fun x y => x.d ≤ y.d := by
      rw [a3]
      exact List.pairwise_map.2 (hl.ordered a (List.mem_of_getElem? ha))
    unfold Atom.bareNeighbors at h1
    rw [List.pairwise_map] at h1
    exact h1

theorem storedList (h : s.SameLists s') {full imgs : ℕ → List (ℕ × (Fin 3 → ℤ))} {R : ℝ}
    (hs : s.Stored full R imgs) : s'.Stored full R imgs := by
  refine ⟨fun b hb => ?_, fun i hi => ?_, fun i hi => hs.nodup i (h.count ▸ hi), fun i hi p hp => ?_,
    fun i hi p hp hd => ?_⟩
  · obtain ⟨i, hi⟩ := List.getElem?_of_mem hb
    obtain ⟨a, ha, -, -, a3, a4, a5⟩ := h.get hi
    have := hs.le a (List.mem_of_getElem? ha)
    unfold Atom.getStoredMinNumNeighbors at this ⊢
    rwa [bare_length a3, a4, a5]
  · rw [h.stored]
    exact hs.take i (h.count ▸ hi)
  · exact (h.isPartner i p).2 (hs.partner i (h.count ▸ hi) p hp)
  · rw [h.separation] at hd
    exact hs.complete i (h.count ▸ hi) p ((h.isPartner i p).1 hp) hd

theorem field (h : s.SameLists s') {U : Structure → ℕ → ℝ} {V : Structure → ℕ → ℕ → ℝ}
    (hUV : q.IsField s U V) : q.IsField s' U V := by
  cases hUV with
  | cluster hp => exact .cluster (h.per.trans hp)
  | ewald hp hbox hk full imgs hl hi S hS =>
    exact .ewald (h.per.trans hp) (h.box ▸ hbox) hk full imgs (h.listed hl) (h.storedList hi) S
      (h.box ▸ hS)

theorem erfcArg (h : s.SameLists s') (P : ElecParams) (p : EwaldParameters) :
    erfcArg P p s' = erfcArg P p s := by
  funext i k v
  obtain ⟨-, a2, a3, -⟩ := h.atom i
  unfold N2P2.erfcArg
  rw [a2]
  cases hk : (s'.atom i).neighbors[k]? with
  | none =>
    rw [List.getElem?_eq_none (by rw [← bare_length a3]; exact List.getElem?_eq_none_iff.1 hk)]
  | some nb =>
    obtain ⟨nb0, g1, g2, -, -, g3, -⟩ := bare_get a3 k nb hk
    rw [g1]
    dsimp only
    rw [g2, g3]

theorem holds (h : s.SameLists s') {b : ErfcBuf} {vpp : ℕ} {X : ℕ → ℕ → ℕ → ℝ}
    (hb : b.Holds s.atoms vpp X) : b.Holds s'.atoms vpp X := by
  refine ⟨hb.values, fun i a' ha' => ?_⟩
  obtain ⟨a, ha, -, -, -, a4, -⟩ := h.get ha'
  obtain ⟨row, h1, h2⟩ := hb.row i a ha
  exact ⟨row, h1, fun k hk => h2 k (a4 ▸ hk)⟩

theorem moves (h : s.SameLists s') {r : ℕ → ℝ → Vec3} {v : ℕ → Vec3} {t0 : ℝ}
    (hm : s.Moves r v t0) : s'.Moves r v t0 :=
  ⟨fun i hi => by rw [h.position]; exact hm.start i (h.count ▸ hi),
    fun i hi => hm.velocity i (h.count ▸ hi)⟩

/-- The interactions depend on positions, elements and box only. -/
theorem field_eq (h : s.SameLists s') {s0 : Structure} {U : Structure → ℕ → ℝ}
    {V : Structure → ℕ → ℕ → ℝ} (hUV : q.IsField s0 U V) : U s' = U s ∧ V s' = V s := by
  cases hUV with
  | cluster hp =>
    constructor
    · funext i
      unfold Qeq.openU
      rw [h.elementOf]
    · funext i j
      unfold Qeq.openV
      rw [h.elementOf, h.elementOf, h.position, h.position]
  | ewald hp hbox hk full imgs hl hi S hS =>
    have h1 : ∀ i j, q.ewaldReal s' imgs i j = q.ewaldReal s imgs i j := by
      intro i j
      unfold Qeq.ewaldReal
      simp only [h.separation, h.elementOf]
    have h2 : ∀ i j, q.ewaldRecip s' S i j = q.ewaldRecip s S i j := by
      intro i j
      unfold Qeq.ewaldRecip
      simp only [h.position, h.box]
    constructor
    · funext i
      dsimp only
      unfold Qeq.ewaldU
      rw [h1, h2, h.elementOf]
    · funext i j
      dsimp only
      unfold Qeq.ewaldV
      rw [h1, h2]

theorem screenW_eq (h : s.SameLists s') (imgs : ℕ → List (ℕ × (Fin 3 → ℤ))) :
    q.screenW s' imgs = q.screenW s imgs := by
  funext i j
  unfold Qeq.screenW
  simp only [h.separation, h.elementOf]

theorem «at» (h : s.SameLists s') (r : ℕ → ℝ → Vec3) (t : ℝ) :
    (s.at r t).SameLists (s'.at r t) := by
  refine ⟨by rw [at_length, at_length, h.count], h.num, h.per, h.box, h.sorted, fun i => ?_⟩
  have key : ∀ s : Structure, (s.at r t).atom i =
      if i < s.atoms.length then { s.atom i with r := r i t } else Atom.init := by
    intro s
    unfold Structure.atom Structure.at Structure.move
    simp only [List.getD_eq_getElem?_getD, List.getElem?_mapIdx]
    by_cases hi : i < s.atoms.length
    · rw [if_pos hi, List.getElem?_eq_getElem hi]
      rfl
    · rw [if_neg hi, List.getElem?_eq_none (by omega)]
      rfl
  rw [key, key, h.count]
  obtain ⟨a1, a2, a3, a4, a5⟩ := h.atom i
  split_ifs
  · exact ⟨rfl, a2, a3, a4, a5⟩
  · exact ⟨rfl, rfl, rfl, rfl, rfl⟩

end Structure.SameLists

end N2P2
