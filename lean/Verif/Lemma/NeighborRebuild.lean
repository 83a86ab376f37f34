import Mathlib.Data.Set.Card
import Verif.Lemma.ListAux
import Verif.Lemma.NeighborCutoff

/-! Clearing and rebuilding neighbour lists. -/

namespace N2P2

/-- Same box, positions and elements. -/
structure SameShape (s t : Structure) : Prop where
  per : t.isPeriodic = s.isPeriodic
  box : t.box = s.box
  ne : t.numElements = s.numElements
  cut : t.maxCutoffRadiusOverall = s.maxCutoffRadiusOverall
  atoms : t.atoms.map (fun a => (a.r, a.element)) = s.atoms.map (fun a => (a.r, a.element))

theorem SameShape.refl (s : Structure) : SameShape s s := ⟨rfl, rfl, rfl, rfl, rfl⟩

theorem SameShape.symm {s t : Structure} (h : SameShape s t) : SameShape t s :=
  ⟨h.per.symm, h.box.symm, h.ne.symm, h.cut.symm, h.atoms.symm⟩

theorem SameShape.trans {s t u : Structure} (h : SameShape s t) (h' : SameShape t u) :
    SameShape s u :=
  ⟨h'.per.trans h.per, h'.box.trans h.box, h'.ne.trans h.ne, h'.cut.trans h.cut,
    h'.atoms.trans h.atoms⟩

theorem SameShape.get {s t : Structure} (h : SameShape s t) {i : ℕ} {a : Atom}
    (ha : s.atoms[i]? = some a) : ∃ b, t.atoms[i]? = some b ∧ b.r = a.r ∧ b.element = a.element := by
  have := congrArg (fun l => l[i]?) h.atoms
  simp only [List.getElem?_map, ha, Option.map_some] at this
  obtain ⟨b, hb, e⟩ := Option.map_eq_some_iff.1 this
  simp only [Prod.mk.injEq] at e
  exact ⟨b, hb, e.1, e.2⟩

theorem SameShape.boxed {s t : Structure} (h : SameShape s t) (hb : Boxed s) : Boxed t := by
  intro hp
  obtain ⟨h1, h2⟩ := hb (by rw [← h.per]; exact hp)
  refine ⟨by rw [h.box]; exact h1, fun a ha => ?_⟩
  obtain ⟨i, hi, rfl⟩ := List.getElem_of_mem ha
  obtain ⟨b, hb, e1, -⟩ := h.symm.get (List.getElem?_eq_getElem hi)
  rw [h.box, ← e1]
  exact h2 b (List.mem_of_getElem? hb)

theorem SameShape.isImage {s t : Structure} (h : SameShape s t) {rc : ℝ} {i : ℕ}
    {p : ℕ × (Fin 3 → ℤ)} (hp : IsImage s rc i p) : IsImage t rc i p := by
  obtain ⟨a, c, h1, h2, h3, h4, h5⟩ := hp
  obtain ⟨a', g1, e1, -⟩ := h.get h1
  obtain ⟨c', g2, e2, -⟩ := h.get h2
  exact ⟨a', c', g1, g2, by rw [h.per]; exact h3, h4, by rw [e1, e2, h.box]; exact h5⟩

theorem SameShape.describes {s t : Structure} (h : SameShape s t) {nb : Neighbor} {r : Vec3}
    {j : ℕ} {n : Fin 3 → ℤ} (hd : nb.Describes s.box s.atoms r j n) :
    nb.Describes t.box t.atoms r j n := by
  obtain ⟨b, h1, h2, h3, h4, h5, h6⟩ := hd
  obtain ⟨b', g1, g2, g3⟩ := h.get h1
  exact ⟨b', g1, h2, h3, h4.trans g3.symm, by rw [h5, g2, h.box], h6⟩

/-- Images of element `e`. -/
def elementImages (s : Structure) (rc : ℝ) (i e : ℕ) : Set (ℕ × (Fin 3 → ℤ)) :=
  {p | IsImage s rc i p ∧ ∃ c, s.atoms[p.1]? = some c ∧ c.element = e}

theorem SameShape.elementImages {s t : Structure} (h : SameShape s t) (rc : ℝ) (i e : ℕ) :
    elementImages s rc i e = elementImages t rc i e := by
  ext p
  constructor
  · rintro ⟨h1, c, h2, h3⟩
    obtain ⟨c', g2, -, e2⟩ := h.get h2
    exact ⟨h.isImage h1, c', g2, e2.trans h3⟩
  · rintro ⟨h1, c, h2, h3⟩
    obtain ⟨c', g2, -, e2⟩ := h.symm.get h2
    exact ⟨h.symm.isImage h1, c', g2, e2.trans h3⟩

theorem forall₂_countP {α β : Type} {R : α → β → Prop} {p : α → Bool} {q : β → Bool}
    {l : List α} {m : List β} (h : List.Forall₂ R l m) (hpq : ∀ a b, R a b → (p a = q b)) :
    l.countP p = m.countP q := by
  induction h with
  | nil => rfl
  | cons h _ ih =>
    rw [List.countP_cons, List.countP_cons, ih, hpq _ _ h]

theorem countP_eq_ncard {α : Type} {l : List α} (h : l.Nodup) (p : α → Bool) :
    l.countP p = {x | x ∈ l ∧ p x = true}.ncard := by
  classical
  have : {x | x ∈ l ∧ p x = true} = ((l.filter p).toFinset : Set α) := by
    ext x; simp
  rw [this, Set.ncard_coe_finset, List.toFinset_card_of_nodup (h.filter _), List.countP_eq_length_filter]

/-- The number of neighbours of one element after the loops is the number of images. -/
theorem count_images {s : Structure} {rc : ℝ} {i : ℕ} {r : Vec3} {L : List Neighbor}
    {imgs : List (ℕ × (Fin 3 → ℤ))} (hnd : imgs.Nodup) (hmem : ∀ p, p ∈ imgs ↔ IsImage s rc i p)
    (hd : List.Forall₂ (fun nb p => nb.Describes s.box s.atoms r p.1 p.2) L imgs) (e : ℕ) :
    L.countP (fun n => n.element = e) = (elementImages s rc i e).ncard := by
  classical
  rw [forall₂_countP hd (q := fun p => decide (∃ c, s.atoms[p.1]? = some c ∧ c.element = e)),
    countP_eq_ncard hnd]
  · congr 1
    ext p
    simp [elementImages, hmem]
  · rintro nb p ⟨b, h1, h2, h3, h4, -⟩
    simp only [decide_eq_decide]
    constructor
    · intro h; exact ⟨b, h1, h4.symm.trans h⟩
    · rintro ⟨c, hc, rfl⟩
      rw [h1] at hc; cases hc
      exact h4

/-- The per-atom result of building a neighbour list on atoms without neighbours. -/
structure ListOk (s : Structure) (rc : ℝ) (i : ℕ) (a : Atom) : Prop where
  num : a.numNeighbors = a.neighbors.length
  uniq : ∃ U : List ℕ, a.neighborsUnique = i :: U ∧ a.numNeighborsUnique = U.length + 1 ∧
    (i :: U).Nodup ∧ ∀ k, k ∈ U ↔ k ≠ i ∧ ∃ nb ∈ a.neighbors, nb.index = k
  imgs : ∃ imgs : List (ℕ × (Fin 3 → ℤ)), imgs.Nodup ∧ (∀ p, p ∈ imgs ↔ IsImage s rc i p) ∧
    List.Forall₂ (fun nb p => nb.Describes s.box s.atoms a.r p.1 p.2) a.neighbors imgs

/-- No neighbours stored. -/
def Cleared (a : Atom) : Prop :=
  a.neighbors = [] ∧ a.numNeighbors = 0 ∧ a.neighborsUnique = [] ∧ a.numNeighborsUnique = 0

theorem build_cleared {srt : List Neighbor → List Neighbor} (hsrt : IsSort srt) {s : Structure}
    {rc : ℝ} (hrc : 0 ≤ max rc s.maxCutoffRadiusOverall) (hb : Boxed s)
    (hc : ∀ a ∈ s.atoms, Cleared a) (srtd : Bool) :
    ∃ s', s.calculateNeighborList srt rc srtd = some s' ∧ SameShape s s' ∧
      (srtd = true → s'.neighborListIsSorted = true ∧
        ∀ a ∈ s'.atoms, a.neighbors.Pairwise (fun x y => x.d ≤ y.d)) ∧
      s'.hasNeighborList = true ∧
      ∀ i a, s.atoms[i]? = some a → ∃ a', s'.atoms[i]? = some a' ∧ a'.r = a.r ∧
        a'.element = a.element ∧ a'.neighborCutoffs = a.neighborCutoffs ∧
        a'.hasNeighborList = true ∧
        ListOk s (max rc s.maxCutoffRadiusOverall) i a' ∧
        (∀ e, a'.numNeighborsPerElement[e]? = (a.numNeighborsPerElement[e]?).map
          (· + a'.neighbors.countP (fun n => n.element = e))) := by
  obtain ⟨s', build, e1, e2, e3, e4, e5, e6, e7, e8, e9⟩ :=
    calculateNeighborList_spec srt hrc hb srtd
  have atom : ∀ i a, s.atoms[i]? = some a → ∃ a', s'.atoms[i]? = some a' ∧ a'.r = a.r ∧
        a'.element = a.element ∧ a'.neighborCutoffs = a.neighborCutoffs ∧
        a'.hasNeighborList = true ∧
        ListOk s (max rc s.maxCutoffRadiusOverall) i a' ∧
        (∀ e, a'.numNeighborsPerElement[e]? = (a.numNeighborsPerElement[e]?).map
          (· + a'.neighbors.countP (fun n => n.element = e))) := by
    intro i a ha
    obtain ⟨⟨L, hp, imgs, hnd, hmem, hd, U, hU⟩, hflag⟩ := e3 i a ha
    have hca := hc a (List.mem_of_getElem? ha)
    have hperm := sortAtom_neighbors hsrt srtd (build i a)
    have hL : (build i a).neighbors = L := by rw [hp.nbs, hca.1, List.nil_append]
    rw [hL] at hperm
    refine ⟨sortAtom srt srtd (build i a), by rw [e2, List.getElem?_mapIdx, ha]; rfl, ?_, ?_, ?_,
      ?_, ⟨?_, ?_, ?_⟩, ?_⟩
    · cases srtd <;> exact hp.same.r
    · cases srtd <;> exact hp.same.element
    · cases srtd <;> exact hp.same.cut
    · cases srtd <;> exact hflag
    · have : (sortAtom srt srtd (build i a)).numNeighbors = (build i a).numNeighbors := by
        cases srtd <;> rfl
      rw [this, hp.num, hca.2.1, hperm.length_eq, Nat.zero_add]
    · obtain ⟨u1, u2, u3, u4⟩ := hU hca.2.2.1
      refine ⟨U, ?_, ?_, ?_, ?_⟩
      · cases srtd <;> exact u1
      · have : (sortAtom srt srtd (build i a)).numNeighborsUnique =
          (build i a).numNeighborsUnique := by cases srtd <;> rfl
        rw [this, u2, hca.2.2.2]; omega
      · rw [List.nodup_cons]
        exact ⟨fun h => ((u4 i).1 h).1 rfl, u3⟩
      · intro k
        rw [u4]
        simp only [hperm.mem_iff]
    · have hr : (sortAtom srt srtd (build i a)).r = a.r := by cases srtd <;> exact hp.same.r
      rw [hr]
      obtain ⟨w, hw1, hw2⟩ := List.perm_comp_forall₂ hperm hd
      exact ⟨w, (hw2.nodup_iff).2 hnd, fun p => by rw [hw2.mem_iff, hmem], hw1⟩
    · intro e
      have : (sortAtom srt srtd (build i a)).numNeighborsPerElement =
          (build i a).numNeighborsPerElement := by cases srtd <;> rfl
      rw [this, hp.elem, hperm.countP_eq]
  have hlen : s'.atoms.length = s.atoms.length := by rw [e2, List.length_mapIdx]
  refine ⟨s', e1, ⟨e4, e5, e6, e7, ?_⟩, ?_, e9, atom⟩
  · apply List.ext_getElem?
    intro i
    rw [List.getElem?_map, List.getElem?_map]
    cases ha : s.atoms[i]? with
    | none =>
      rw [List.getElem?_eq_none_iff] at ha
      rw [List.getElem?_eq_none (by omega)]
    | some a =>
      obtain ⟨a', h1, h2, h3, -⟩ := atom i a ha
      rw [h1, Option.map_some, Option.map_some, h2, h3]
  · intro hs
    refine ⟨e8 hs, fun a ha => ?_⟩
    obtain ⟨i, hi⟩ := List.mem_iff_getElem?.1 ha
    rw [e2] at hi
    obtain ⟨b, -, rfl⟩ := getElem?_built hi
    subst hs
    exact (hsrt _).2

theorem resizeNat_same {l : List ℕ} {n : ℕ} (h : l.length = n) : resizeNat l n = l := by
  unfold resizeNat
  rw [List.take_of_length_le (by omega), h, Nat.sub_self, List.replicate_zero, List.append_nil]

theorem clear_shape (s : Structure) : SameShape s s.clearNeighborList := by
  refine ⟨rfl, rfl, rfl, rfl, ?_⟩
  simp only [Structure.clearNeighborList, List.map_map]
  rfl

theorem clear_cleared (s : Structure) : ∀ a ∈ s.clearNeighborList.atoms, Cleared a := by
  intro a ha
  simp only [Structure.clearNeighborList, List.mem_map] at ha
  obtain ⟨b, -, rfl⟩ := ha
  exact ⟨rfl, rfl, rfl, rfl⟩

theorem clear_get {s : Structure} {i : ℕ} {a : Atom} (ha : s.atoms[i]? = some a)
    (hl : a.numNeighborsPerElement.length = s.numElements) :
    ∃ b, s.clearNeighborList.atoms[i]? = some b ∧
      b.numNeighborsPerElement = a.numNeighborsPerElement ∧
      b.neighborCutoffs = a.neighborCutoffs ∧ b.r = a.r ∧ b.element = a.element := by
  refine ⟨({ a with numNeighborsPerElement := resizeNat a.numNeighborsPerElement s.numElements } :
      Atom).clearNeighborList (resizeNat a.numNeighborsPerElement s.numElements).length, ?_,
    ?_, rfl, rfl, rfl⟩
  · simp only [Structure.clearNeighborList, List.getElem?_map, ha, Option.map_some]
  · simp only [Atom.clearNeighborList]
    rw [resizeNat_same hl, resizeNat_same rfl]

theorem clear_get_cut {s : Structure} {i : ℕ} {a : Atom} (ha : s.atoms[i]? = some a) :
    ∃ b, s.clearNeighborList.atoms[i]? = some b ∧ b.neighborCutoffs = a.neighborCutoffs := by
  refine ⟨({ a with numNeighborsPerElement := resizeNat a.numNeighborsPerElement s.numElements } :
      Atom).clearNeighborList (resizeNat a.numNeighborsPerElement s.numElements).length, ?_, rfl⟩
  simp only [Structure.clearNeighborList, List.getElem?_map, ha, Option.map_some]

theorem find?_cutoffMapLoop_old (N : ℕ) (l : List Neighbor) (cut : List ℝ) {c : ℝ} {v : ℕ} :
    ∀ (fuel inn ic : ℕ) (m : CMap ℝ ℕ), (open Classical in m.find? c = some v) →
      (open Classical in (cutoffMapLoop N l cut fuel inn ic m).find? c = some v) := by
  classical
  have emp : ∀ (m : CMap ℝ ℕ) c' w, m.find? c = some v → (m.emplace c' w).find? c = some v := by
    intro m c' w h
    rw [CMap.find?_emplace]
    split
    · rename_i e; subst e; rw [h]; rfl
    · exact h
  intro fuel
  induction fuel with
  | zero => intro inn ic m h; exact h
  | succ f ih =>
    intro inn ic m h
    unfold cutoffMapLoop
    split
    · split
      · exact ih _ _ _ (emp _ _ _ h)
      · split
        · exact ih _ _ _ (emp _ _ _ h)
        · exact ih _ _ _ h
    · exact h

open Classical in
/-- Building a sorted list with cutoffs on atoms without neighbours. -/
theorem build_cutoffs {srt : List Neighbor → List Neighbor} (hsrt : IsSort srt) {s : Structure}
    {rc : ℝ} (hrc : 0 ≤ max rc s.maxCutoffRadiusOverall) (hb : Boxed s)
    (hcl : ∀ a ∈ s.atoms, Cleared a) {cutoffs : List (List ℝ)}
    (hc : ∀ a ∈ s.atoms, a.element < cutoffs.length) :
    ∃ s', s.calculateNeighborListCutoffs srt rc cutoffs = some s' ∧ SameShape s s' ∧
      ∀ i a, s.atoms[i]? = some a → ∃ a', s'.atoms[i]? = some a' ∧ a'.r = a.r ∧
        a'.element = a.element ∧ a'.neighbors.Pairwise (fun x y => x.d ≤ y.d) ∧
        ListOk s (max rc s.maxCutoffRadiusOverall) i a' ∧
        ∃ cut, cutoffs[a.element]? = some cut ∧ ∀ c, a'.neighborCutoffs.find? c =
          match a.neighborCutoffs.find? c with
          | some v => some v
          | none => if a'.neighbors ≠ [] ∧ (c ∈ cut ∨ (0 < s.maxCutoffRadiusOverall ∧
              c = s.maxCutoffRadiusOverall))
            then some (a'.neighbors.countP (fun nb => decide (nb.d ≤ c))) else none := by
  obtain ⟨t, e, hsame, hsorted, -, hat⟩ := build_cleared hsrt hrc hb hcl true
  obtain ⟨hflag, hpw⟩ := hsorted rfl
  unfold Structure.calculateNeighborListCutoffs Structure.setupNeighborCutoffMap
  simp only [e, Option.bind_eq_bind, Option.bind_some, hflag]
  have hex : ∀ a ∈ t.atoms, ∃ cut, cutoffs[a.element]? = some cut := by
    intro a ha
    obtain ⟨i, hi⟩ := List.mem_iff_getElem?.1 ha
    obtain ⟨a0, ha0, -, he⟩ := hsame.symm.get hi
    have := hc a0 (List.mem_of_getElem? ha0)
    rw [he] at this
    exact ⟨_, List.getElem?_eq_getElem this⟩
  obtain ⟨m, hm⟩ := mapM_exists (l := t.atoms) (f := fun a : Atom =>
      ((cutoffs.map (prepareCutoffs t.maxCutoffRadiusOverall))[a.element]?).map (fun c =>
      { a with neighborCutoffs := (cutoffMapLoop a.numNeighbors a.neighbors c
          (a.numNeighbors + c.length) 0 0 a.neighborCutoffs) })) (by
    intro a ha
    obtain ⟨cut, hcut⟩ := hex a ha
    rw [List.getElem?_map, hcut]
    exact ⟨_, rfl⟩)
  rw [hm]
  have hml := (mapM_some hm).1
  have atom : ∀ i a, s.atoms[i]? = some a → ∃ a', m[i]? = some a' ∧ a'.r = a.r ∧
        a'.element = a.element ∧ a'.neighbors.Pairwise (fun x y => x.d ≤ y.d) ∧
        ListOk s (max rc s.maxCutoffRadiusOverall) i a' ∧
        ∃ cut, cutoffs[a.element]? = some cut ∧ ∀ c, a'.neighborCutoffs.find? c =
          match a.neighborCutoffs.find? c with
          | some v => some v
          | none => if a'.neighbors ≠ [] ∧ (c ∈ cut ∨ (0 < s.maxCutoffRadiusOverall ∧
              c = s.maxCutoffRadiusOverall))
            then some (a'.neighbors.countP (fun nb => decide (nb.d ≤ c))) else none := by
    intro i a0 ha0
    obtain ⟨a, hti, hr, hel, hcc, -, lok, -⟩ := hat i a0 ha0
    obtain ⟨a', hi, hb2⟩ := (mapM_some hm).2 i a hti
    have hmem := List.mem_of_getElem? hti
    obtain ⟨cut, hcut⟩ := hex a hmem
    rw [List.getElem?_map, hcut] at hb2
    have hb2 := (Option.some.inj hb2).symm
    have hsrtd := hpw a hmem
    rw [hsame.cut] at hb2
    have hnum := lok.num
    have hnb : a'.neighbors = a.neighbors := by rw [hb2]
    refine ⟨a', hi, ?_, ?_, by rw [hnb]; exact hsrtd, ⟨?_, ?_, ?_⟩, cut, by rw [← hel]; exact hcut,
      ?_⟩
    · rw [hb2]; exact hr
    · rw [hb2]; exact hel
    · rw [hb2]; exact hnum
    · rw [hb2]; exact lok.uniq
    · rw [hb2]; exact lok.imgs
    · intro c
      rw [hnb]
      have hb3 : a'.neighborCutoffs = cutoffMapLoop a.numNeighbors a.neighbors
          (prepareCutoffs s.maxCutoffRadiusOverall cut) (a.numNeighbors +
            (prepareCutoffs s.maxCutoffRadiusOverall cut).length) 0 0 a0.neighborCutoffs := by
        rw [hb2, ← hcc]
      rw [hb3]
      by_cases hne : a.neighbors = []
      · have : a.numNeighbors = 0 := by rw [hnum, hne]; rfl
        rw [this, cutoffMapLoop_zero, if_neg (fun h => h.1 hne)]
        cases a0.neighborCutoffs.find? c <;> rfl
      · have hpos : 0 < a.numNeighbors := by
          rw [hnum]; exact List.length_pos_iff.2 hne
        rw [cutoffMapLoop_spec hnum hsrtd (sorted_prepareCutoffs _ _) _ 0 0 _ hpos (by omega)
          (by simp) c]
        simp only [List.drop_zero, mem_prepareCutoffs]
        cases a0.neighborCutoffs.find? c with
        | some v => rfl
        | none => simp [hne]
  refine ⟨_, rfl, ⟨hsame.per, hsame.box, hsame.ne, hsame.cut, ?_⟩, atom⟩
  have hlen : m.length = s.atoms.length := by
    rw [hml]; simpa using congrArg List.length hsame.atoms
  apply List.ext_getElem?
  intro i
  simp only
  rw [List.getElem?_map, List.getElem?_map]
  cases ha : s.atoms[i]? with
  | none =>
    rw [List.getElem?_eq_none_iff] at ha
    rw [List.getElem?_eq_none (by omega)]
  | some a =>
    obtain ⟨a', h1, h2, h3, -⟩ := atom i a ha
    rw [h1, Option.map_some, Option.map_some, h2, h3]

theorem len_neg (v : Vec3) : len (-v) = len v := by rw [len_eq, len_eq, norm_neg]

theorem isImage_symm {s : Structure} {rc : ℝ} {i j : ℕ} {n : Fin 3 → ℤ}
    (h : IsImage s rc i (j, n)) : IsImage s rc j (i, -n) := by
  obtain ⟨a, c, h1, h2, h3, h4, h5⟩ := h
  refine ⟨c, a, h2, h1, ?_, ?_, ?_⟩
  · rcases h3 with h3 | h3
    · exact Or.inl h3
    · right; show -n = 0; rw [neg_eq_zero]; exact h3
  · intro e
    apply h4
    simp only [Prod.mk.injEq, neg_eq_zero] at e ⊢
    exact ⟨e.1.symm, e.2⟩
  · have : c.r - a.r + shift s.box (-n) = -(a.r - c.r + shift s.box n) := by
      rw [shift_neg]; abel
    simp only
    rw [this, len_neg]; exact h5

end N2P2
