import Mathlib.Data.List.Forall2
import Mathlib.Data.List.Perm.Lattice
import Verif.Lemma.Neighbor

/-! Complete description of the neighbour list of one atom and of a structure. -/

namespace N2P2

theorem forall₂_map {α β γ : Type} {R : β → γ → Prop} (l : List α) (f : α → β) (g : α → γ)
    (h : ∀ x ∈ l, R (f x) (g x)) : List.Forall₂ R (l.map f) (l.map g) := by
  induction l with
  | nil => exact .nil
  | cons a t ih => exact .cons (h a (by simp)) (ih (fun x hx => h x (by simp [hx])))

theorem forall₂_fwd {β γ : Type} {R : β → γ → Prop} {l : List β} {m : List γ}
    (h : List.Forall₂ R l m) : ∀ x ∈ l, ∃ y ∈ m, R x y := by
  induction h with
  | nil => simp
  | cons hx _ ih =>
    intro x hm
    rcases List.mem_cons.1 hm with rfl | hm
    · exact ⟨_, List.mem_cons_self, hx⟩
    · obtain ⟨y, hy, hR⟩ := ih x hm
      exact ⟨y, List.mem_cons_of_mem _ hy, hR⟩

theorem forall₂_bwd {β γ : Type} {R : β → γ → Prop} {l : List β} {m : List γ}
    (h : List.Forall₂ R l m) : ∀ y ∈ m, ∃ x ∈ l, R x y := by
  induction h with
  | nil => simp
  | cons hx _ ih =>
    intro y hm
    rcases List.mem_cons.1 hm with rfl | hm
    · exact ⟨_, List.mem_cons_self, hx⟩
    · obtain ⟨x, hy, hR⟩ := ih y hm
      exact ⟨x, List.mem_cons_of_mem _ hy, hR⟩

theorem forall₂_append {β γ : Type} {R : β → γ → Prop} {l1 l2 : List β} {m1 m2 : List γ}
    (h1 : List.Forall₂ R l1 m1) (h2 : List.Forall₂ R l2 m2) :
    List.Forall₂ R (l1 ++ l2) (m1 ++ m2) := by
  induction h1 with
  | nil => exact h2
  | cons h _ ih => exact .cons h ih

theorem forall₂_flatMap {α β γ : Type} {R : β → γ → Prop} (l : List α) (f : α → List β)
    (g : α → List γ) (h : ∀ x ∈ l, List.Forall₂ R (f x) (g x)) :
    List.Forall₂ R (l.flatMap f) (l.flatMap g) := by
  induction l with
  | nil => exact .nil
  | cons a t ih =>
    rw [List.flatMap_cons, List.flatMap_cons]
    exact forall₂_append (h a (by simp)) (ih (fun x hx => h x (by simp [hx])))

/-- Box indices as a coefficient vector. -/
def bcVec (bc : ℤ × ℤ × ℤ) : Fin 3 → ℤ := ![bc.1, bc.2.1, bc.2.2]

theorem bcVec_inj : Function.Injective bcVec := by
  rintro ⟨a, b, c⟩ ⟨a', b', c'⟩ h
  have h0 := congrFun h 0
  have h1 := congrFun h 1
  have h2 := congrFun h 2
  simp [bcVec] at h0 h1 h2
  simp [*]

theorem bcVec_surj (n : Fin 3 → ℤ) : bcVec (n 0, n 1, n 2) = n := by
  funext k; fin_cases k <;> rfl

theorem bcVec_eq_zero (bc : ℤ × ℤ × ℤ) :
    bcVec bc = 0 ↔ bc.1 = 0 ∧ bc.2.1 = 0 ∧ bc.2.2 = 0 := by
  constructor
  · intro h
    have h0 := congrFun h 0
    have h1 := congrFun h 1
    have h2 := congrFun h 2
    simp [bcVec] at h0 h1 h2
    exact ⟨h0, h1, h2⟩
  · rintro ⟨h0, h1, h2⟩
    funext k
    fin_cases k <;> simp [bcVec, *]

theorem imageDr_eq (box : Fin 3 → Vec3) (ri rj : Vec3) (bc : ℤ × ℤ × ℤ) :
    imageDr box ri rj bc = ri - rj + shift box (bcVec bc) := by
  simp [imageDr, shift, bcVec, Fin.sum_univ_three, add_assoc]

open Classical in
/-- The images recorded for atom `i`. -/
noncomputable def periodicImgs (box : Fin 3 → Vec3) (pbc : Fin 3 → ℤ) (rc2 : ℝ)
    (atoms : List Atom) (i : ℕ) (ri : Vec3) : List (ℕ × (Fin 3 → ℤ)) :=
  (indexed atoms).flatMap (fun j =>
    ((bcList pbc).filter (fun bc => Hit box rc2 i ri j bc)).map (fun bc => (j.1, bcVec bc)))

theorem periodicImgs_nodup (box : Fin 3 → Vec3) (pbc : Fin 3 → ℤ) (rc2 : ℝ)
    (atoms : List Atom) (i : ℕ) (ri : Vec3) : (periodicImgs box pbc rc2 atoms i ri).Nodup := by
  unfold periodicImgs
  rw [List.nodup_flatMap]
  constructor
  · intro j _
    refine List.Nodup.map ?_ ((nodup_bcList pbc).filter _)
    intro a b h
    simp only [Prod.mk.injEq, true_and] at h
    exact bcVec_inj h
  · have := nodup_indexed atoms
    rw [List.Nodup, List.pairwise_map] at this
    refine this.imp ?_
    intro a b hab x hx hy
    simp only [List.mem_map] at hx hy
    obtain ⟨_, _, rfl⟩ := hx
    obtain ⟨_, _, e⟩ := hy
    simp only [Prod.mk.injEq] at e
    exact hab e.1.symm

theorem periodicOut_flatMap (box : Fin 3 → Vec3) (rc2 : ℝ) (i : ℕ) (ri : Vec3) (j : ℕ × Atom)
    (l : List (ℤ × ℤ × ℤ)) :
    l.flatMap (periodicOut box rc2 i ri j) =
      (open Classical in l.filter (fun bc => Hit box rc2 i ri j bc)).map
        (fun bc => mkNb j.1 j.2.element (imageDr box ri j.2.r bc)) := by
  classical
  induction l with
  | nil => rfl
  | cons bc t ih =>
    rw [List.flatMap_cons, ih]
    by_cases h : Hit box rc2 i ri j bc
    · rw [List.filter_cons_of_pos (by simpa using h)]
      simp [periodicOut, h]
    · rw [List.filter_cons_of_neg (by simpa using h)]
      simp [periodicOut, h]

theorem periodicImgs_describes (box : Fin 3 → Vec3) (pbc : Fin 3 → ℤ) (rc2 : ℝ)
    (atoms : List Atom) (i : ℕ) (ri : Vec3) :
    List.Forall₂ (fun nb p => nb.Describes box atoms ri p.1 p.2)
      ((indexed atoms).flatMap (fun j => (bcList pbc).flatMap (periodicOut box rc2 i ri j)))
      (periodicImgs box pbc rc2 atoms i ri) := by
  unfold periodicImgs
  apply forall₂_flatMap
  rintro ⟨j, b⟩ hj
  rw [periodicOut_flatMap]
  apply forall₂_map
  intro bc _
  exact ⟨b, mem_indexed.1 hj, rfl, rfl, rfl, imageDr_eq box ri b.r bc, (len_eq _).symm⟩

/-- The searched copies contain every image within the cutoff. -/
theorem periodicImgs_mem {s : Structure} {rc : ℝ} (hrc : 0 ≤ rc) {pbc : Fin 3 → ℤ}
    (hp : s.calculatePbcCopies rc = some pbc) (hns : NonSingular s.box)
    (hin : ∀ a ∈ s.atoms, InBox s.box a.r) {i : ℕ} {a : Atom} (ha : s.atoms[i]? = some a)
    (j : ℕ) (n : Fin 3 → ℤ) :
    (j, n) ∈ periodicImgs s.box pbc (rc * rc) s.atoms i a.r ↔
      ∃ b, s.atoms[j]? = some b ∧ (j, n) ≠ (i, 0) ∧
        len (a.r - b.r + shift s.box n) ≤ rc := by
  classical
  unfold Structure.calculatePbcCopies at hp
  simp only [Option.bind_eq_bind, Option.bind_eq_some_iff] at hp
  obtain ⟨p0, h0, p1, h1, p2, h2, e⟩ := hp
  have e := (Option.some.inj e).symm
  unfold periodicImgs
  simp only [List.mem_flatMap, List.mem_map, List.mem_filter, decide_eq_true_eq, Prod.mk.injEq,
    Prod.exists]
  constructor
  · rintro ⟨j', b, hj, b0, b1, b2, ⟨-, hit⟩, rfl, rfl⟩
    refine ⟨b, mem_indexed.1 hj, ?_, ?_⟩
    · intro hc
      simp only [Prod.mk.injEq] at hc
      apply hit.1
      have := (bcVec_eq_zero _).1 hc.2
      exact ⟨hc.1.symm, this⟩
    · have := hit.2
      rw [norm2_le_iff _ hrc, imageDr_eq] at this
      rw [len_eq]; exact this
  · rintro ⟨b, hb, hne, hl⟩
    refine ⟨j, b, mem_indexed.2 hb, n 0, n 1, n 2, ⟨?_, ?_, ?_⟩, rfl, bcVec_surj n⟩
    · obtain ⟨f, hf, ef⟩ := hin a (List.mem_of_getElem? ha)
      obtain ⟨g, hg, eg⟩ := hin b (List.mem_of_getElem? hb)
      have hdr : a.r - b.r + shift s.box n = cartesian s.box (f - g + fun k => (n k : ℝ)) := by
        rw [cartesian_add, cartesian_sub, ef, eg, shift_eq]
      rw [len_eq, hdr] at hl
      have key : ∀ k, |(f k - g k) + n k| * boxProj s.box k ≤ rc := fun k =>
        (boxProj_bound hns (f - g + fun k => (n k : ℝ)) k).trans hl
      have hx : ∀ k, |f k - g k| < 1 := by
        intro k
        have := hf k
        have := hg k
        rw [abs_lt]; constructor <;> linarith
      have c0 := copies_suffice (boxProj_pos hns 0) h0 (hx 0) (key 0)
      have c1 := copies_suffice (boxProj_pos hns 1) h1 (hx 1) (key 1)
      have c2 := copies_suffice (boxProj_pos hns 2) h2 (hx 2) (key 2)
      subst e
      rw [mem_bcList]
      exact ⟨(mem_bcRange (Int.natCast_nonneg _)).2 c0, (mem_bcRange (Int.natCast_nonneg _)).2 c1,
        (mem_bcRange (Int.natCast_nonneg _)).2 c2⟩
    · rintro ⟨hi, z0, z1, z2⟩
      apply hne
      rw [Prod.mk.injEq]
      exact ⟨hi.symm, by rw [← bcVec_surj n]; exact (bcVec_eq_zero _).2 ⟨z0, z1, z2⟩⟩
    · rw [norm2_le_iff _ hrc, imageDr_eq, bcVec_surj]
      rw [len_eq] at hl; exact hl

open Classical in
/-- The atoms recorded for atom `i`, non-periodic. -/
noncomputable def openImgs (rc2 : ℝ) (atoms : List Atom) (i : ℕ) (ri : Vec3) :
    List (ℕ × (Fin 3 → ℤ)) :=
  ((indexed atoms).filter (fun j => i ≠ j.1 ∧ (ri - j.2.r).norm2 ≤ rc2)).map
    (fun j => (j.1, 0))

theorem openOut_flatMap (rc2 : ℝ) (i : ℕ) (ri : Vec3) (l : List (ℕ × Atom)) :
    l.flatMap (openOut rc2 i ri) =
      (open Classical in l.filter (fun j => i ≠ j.1 ∧ (ri - j.2.r).norm2 ≤ rc2)).map
        (fun j => mkNb j.1 j.2.element (ri - j.2.r)) := by
  classical
  induction l with
  | nil => rfl
  | cons j t ih =>
    rw [List.flatMap_cons, ih]
    by_cases h : i ≠ j.1 ∧ (ri - j.2.r).norm2 ≤ rc2
    · rw [List.filter_cons_of_pos (by simpa using h)]
      simp only [openOut, if_pos h]
      rfl
    · rw [List.filter_cons_of_neg (by simpa using h)]
      simp only [openOut, if_neg h]
      rfl

theorem openImgs_nodup (rc2 : ℝ) (atoms : List Atom) (i : ℕ) (ri : Vec3) :
    ((openImgs rc2 atoms i ri).map Prod.fst).Nodup := by
  classical
  unfold openImgs
  rw [List.map_map]
  have := nodup_indexed atoms
  rw [List.Nodup, List.pairwise_map] at this ⊢
  exact this.filter _

theorem openImgs_describes (box : Fin 3 → Vec3) (rc2 : ℝ) (atoms : List Atom) (i : ℕ) (ri : Vec3) :
    List.Forall₂ (fun nb p => nb.Describes box atoms ri p.1 p.2)
      ((indexed atoms).flatMap (openOut rc2 i ri)) (openImgs rc2 atoms i ri) := by
  classical
  rw [openOut_flatMap]
  apply forall₂_map
  rintro ⟨j, b⟩ hj
  refine ⟨b, mem_indexed.1 (List.mem_of_mem_filter hj), rfl, rfl, rfl, ?_, (len_eq _).symm⟩
  rw [shift_zero, add_zero]; rfl

theorem openImgs_mem {rc : ℝ} (hrc : 0 ≤ rc) (box : Fin 3 → Vec3) (atoms : List Atom) (i : ℕ)
    (ri : Vec3) (j : ℕ) (n : Fin 3 → ℤ) :
    (j, n) ∈ openImgs (rc * rc) atoms i ri ↔
      ∃ b, atoms[j]? = some b ∧ n = 0 ∧ (j, n) ≠ (i, 0) ∧
        len (ri - b.r + shift box n) ≤ rc := by
  classical
  unfold openImgs
  simp only [List.mem_map, List.mem_filter, decide_eq_true_eq, Prod.mk.injEq, Prod.exists]
  constructor
  · rintro ⟨j', b, ⟨hj, h1, h2⟩, rfl, rfl⟩
    refine ⟨b, mem_indexed.1 hj, rfl, fun h => h1 ?_, ?_⟩
    · simp only [Prod.mk.injEq, and_true] at h; exact h.symm
    · rw [shift_zero, add_zero, len_eq]
      exact (norm2_le_iff _ hrc).1 h2
  · rintro ⟨b, hb, rfl, h1, h2⟩
    rw [shift_zero, add_zero, len_eq] at h2
    exact ⟨j, b, ⟨mem_indexed.2 hb, fun h => h1 (by rw [h]), (norm2_le_iff _ hrc).2 h2⟩, rfl, rfl⟩

/-- Everything known about one atom after the loops, before sorting. -/
structure AtomBuilt (s : Structure) (rc : ℝ) (i : ℕ) (a b : Atom) : Prop where
  pushed : ∃ L, Pushed a b L ∧ ∃ imgs : List (ℕ × (Fin 3 → ℤ)), imgs.Nodup ∧
    (∀ p, p ∈ imgs ↔ IsImage s rc i p) ∧
    List.Forall₂ (fun nb p => nb.Describes s.box s.atoms a.r p.1 p.2) L imgs ∧
    ∃ U : List ℕ, (a.neighborsUnique = [] → b.neighborsUnique = i :: U ∧
      b.numNeighborsUnique = a.numNeighborsUnique + (U.length + 1) ∧ U.Nodup ∧
      ∀ k, k ∈ U ↔ k ≠ i ∧ ∃ nb ∈ L, nb.index = k)
  flag : b.hasNeighborList = true

theorem periodicNeighbors_built {s : Structure} {rc : ℝ} (hrc : 0 ≤ rc) {pbc : Fin 3 → ℤ}
    (hp : s.calculatePbcCopies rc = some pbc) (hper : s.isPeriodic = true)
    (hns : NonSingular s.box)
    (hin : ∀ a ∈ s.atoms, InBox s.box a.r) {i : ℕ} {a : Atom} (ha : s.atoms[i]? = some a) :
    AtomBuilt s rc i a (periodicNeighbors s.box pbc (rc * rc) s.atoms i a) := by
  refine ⟨⟨_, periodicNeighbors_pushed _ _ _ _ _ _, periodicImgs s.box pbc (rc * rc) s.atoms i a.r,
    periodicImgs_nodup _ _ _ _ _ _, ?_, periodicImgs_describes _ _ _ _ _ _, ?_⟩, rfl⟩
  · rintro ⟨j, n⟩
    rw [periodicImgs_mem hrc hp hns hin ha]
    simp [IsImage, hper, ha]
  · by_cases hu : a.neighborsUnique = []
    · obtain ⟨U, e1, e2, e3, e4⟩ := outer_unique s.box (rc * rc) i a.r (bcList pbc)
        (indexed s.atoms) (nodup_indexed _) (a.pushUnique i) (by
          intro j _ hj
          simp only [Atom.pushUnique, hu, List.nil_append, List.mem_singleton]
          exact hj)
      refine ⟨U, fun _ => ⟨?_, ?_, e3, ?_⟩⟩
      · refine e1.trans ?_
        simp [Atom.pushUnique, hu]
      · refine e2.trans ?_
        simp only [Atom.pushUnique]; omega
      · intro k
        rw [e4]
        simp only [List.mem_flatMap, mem_periodicOut]
        constructor
        · rintro ⟨h1, j, hj, rfl, bc, hbc, hit⟩
          exact ⟨h1, _, ⟨j, hj, bc, hbc, hit, rfl⟩, rfl⟩
        · rintro ⟨h1, nb, ⟨j, hj, bc, hbc, hit, rfl⟩, rfl⟩
          exact ⟨h1, j, hj, rfl, bc, hbc, hit⟩
    · exact ⟨[], fun h => absurd h hu⟩

theorem openNeighbors_built {s : Structure} {rc : ℝ} (hrc : 0 ≤ rc) (hper : s.isPeriodic = false)
    {i : ℕ} {a : Atom} (ha : s.atoms[i]? = some a) :
    AtomBuilt s rc i a (openNeighbors (rc * rc) s.atoms i a) := by
  have hnd := openImgs_nodup (rc * rc) s.atoms i a.r
  refine ⟨⟨_, openNeighbors_pushed _ _ _ _, openImgs (rc * rc) s.atoms i a.r,
    hnd.of_map _, ?_, openImgs_describes _ _ _ _ _, ?_⟩, rfl⟩
  · rintro ⟨j, n⟩
    rw [openImgs_mem hrc s.box]
    simp [IsImage, hper, ha]
  · obtain ⟨-, e1, e2⟩ := open_fold (rc * rc) i a.r (indexed s.atoms) (a.pushUnique i)
    refine ⟨((indexed s.atoms).flatMap (openOut (rc * rc) i a.r)).map Neighbor.index,
      fun hu => ⟨?_, ?_, ?_, ?_⟩⟩
    · refine e1.trans ?_
      simp [Atom.pushUnique, hu]
    · refine e2.trans ?_
      simp only [Atom.pushUnique, List.length_map]; omega
    · rw [openOut_flatMap, List.map_map]
      have := hnd
      unfold openImgs at this
      rw [List.map_map] at this
      exact this
    · intro k
      simp only [List.mem_map, List.mem_flatMap, mem_openOut]
      constructor
      · rintro ⟨nb, ⟨j, hj, h1, rfl⟩, rfl⟩
        exact ⟨Ne.symm h1.1, _, ⟨j, hj, h1, rfl⟩, rfl⟩
      · rintro ⟨h1, nb, ⟨j, hj, h2, rfl⟩, rfl⟩
        exact ⟨_, ⟨j, hj, h2, rfl⟩, rfl⟩

theorem map_mapIdx' {α β γ : Type} (l : List α) (f : ℕ → α → β) (g : β → γ) :
    (l.mapIdx f).map g = l.mapIdx (fun i a => g (f i a)) := by
  apply List.ext_getElem?
  intro i
  rw [List.getElem?_map, List.getElem?_mapIdx, List.getElem?_mapIdx, Option.map_map]
  rfl

/-- What sorting does to one atom. -/
def sortAtom (srt : List Neighbor → List Neighbor) (b : Bool) (a : Atom) : Atom :=
  if b then { a with neighbors := srt a.neighbors, neighborListIsSorted := true } else a

theorem calculatePbcCopies_some {s : Structure} (rc : ℝ) (hns : NonSingular s.box) :
    ∃ pbc, s.calculatePbcCopies rc = some pbc := by
  obtain ⟨p0, h0⟩ := whileCount_pos (c := rc) (boxProj_pos hns 0)
  obtain ⟨p1, h1⟩ := whileCount_pos (c := rc) (boxProj_pos hns 1)
  obtain ⟨p2, h2⟩ := whileCount_pos (c := rc) (boxProj_pos hns 2)
  unfold Structure.calculatePbcCopies
  simp only [h0, h1, h2]
  exact ⟨_, rfl⟩

/-- The structure after `calculateNeighborList`. -/
theorem calculateNeighborList_spec (srt : List Neighbor → List Neighbor) {s : Structure} {rc : ℝ}
    (hrc : 0 ≤ max rc s.maxCutoffRadiusOverall) (hb : Boxed s) (srtd : Bool) :
    ∃ (s' : Structure) (build : ℕ → Atom → Atom),
      s.calculateNeighborList srt rc srtd = some s' ∧
      s'.atoms = s.atoms.mapIdx (fun i a => sortAtom srt srtd (build i a)) ∧
      (∀ i a, s.atoms[i]? = some a →
        AtomBuilt s (max rc s.maxCutoffRadiusOverall) i a (build i a)) ∧
      s'.isPeriodic = s.isPeriodic ∧ s'.box = s.box ∧ s'.numElements = s.numElements ∧
      s'.maxCutoffRadiusOverall = s.maxCutoffRadiusOverall ∧
      (srtd = true → s'.neighborListIsSorted = true) ∧ s'.hasNeighborList = true := by
  unfold Structure.calculateNeighborList
  cases hp : s.isPeriodic with
  | true =>
    obtain ⟨hns, hin⟩ := hb hp
    obtain ⟨pbc, hpbc⟩ := calculatePbcCopies_some (max rc s.maxCutoffRadiusOverall) hns
    simp only [hpbc, if_true, Option.bind_eq_bind, Option.bind_some, Option.pure_def]
    refine ⟨_, fun i a => periodicNeighbors s.box pbc
      (max rc s.maxCutoffRadiusOverall * max rc s.maxCutoffRadiusOverall) s.atoms i a, rfl, ?_,
      fun i a ha => periodicNeighbors_built hrc hpbc hp hns hin ha, ?_⟩
    · cases srtd
      · simp [sortAtom]
      · exact map_mapIdx' _ _ _
    · cases srtd <;> simp [Structure.sortNeighborList]
  | false =>
    simp only [Bool.false_eq_true, if_false, Option.bind_eq_bind, Option.bind_some,
      Option.pure_def]
    refine ⟨_, fun i a => openNeighbors
      (max rc s.maxCutoffRadiusOverall * max rc s.maxCutoffRadiusOverall) s.atoms i a, rfl, ?_,
      fun i a ha => openNeighbors_built hrc hp ha, ?_⟩
    · cases srtd
      · simp [sortAtom]
      · exact map_mapIdx' _ _ _
    · cases srtd <;> simp [Structure.sortNeighborList]

theorem getElem?_built {atoms : List Atom} {f : ℕ → Atom → Atom} {i : ℕ} {a : Atom}
    (h : (atoms.mapIdx f)[i]? = some a) : ∃ b, atoms[i]? = some b ∧ a = f i b := by
  rw [List.getElem?_mapIdx] at h
  obtain ⟨b, hb, rfl⟩ := Option.map_eq_some_iff.1 h
  exact ⟨b, hb, rfl⟩

theorem sortAtom_neighbors {srt : List Neighbor → List Neighbor} (hs : IsSort srt) (b : Bool)
    (a : Atom) : ((sortAtom srt b a).neighbors).Perm a.neighbors := by
  unfold sortAtom
  split
  · exact (hs _).1
  · exact List.Perm.refl _

end N2P2
