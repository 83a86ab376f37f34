import Mathlib.Data.List.Basic
import Mathlib.Data.List.Nodup
import Mathlib.Data.List.Perm.Basic
import Mathlib.Tactic.Tauto
import Verif.Lemma.Geometry

/-! The loops that build neighbour lists. -/

namespace N2P2

/-- The neighbour record written for atom `j` at distance vector `dr`. -/
noncomputable def mkNb (j e : ℕ) (dr : Vec3) : Neighbor :=
  { index := j, tag := (j : Int), element := e, d := dr.norm, dr := dr, cache := [], dGdr := [] }

theorem mem_bcRange {p b : ℤ} (hp : 0 ≤ p) : b ∈ bcRange p ↔ -p ≤ b ∧ b ≤ p := by
  simp only [bcRange, List.mem_map, List.mem_range]
  constructor
  · rintro ⟨k, hk, rfl⟩; omega
  · intro h; exact ⟨(b + p).toNat, by omega, by omega⟩

theorem nodup_bcRange (p : ℤ) : (bcRange p).Nodup := by
  unfold bcRange
  refine List.Nodup.map (fun a b h => ?_) List.nodup_range
  have h' : (a : ℤ) - p = b - p := h
  omega

theorem mem_bcList {pbc : Fin 3 → ℤ} {b0 b1 b2 : ℤ} :
    (b0, b1, b2) ∈ bcList pbc ↔ b0 ∈ bcRange (pbc 0) ∧ b1 ∈ bcRange (pbc 1) ∧
      b2 ∈ bcRange (pbc 2) := by
  simp [bcList]

theorem nodup_bcList (pbc : Fin 3 → ℤ) : (bcList pbc).Nodup := by
  unfold bcList
  rw [List.nodup_flatMap]
  refine ⟨fun b0 _ => ?_, (nodup_bcRange _).imp ?_⟩
  · rw [List.nodup_flatMap]
    refine ⟨fun b1 _ => ?_, (nodup_bcRange _).imp ?_⟩
    · exact (nodup_bcRange _).map (fun a b h => by simpa using h)
    · intro a b hab x hx hy
      simp only [List.mem_map] at hx hy
      obtain ⟨_, _, rfl⟩ := hx
      obtain ⟨_, _, e⟩ := hy
      simp only [Prod.mk.injEq] at e
      exact hab e.2.1.symm
  · intro a b hab x hx hy
    simp only [List.mem_map, List.mem_flatMap] at hx hy
    obtain ⟨_, _, _, _, rfl⟩ := hx
    obtain ⟨_, _, _, _, e⟩ := hy
    simp only [Prod.mk.injEq] at e
    exact hab e.1.symm

/-- Indexed atoms. -/
def indexed (atoms : List Atom) : List (ℕ × Atom) := atoms.zipIdx.map Prod.swap

theorem mem_indexed {atoms : List Atom} {j : ℕ} {b : Atom} :
    (j, b) ∈ indexed atoms ↔ atoms[j]? = some b := by
  simp only [indexed, List.mem_map, Prod.exists, Prod.swap_prod_mk, Prod.mk.injEq]
  constructor
  · rintro ⟨a, k, h, rfl, rfl⟩
    exact List.mem_zipIdx_iff_getElem?.1 h
  · intro h
    exact ⟨b, j, List.mem_zipIdx_iff_getElem?.2 h, rfl, rfl⟩

theorem map_fst_indexed (atoms : List Atom) :
    (indexed atoms).map Prod.fst = List.range atoms.length := by
  simp only [indexed, List.map_map]
  have : (Prod.fst ∘ Prod.swap : Atom × ℕ → ℕ) = Prod.snd := rfl
  rw [this, List.zipIdx_map_snd, List.range_eq_range']

theorem nodup_indexed (atoms : List Atom) : ((indexed atoms).map Prod.fst).Nodup := by
  rw [map_fst_indexed]; exact List.nodup_range

/-- Fields written by the neighbour loops; all others are kept. -/
structure SameElse (a b : Atom) : Prop where
  r : b.r = a.r
  element : b.element = a.element
  cut : b.neighborCutoffs = a.neighborCutoffs
  index : b.index = a.index

theorem SameElse.refl (a : Atom) : SameElse a a := ⟨rfl, rfl, rfl, rfl⟩

theorem SameElse.trans {a b c : Atom} (h : SameElse a b) (h' : SameElse b c) : SameElse a c :=
  ⟨h'.r.trans h.r, h'.element.trans h.element, h'.cut.trans h.cut, h'.index.trans h.index⟩

/-- Result of appending the neighbours `L` (index, element, distance vector) to an atom, apart from
the unique neighbours. -/
structure Pushed (a b : Atom) (L : List Neighbor) : Prop where
  same : SameElse a b
  nbs : b.neighbors = a.neighbors ++ L
  num : b.numNeighbors = a.numNeighbors + L.length
  elem : ∀ e : ℕ, b.numNeighborsPerElement[e]? =
    (a.numNeighborsPerElement[e]?).map (· + L.countP (fun n => n.element = e))

theorem Pushed.nil (a : Atom) : Pushed a a [] :=
  ⟨.refl a, by simp, by simp, by simp⟩

theorem Pushed.trans {a b c : Atom} {L M : List Neighbor} (h : Pushed a b L) (h' : Pushed b c M) :
    Pushed a c (L ++ M) := by
  refine ⟨h.same.trans h'.same, ?_, ?_, ?_⟩
  · rw [h'.nbs, h.nbs, List.append_assoc]
  · rw [h'.num, h.num, List.length_append]; omega
  · intro e
    rw [h'.elem, h.elem, Option.map_map, List.countP_append]
    congr 1
    funext x
    simp only [Function.comp]
    omega

theorem Pushed.push (a : Atom) (j e : ℕ) (dr : Vec3) :
    Pushed a (a.pushNeighbor j e dr) [mkNb j e dr] := by
  refine ⟨⟨rfl, rfl, rfl, rfl⟩, rfl, rfl, ?_⟩
  intro e'
  simp only [Atom.pushNeighbor, List.getElem?_modify, List.countP_singleton, mkNb,
    decide_eq_true_eq]
  by_cases h : e = e'
  · simp [h]
  · simp [h]

theorem Pushed.unique {a b : Atom} {L : List Neighbor} (h : Pushed a b L) (j : ℕ) :
    Pushed a (b.pushUnique j) L :=
  ⟨⟨h.same.r, h.same.element, h.same.cut, h.same.index⟩, h.nbs, h.num, h.elem⟩

/-- Folding steps that each push some neighbours. -/
theorem Pushed.fold {α : Type} (step : Atom → α → Atom) (out : α → List Neighbor)
    (h : ∀ a x, Pushed a (step a x) (out x)) (l : List α) (a : Atom) :
    Pushed a (l.foldl step a) (l.flatMap out) := by
  induction l generalizing a with
  | nil => exact Pushed.nil a
  | cons x t ih =>
    rw [List.foldl_cons, List.flatMap_cons]
    exact (h a x).trans (ih _)

open Classical in
/-- Does the periodic loop record the image `bc` of atom `j`? -/
def Hit (box : Fin 3 → Vec3) (rc2 : ℝ) (i : ℕ) (ri : Vec3) (j : ℕ × Atom)
    (bc : ℤ × ℤ × ℤ) : Prop :=
  ¬ (i = j.1 ∧ bc.1 = 0 ∧ bc.2.1 = 0 ∧ bc.2.2 = 0) ∧ (imageDr box ri j.2.r bc).norm2 ≤ rc2

open Classical in
noncomputable def periodicOut (box : Fin 3 → Vec3) (rc2 : ℝ) (i : ℕ) (ri : Vec3) (j : ℕ × Atom)
    (bc : ℤ × ℤ × ℤ) : List Neighbor :=
  if Hit box rc2 i ri j bc then [mkNb j.1 j.2.element (imageDr box ri j.2.r bc)] else []

theorem periodicStep_pushed (box : Fin 3 → Vec3) (rc2 : ℝ) (i : ℕ) (ri : Vec3) (j : ℕ × Atom)
    (a : Atom) (bc : ℤ × ℤ × ℤ) :
    Pushed a (periodicStep box rc2 i ri a j bc) (periodicOut box rc2 i ri j bc) := by
  unfold periodicStep periodicOut
  by_cases h1 : ¬ (i = j.1 ∧ bc.1 = 0 ∧ bc.2.1 = 0 ∧ bc.2.2 = 0)
  · rw [if_pos h1]
    simp only
    by_cases h2 : (imageDr box ri j.2.r bc).norm2 ≤ rc2
    · rw [if_pos h2, if_pos (show Hit box rc2 i ri j bc from ⟨h1, h2⟩)]
      split
      · exact (Pushed.push _ _ _ _).unique _
      · exact Pushed.push _ _ _ _
    · rw [if_neg h2, if_neg (fun h => h2 h.2)]
      exact Pushed.nil a
  · rw [if_neg h1, if_neg (fun h => h1 h.1)]
    exact Pushed.nil a

theorem periodicStep_unique (box : Fin 3 → Vec3) (rc2 : ℝ) (i : ℕ) (ri : Vec3) (j : ℕ × Atom)
    (a : Atom) (bc : ℤ × ℤ × ℤ) :
    (¬ (Hit box rc2 i ri j bc ∧ i ≠ j.1 ∧ a.neighborsUnique.getLast? ≠ some j.1) →
      (periodicStep box rc2 i ri a j bc).neighborsUnique = a.neighborsUnique ∧
      (periodicStep box rc2 i ri a j bc).numNeighborsUnique = a.numNeighborsUnique) ∧
    (Hit box rc2 i ri j bc → i ≠ j.1 → a.neighborsUnique.getLast? ≠ some j.1 →
      (periodicStep box rc2 i ri a j bc).neighborsUnique = a.neighborsUnique ++ [j.1] ∧
      (periodicStep box rc2 i ri a j bc).numNeighborsUnique = a.numNeighborsUnique + 1) := by
  unfold periodicStep
  by_cases h1 : ¬ (i = j.1 ∧ bc.1 = 0 ∧ bc.2.1 = 0 ∧ bc.2.2 = 0)
  · rw [if_pos h1]
    simp only
    by_cases h2 : (imageDr box ri j.2.r bc).norm2 ≤ rc2
    · rw [if_pos h2]
      by_cases h3 : a.neighborsUnique.getLast? ≠ some j.1 ∧ i ≠ j.1
      · rw [if_pos (show (a.pushNeighbor j.1 j.2.element _).neighborsUnique.getLast? ≠ some j.1 ∧
          i ≠ j.1 from h3)]
        refine ⟨fun h => absurd ⟨⟨h1, h2⟩, h3.2, h3.1⟩ h, fun _ _ _ => ⟨rfl, rfl⟩⟩
      · rw [if_neg (show ¬ ((a.pushNeighbor j.1 j.2.element _).neighborsUnique.getLast? ≠
          some j.1 ∧ i ≠ j.1) from h3)]
        refine ⟨fun _ => ⟨rfl, rfl⟩, fun _ h h' => absurd ⟨h', h⟩ h3⟩
    · rw [if_neg h2]
      exact ⟨fun _ => ⟨rfl, rfl⟩, fun h => absurd h.2 h2⟩
  · rw [if_neg h1]
    exact ⟨fun _ => ⟨rfl, rfl⟩, fun h => absurd h.1 h1⟩

/-- Inner loops once atom `j` is the last unique neighbour, or `j` is the atom itself. -/
theorem inner_same (box : Fin 3 → Vec3) (rc2 : ℝ) (i : ℕ) (ri : Vec3) (j : ℕ × Atom)
    (l : List (ℤ × ℤ × ℤ)) (a : Atom) (h : i = j.1 ∨ a.neighborsUnique.getLast? = some j.1) :
    (l.foldl (fun a bc => periodicStep box rc2 i ri a j bc) a).neighborsUnique =
      a.neighborsUnique ∧
    (l.foldl (fun a bc => periodicStep box rc2 i ri a j bc) a).numNeighborsUnique =
      a.numNeighborsUnique := by
  induction l generalizing a with
  | nil => exact ⟨rfl, rfl⟩
  | cons bc t ih =>
    rw [List.foldl_cons]
    have := (periodicStep_unique box rc2 i ri j a bc).1 (by
      rintro ⟨-, h1, h2⟩
      rcases h with h | h
      · exact h1 h
      · exact h2 h)
    have := ih (periodicStep box rc2 i ri a j bc) (by rw [this.1]; exact h)
    rw [this.1, this.2]
    assumption

open Classical in
/-- Inner loops for an atom `j` that is not yet a unique neighbour. -/
theorem inner_new (box : Fin 3 → Vec3) (rc2 : ℝ) (i : ℕ) (ri : Vec3) (j : ℕ × Atom)
    (l : List (ℤ × ℤ × ℤ)) (a : Atom) (hij : i ≠ j.1) (h : j.1 ∉ a.neighborsUnique) :
    (l.foldl (fun a bc => periodicStep box rc2 i ri a j bc) a).neighborsUnique =
      a.neighborsUnique ++ (if ∃ bc ∈ l, Hit box rc2 i ri j bc then [j.1] else []) ∧
    (l.foldl (fun a bc => periodicStep box rc2 i ri a j bc) a).numNeighborsUnique =
      a.numNeighborsUnique + (if ∃ bc ∈ l, Hit box rc2 i ri j bc then [j.1] else []).length := by
  induction l generalizing a with
  | nil => simp
  | cons bc t ih =>
    rw [List.foldl_cons]
    have hlast : a.neighborsUnique.getLast? ≠ some j.1 :=
      fun e => h (List.mem_of_getLast? e)
    by_cases hh : Hit box rc2 i ri j bc
    · have h1 := (periodicStep_unique box rc2 i ri j a bc).2 hh hij hlast
      have h2 := inner_same box rc2 i ri j t (periodicStep box rc2 i ri a j bc)
        (Or.inr (by rw [h1.1]; simp))
      rw [if_pos ⟨bc, by simp, hh⟩, h2.1, h2.2, h1.1, h1.2]
      exact ⟨rfl, rfl⟩
    · have h1 := (periodicStep_unique box rc2 i ri j a bc).1 (fun h => hh h.1)
      have h2 := ih (periodicStep box rc2 i ri a j bc) (by rw [h1.1]; exact h)
      rw [h2.1, h2.2, h1.1, h1.2]
      have : (∃ bc' ∈ bc :: t, Hit box rc2 i ri j bc') ↔ ∃ bc' ∈ t, Hit box rc2 i ri j bc' := by
        simp [hh]
      simp only [this]
      exact ⟨trivial, trivial⟩

/-- Outer loop: each other atom with a recorded image is added once. -/
theorem outer_unique (box : Fin 3 → Vec3) (rc2 : ℝ) (i : ℕ) (ri : Vec3) (bcs : List (ℤ × ℤ × ℤ))
    (js : List (ℕ × Atom)) (hnd : (js.map Prod.fst).Nodup) (a : Atom)
    (hdis : ∀ j ∈ js, j.1 ≠ i → j.1 ∉ a.neighborsUnique) :
    ∃ U : List ℕ,
      (js.foldl (fun a' j => bcs.foldl (fun a'' bc => periodicStep box rc2 i ri a'' j bc) a')
        a).neighborsUnique = a.neighborsUnique ++ U ∧
      (js.foldl (fun a' j => bcs.foldl (fun a'' bc => periodicStep box rc2 i ri a'' j bc) a')
        a).numNeighborsUnique = a.numNeighborsUnique + U.length ∧
      U.Nodup ∧
      (∀ k, k ∈ U ↔ k ≠ i ∧ ∃ j ∈ js, j.1 = k ∧ ∃ bc ∈ bcs, Hit box rc2 i ri j bc) := by
  classical
  induction js generalizing a with
  | nil => exact ⟨[], by simp, by simp, by simp, by simp⟩
  | cons j t ih =>
    simp only [List.map_cons, List.nodup_cons] at hnd
    simp only [List.foldl_cons]
    by_cases hij : i = j.1
    · have h1 := inner_same box rc2 i ri j bcs a (Or.inl hij)
      obtain ⟨U, e1, e2, e3, e4⟩ := ih hnd.2
        (bcs.foldl (fun a'' bc => periodicStep box rc2 i ri a'' j bc) a)
        (by intro k hk hki; rw [h1.1]; exact hdis k (List.mem_cons_of_mem _ hk) hki)
      refine ⟨U, by rw [e1, h1.1], by rw [e2, h1.2], e3, ?_⟩
      intro k
      rw [e4]
      constructor
      · rintro ⟨hk, x, hx, hx'⟩
        exact ⟨hk, x, List.mem_cons_of_mem _ hx, hx'⟩
      · rintro ⟨hk, x, hx, hx1, hx2⟩
        rcases List.mem_cons.1 hx with rfl | hx
        · exact absurd (hij.trans hx1).symm hk
        · exact ⟨hk, x, hx, hx1, hx2⟩
    · have h1 := inner_new box rc2 i ri j bcs a hij (hdis j (by simp) (Ne.symm hij))
      obtain ⟨U, e1, e2, e3, e4⟩ := ih hnd.2
        (bcs.foldl (fun a'' bc => periodicStep box rc2 i ri a'' j bc) a)
        (by
          intro k hk hki
          rw [h1.1, List.mem_append, not_or]
          refine ⟨hdis k (List.mem_cons_of_mem _ hk) hki, ?_⟩
          split
          · rw [List.mem_singleton]
            intro e
            exact hnd.1 (e ▸ List.mem_map_of_mem hk)
          · simp)
      refine ⟨(if ∃ bc ∈ bcs, Hit box rc2 i ri j bc then [j.1] else []) ++ U, by rw [e1, h1.1, List.append_assoc],
        by rw [e2, h1.2, List.length_append]; omega, ?_, ?_⟩
      · rw [List.nodup_append]
        refine ⟨by split <;> simp, e3, ?_⟩
        intro x hx y hy exy
        subst exy
        split at hx
        · rw [List.mem_singleton] at hx
          obtain ⟨-, z, hz, hz1, -⟩ := (e4 x).1 hy
          exact hnd.1 (by rw [← hx, ← hz1]; exact List.mem_map_of_mem hz)
        · simp at hx
      · intro k
        rw [List.mem_append, e4]
        constructor
        · rintro (hk | ⟨hk, x, hx, hx'⟩)
          · split at hk
            · rename_i hex
              rw [List.mem_singleton] at hk
              exact ⟨by rw [hk]; exact Ne.symm hij, j, by simp, hk.symm, hex⟩
            · simp at hk
          · exact ⟨hk, x, List.mem_cons_of_mem _ hx, hx'⟩
        · rintro ⟨hk, x, hx, hx1, hx2⟩
          rcases List.mem_cons.1 hx with rfl | hx
          · left; rw [if_pos hx2, List.mem_singleton]; exact hx1.symm
          · right; exact ⟨hk, x, hx, hx1, hx2⟩

/-- Neighbour list of one atom of a periodic structure. -/
theorem periodicNeighbors_pushed (box : Fin 3 → Vec3) (pbc : Fin 3 → ℤ) (rc2 : ℝ)
    (atoms : List Atom) (i : ℕ) (a : Atom) :
    Pushed a (periodicNeighbors box pbc rc2 atoms i a)
      ((indexed atoms).flatMap (fun j => (bcList pbc).flatMap (periodicOut box rc2 i a.r j))) := by
  have h := Pushed.fold (fun a' j =>
      (bcList pbc).foldl (fun a'' bc => periodicStep box rc2 i a.r a'' j bc) a')
    (fun j => (bcList pbc).flatMap (periodicOut box rc2 i a.r j))
    (fun a' j => Pushed.fold _ _ (fun a'' bc => periodicStep_pushed box rc2 i a.r j a'' bc) _ _)
    (indexed atoms) (a.pushUnique i)
  have h0 : Pushed a (a.pushUnique i) [] := (Pushed.nil a).unique i
  have h2 := h0.trans h
  rw [List.nil_append] at h2
  exact ⟨⟨h2.same.r, h2.same.element, h2.same.cut, h2.same.index⟩, h2.nbs, h2.num, h2.elem⟩

theorem mem_periodicOut {box : Fin 3 → Vec3} {rc2 : ℝ} {i : ℕ} {ri : Vec3} {j : ℕ × Atom}
    {bc : ℤ × ℤ × ℤ} {n : Neighbor} :
    n ∈ periodicOut box rc2 i ri j bc ↔
      Hit box rc2 i ri j bc ∧ n = mkNb j.1 j.2.element (imageDr box ri j.2.r bc) := by
  unfold periodicOut
  split <;> simp [*]

theorem openStep_pushed (rc2 : ℝ) (i : ℕ) (ri : Vec3) (a : Atom) (j : ℕ × Atom) :
    ∃ L, Pushed a (openStep rc2 i ri a j) L := by
  unfold openStep
  split
  · simp only
    split
    · exact ⟨_, (Pushed.push _ _ _ _).unique _⟩
    · exact ⟨_, Pushed.nil a⟩
  · exact ⟨_, Pushed.nil a⟩

open Classical in
noncomputable def openOut (rc2 : ℝ) (i : ℕ) (ri : Vec3) (j : ℕ × Atom) : List Neighbor :=
  if i ≠ j.1 ∧ (ri - j.2.r).norm2 ≤ rc2 then [mkNb j.1 j.2.element (ri - j.2.r)] else []

theorem openStep_spec (rc2 : ℝ) (i : ℕ) (ri : Vec3) (a : Atom) (j : ℕ × Atom) :
    Pushed a (openStep rc2 i ri a j) (openOut rc2 i ri j) ∧
    (openStep rc2 i ri a j).neighborsUnique =
      a.neighborsUnique ++ (openOut rc2 i ri j).map Neighbor.index ∧
    (openStep rc2 i ri a j).numNeighborsUnique =
      a.numNeighborsUnique + (openOut rc2 i ri j).length := by
  unfold openStep openOut
  by_cases h1 : i ≠ j.1
  · rw [if_pos h1]
    simp only
    by_cases h2 : (ri - j.2.r).norm2 ≤ rc2
    · rw [if_pos h2, if_pos ⟨h1, h2⟩]
      exact ⟨(Pushed.push _ _ _ _).unique _, rfl, rfl⟩
    · rw [if_neg h2, if_neg (fun h => h2 h.2)]
      exact ⟨Pushed.nil a, by simp, by simp⟩
  · rw [if_neg h1, if_neg (fun h => h1 h.1)]
    exact ⟨Pushed.nil a, by simp, by simp⟩

theorem open_fold (rc2 : ℝ) (i : ℕ) (ri : Vec3) (js : List (ℕ × Atom)) (a : Atom) :
    Pushed a (js.foldl (fun a' j => openStep rc2 i ri a' j) a) (js.flatMap (openOut rc2 i ri)) ∧
    (js.foldl (fun a' j => openStep rc2 i ri a' j) a).neighborsUnique =
      a.neighborsUnique ++ (js.flatMap (openOut rc2 i ri)).map Neighbor.index ∧
    (js.foldl (fun a' j => openStep rc2 i ri a' j) a).numNeighborsUnique =
      a.numNeighborsUnique + (js.flatMap (openOut rc2 i ri)).length := by
  induction js generalizing a with
  | nil => exact ⟨Pushed.nil a, by simp, by simp⟩
  | cons j t ih =>
    rw [List.foldl_cons, List.flatMap_cons]
    obtain ⟨h1, h2, h3⟩ := openStep_spec rc2 i ri a j
    obtain ⟨g1, g2, g3⟩ := ih (openStep rc2 i ri a j)
    refine ⟨h1.trans g1, ?_, ?_⟩
    · rw [g2, h2, List.map_append, List.append_assoc]
    · rw [g3, h3, List.length_append]; omega

theorem mem_openOut {rc2 : ℝ} {i : ℕ} {ri : Vec3} {j : ℕ × Atom} {n : Neighbor} :
    n ∈ openOut rc2 i ri j ↔
      (i ≠ j.1 ∧ (ri - j.2.r).norm2 ≤ rc2) ∧ n = mkNb j.1 j.2.element (ri - j.2.r) := by
  unfold openOut
  split <;> simp_all

theorem openNeighbors_pushed (rc2 : ℝ) (atoms : List Atom) (i : ℕ) (a : Atom) :
    Pushed a (openNeighbors rc2 atoms i a) ((indexed atoms).flatMap (openOut rc2 i a.r)) := by
  have h := (open_fold rc2 i a.r (indexed atoms) (a.pushUnique i)).1
  have h0 : Pushed a (a.pushUnique i) [] := (Pushed.nil a).unique i
  have h2 := h0.trans h
  rw [List.nil_append] at h2
  exact ⟨⟨h2.same.r, h2.same.element, h2.same.cut, h2.same.index⟩, h2.nbs, h2.num, h2.elem⟩

end N2P2
