import Verif.Lemma.NeighborRebuild
import Verif.Lemma.ModeAtom
import Verif.Spec.Mode

/-! Neighbour lists as input of the symmetry functions. -/

namespace N2P2

/-- What the neighbour list functions leave alone. -/
def Atom.besides (a : Atom) : Atom :=
  { a with
    hasNeighborList := false
    neighborListIsSorted := false
    numNeighbors := 0
    numNeighborsUnique := 0
    neighborsUnique := []
    numNeighborsPerElement := []
    neighbors := [] }

theorem besides_pushNeighbor (a : Atom) (j e : ℕ) (dr : Vec3) :
    (a.pushNeighbor j e dr).besides = a.besides := rfl

theorem besides_pushUnique (a : Atom) (j : ℕ) : (a.pushUnique j).besides = a.besides := rfl

theorem besides_foldl {α : Type} (f : Atom → α → Atom) (h : ∀ a x, (f a x).besides = a.besides)
    (l : List α) (a : Atom) : (l.foldl f a).besides = a.besides := by
  induction l generalizing a with
  | nil => rfl
  | cons x l ih => rw [List.foldl_cons, ih, h]

theorem besides_periodic (box : Fin 3 → Vec3) (pbc : Fin 3 → Int) (rc2 : ℝ) (atoms : List Atom)
    (i : ℕ) (a : Atom) : (periodicNeighbors box pbc rc2 atoms i a).besides = a.besides := by
  unfold periodicNeighbors
  show (Atom.besides _) = _
  refine (besides_foldl _ (fun b j => besides_foldl _ (fun c bc => ?_) _ _) _ _).trans rfl
  unfold periodicStep
  split_ifs <;> first | rfl | (simp only; split_ifs <;> rfl)

theorem besides_open (rc2 : ℝ) (atoms : List Atom) (i : ℕ) (a : Atom) :
    (openNeighbors rc2 atoms i a).besides = a.besides := by
  unfold openNeighbors
  show (Atom.besides _) = _
  refine (besides_foldl _ (fun b j => ?_) _ _).trans rfl
  unfold openStep
  split_ifs <;> first | rfl | (simp only; split_ifs <;> rfl)

theorem calculateNeighborList_rest {srt : List Neighbor → List Neighbor} {s s' : Structure} {rc : ℝ}
    (h : s.calculateNeighborList srt rc false = some s') :
    s'.atoms.map Atom.besides = s.atoms.map Atom.besides ∧ s'.energyElec = s.energyElec ∧
      s'.hasSymmetryFunctions = s.hasSymmetryFunctions ∧
      s'.hasSymmetryFunctionDerivatives = s.hasSymmetryFunctionDerivatives := by
  have key : ∀ f : ℕ → Atom → Atom, (∀ i a, (f i a).besides = a.besides) →
      (s.atoms.mapIdx f).map Atom.besides = s.atoms.map Atom.besides := by
    intro f hf
    apply List.ext_getElem?
    intro i
    simp only [List.getElem?_map, List.getElem?_mapIdx, Option.map_map]
    congr 1
    funext a
    exact hf i a
  unfold Structure.calculateNeighborList at h
  simp only at h
  cases hp : s.isPeriodic with
  | true =>
    rw [hp, if_pos rfl] at h
    obtain ⟨pbc, -, h3⟩ := Option.bind_eq_some_iff.1 h
    have := Option.some.inj h3
    subst this
    exact ⟨key _ fun i a => besides_periodic .., rfl, rfl, rfl⟩
  | false =>
    rw [hp] at h
    have := Option.some.inj h
    subst this
    exact ⟨key _ fun i a => besides_open .., rfl, rfl, rfl⟩

theorem stored_of_fresh {a : Atom} (h : a.neighborCutoffs = []) (rc : ℝ) :
    a.getStoredMinNumNeighbors rc = a.numNeighbors := by
  unfold Atom.getStoredMinNumNeighbors
  rw [h]
  rfl

/-! ### Environments -/

variable {s : Structure} {R : ℝ} {i : ℕ}

theorem isImage_iff (s : Structure) (R : ℝ) {i : ℕ} (hi : i < s.atoms.length)
    (p : ℕ × (Fin 3 → ℤ)) :
    IsImage s R i p ↔ s.IsPartner i p ∧ len (s.separation i p) ≤ R := by
  constructor
  · rintro ⟨a, c, h1, h2, h3, h4, h5⟩
    refine ⟨⟨(List.getElem?_eq_some_iff.1 h2).1, h3, h4⟩, ?_⟩
    simpa [Structure.separation, Structure.position, h1, h2] using h5
  · rintro ⟨⟨h2, h3, h4⟩, h5⟩
    refine ⟨_, _, List.getElem?_eq_getElem hi, List.getElem?_eq_getElem h2, h3, h4, ?_⟩
    simpa [Structure.separation, Structure.position, hi, h2] using h5

/-- A neighbour list with its images. -/
def ListOf (s : Structure) (R : ℝ) (i : ℕ) (a : Atom) (imgs : List (ℕ × (Fin 3 → ℤ))) : Prop :=
  imgs.Nodup ∧ (∀ p, p ∈ imgs ↔ s.IsPartner i p ∧ len (s.separation i p) ≤ R) ∧
    a.neighbors.length = imgs.length ∧
    ∀ (k : ℕ) nb p, a.neighbors[k]? = some nb → imgs[k]? = some p →
      nb.index = p.1 ∧ nb.element = s.elementOf p.1 ∧ nb.dr = s.separation i p ∧
      nb.d = len (s.separation i p)

theorem listOf_of {a : Atom} (hi : i < s.atoms.length) (hr : a.r = s.position i)
    (h : ListOk s R i a) : ∃ imgs, ListOf s R i a imgs := by
  obtain ⟨imgs, h1, h2, h3⟩ := h.imgs
  refine ⟨imgs, h1, fun p => by rw [h2, isImage_iff s R hi], h3.length_eq, ?_⟩
  intro k nb p hk hp
  obtain ⟨hk1, rfl⟩ := List.getElem?_eq_some_iff.1 hk
  obtain ⟨hp1, rfl⟩ := List.getElem?_eq_some_iff.1 hp
  obtain ⟨b, g1, g2, g3, g4, g5, g6⟩ := (List.forall₂_iff_get.1 h3).2 k hk1 hp1
  simp only [List.get_eq_getElem] at g1 g2 g4 g5 g6
  have e : a.neighbors[k].dr = s.separation i imgs[k] := by
    rw [g5, hr]
    simp [Structure.separation, Structure.position, g1]
  refine ⟨g2, ?_, e, by rw [g6, e]⟩
  rw [g4]
  simp [Structure.elementOf, g1]

theorem ListOf.env {a : Atom} {imgs} (h : ListOf s R i a imgs) :
    a.env = imgs.map fun p => ⟨s.elementOf p.1, s.separation i p⟩ := by
  obtain ⟨-, -, hl, hk⟩ := h
  refine List.ext_getElem (by simpa [Atom.env] using hl) fun k h1 h2 => ?_
  simp only [Atom.env, List.getElem_map, List.length_map] at h1 h2 ⊢
  obtain ⟨-, e1, e2, -⟩ := hk k _ _ (List.getElem?_eq_getElem h1) (List.getElem?_eq_getElem h2)
  rw [e1, e2]

theorem ListOf.isBall {a : Atom} {imgs} (h : ListOf s R i a imgs) : IsBall s R i a.env :=
  ⟨imgs, h.1, h.2.1, h.env⟩

theorem IsBall.isEnv {R' : ℝ} {env} (h : IsBall s R i env) (hR : R' ≤ R) : IsEnv s R' i env := by
  obtain ⟨imgs, h1, h2, h3⟩ := h
  exact ⟨imgs, h1, fun p hp => ((h2 p).1 hp).1, fun p hp hl => (h2 p).2 ⟨hp, hl.trans hR⟩, h3⟩

/-- Values do not depend on the choice of environment. -/
theorem formula_env {S : SymFnc} (hV : S.Valid) {R R' : ℝ} (h1 : S.rc ≤ R) (h2 : S.rc ≤ R')
    {env env' : List Site} (he : IsEnv s R i env) (he' : IsEnv s R' i env') :
    S.formula env = S.formula env' := by
  classical
  obtain ⟨l, a1, a2, a3, rfl⟩ := he
  obtain ⟨l', b1, b2, b3, rfl⟩ := he'
  have key : (l.filter fun p => decide (len (s.separation i p) < S.rc)).Perm
      (l'.filter fun p => decide (len (s.separation i p) < S.rc)) := by
    refine (List.perm_ext_iff_of_nodup (a1.filter _) (b1.filter _)).2 fun p => ?_
    simp only [List.mem_filter, decide_eq_true_eq]
    constructor
    · rintro ⟨hp, hl⟩
      exact ⟨b3 p (a2 p hp) (hl.le.trans h2), hl⟩
    · rintro ⟨hp, hl⟩
      exact ⟨a3 p (b2 p hp) (hl.le.trans h1), hl⟩
  rw [← formula_filter hV, ← formula_filter hV (List.map _ l'), List.filter_map, List.filter_map]
  refine formula_perm S (List.Perm.map _ ?_)
  have e : ((fun x : Site => decide (x.dr.norm < S.rc)) ∘
      fun p : ℕ × (Fin 3 → ℤ) => (⟨s.elementOf p.1, s.separation i p⟩ : Site)) =
      fun p => decide (len (s.separation i p) < S.rc) := by
    funext p
    simp only [Function.comp_apply, len_eq]
  convert key using 2

theorem input_env {P : Potential} {e : ℕ} (hV : ∀ S ∈ P.functions e, S.Valid) {R R' : ℝ}
    (h1 : ∀ S ∈ P.functions e, S.rc ≤ R) (h2 : ∀ S ∈ P.functions e, S.rc ≤ R')
    {env env' : List Site} (he : IsEnv s R i env) (he' : IsEnv s R' i env') :
    P.input e env = P.input e env' := by
  funext m
  unfold Potential.input
  cases h : (P.functions e)[m]? with
  | none => rfl
  | some S =>
    have hS := List.mem_of_getElem? h
    simp only
    rw [formula_env (hV S hS) (h1 S hS) (h2 S hS) he he']

theorem IsEnergy.unique {P : Potential} {R R' : ℝ} {E E' : ℝ}
    (hV : ∀ i < s.atoms.length, ∀ S ∈ P.functions (s.elementOf i), S.Valid)
    (h1 : P.Within R s) (h2 : P.Within R' s) (h : IsEnergy P R s E) (h' : IsEnergy P R' s E') :
    E = E' := by
  obtain ⟨env, ha, rfl⟩ := h
  obtain ⟨env', hb, rfl⟩ := h'
  refine Finset.sum_congr rfl fun i hi => ?_
  have hi := Finset.mem_range.1 hi
  unfold Potential.atomic
  rw [input_env (hV i hi) (h1 i hi) (h2 i hi) (ha i hi) (hb i hi)]

end N2P2
