import Verif.Spec.Mode4G
import Verif.Lemma.QeqList
import Verif.Lemma.ModeEnergy
import Verif.Lemma.SameLists

/-! Neighbour lists for potentials of the fourth generation. -/

namespace N2P2

/-- What the neighbour list functions with stored counts leave alone. -/
def Atom.apartFromLists (a : Atom) : Atom := { a.besides with neighborCutoffs := [] }

/-- What the neighbour list functions leave alone, besides the atoms. -/
def Structure.around (s : Structure) : Structure :=
  { s with
    hasNeighborList := false
    neighborListIsSorted := false
    pbc := 0
    atoms := [] }

theorem apartFromLists_of_besides {a b : Atom} (h : a.besides = b.besides) :
    a.apartFromLists = b.apartFromLists := by
  unfold Atom.apartFromLists
  rw [h]

theorem mapIdx_map_congr {α β : Type} {g : α → β} {f : ℕ → α → α} (h : ∀ i a, g (f i a) = g a)
    (l : List α) : (l.mapIdx f).map g = l.map g := by
  apply List.ext_getElem?
  intro i
  simp only [List.getElem?_map, List.getElem?_mapIdx, Option.map_map]
  congr 1
  funext a
  exact h i a

theorem calculateNeighborList_around {srt : List Neighbor → List Neighbor} {s s' : Structure} {rc : ℝ}
    {srtd : Bool} (h : s.calculateNeighborList srt rc srtd = some s') :
    s'.atoms.map Atom.besides = s.atoms.map Atom.besides ∧ s'.around = s.around := by
  have srtOK : ∀ t : Structure, t.atoms.map Atom.besides = s.atoms.map Atom.besides →
      t.around = s.around →
      ((if srtd then t.sortNeighborList srt else t).atoms.map Atom.besides =
        s.atoms.map Atom.besides ∧ (if srtd then t.sortNeighborList srt else t).around = s.around) := by
    intro t h1 h2
    cases srtd with
    | false => exact ⟨h1, h2⟩
    | true =>
      refine ⟨?_, h2⟩
      rw [← h1]
      show (List.map _ t.atoms).map Atom.besides = _
      rw [List.map_map]
      rfl
  unfold Structure.calculateNeighborList at h
  simp only at h
  by_cases hp : s.isPeriodic = true
  · rw [if_pos hp] at h
    obtain ⟨pbc, -, h3⟩ := Option.bind_eq_some_iff.1 h
    have := Option.some.inj h3
    subst this
    exact srtOK _ (mapIdx_map_congr (fun i a => besides_periodic ..) _) rfl
  · rw [if_neg hp] at h
    have := Option.some.inj h
    subst this
    exact srtOK _ (mapIdx_map_congr (fun i a => besides_open ..) _) rfl

theorem mapM_map_congr {α β : Type} {g : α → β} {f : α → Option α}
    (h : ∀ a b, f a = some b → g b = g a) {l l' : List α} (hl : l.mapM f = some l') :
    l'.map g = l.map g := by
  induction l generalizing l' with
  | nil => cases hl; rfl
  | cons a l ih =>
    rw [List.mapM_cons] at hl
    obtain ⟨b, hb, hl⟩ := Option.bind_eq_some_iff.1 hl
    obtain ⟨m, hm, hl⟩ := Option.bind_eq_some_iff.1 hl
    cases hl
    rw [List.map_cons, List.map_cons, ih hm, h a b hb]

theorem neighborLists4G_rest {srt : List Neighbor → List Neighbor} {s s' : Structure}
    {rc : ℝ} {cutoffs : List (List ℝ)}
    (h : s.calculateNeighborListCutoffs srt rc cutoffs = some s') :
    s'.atoms.map Atom.apartFromLists = s.atoms.map Atom.apartFromLists ∧ s'.around = s.around := by
  unfold Structure.calculateNeighborListCutoffs at h
  obtain ⟨t, ht, h⟩ := Option.bind_eq_some_iff.1 h
  obtain ⟨h1, h2⟩ := calculateNeighborList_around ht
  unfold Structure.setupNeighborCutoffMap at h
  by_cases hs : t.neighborListIsSorted = true
  · rw [if_neg (by simp [hs])] at h
    obtain ⟨atoms, hm, rfl⟩ := Option.map_eq_some_iff.1 h
    refine ⟨?_, h2⟩
    have h3 : t.atoms.map Atom.apartFromLists = s.atoms.map Atom.apartFromLists := by
      have := congrArg (List.map fun b : Atom => { b with neighborCutoffs := [] }) h1
      rw [List.map_map, List.map_map] at this
      exact this
    rw [← h3]
    refine mapM_map_congr ?_ hm
    intro a b hab
    obtain ⟨c, -, rfl⟩ := Option.map_eq_some_iff.1 hab
    rfl
  · rw [if_pos hs] at h
    cases h

/-- Atom `i` of the structure after the neighbour list with stored counts. -/
structure Listed4G (M : Mode) (n : ℕ) (s : Structure) (i : ℕ) (e : ElementData) (a : Atom) :
    Prop where
  element : a.element = s.elementOf i
  get : M.elements[a.element]? = some e
  position : a.r = s.position i
  index : a.index = i
  list : ListOk s (M.listRadius s) i a
  ready : AtomIn n e M.maxCutoffRadius a
  flags : a.hasSymmetryFunctions = false ∧ a.hasSymmetryFunctionDerivatives = false
  dAdrQ : a.dAdrQ = []

theorem drop_countP_of_sorted {l : List Neighbor} (h : l.Pairwise fun x y => x.d ≤ y.d) {R : ℝ}
    [DecidablePred fun n : Neighbor => n.d ≤ R] {nb : Neighbor}
    (hnb : nb ∈ l.drop (l.countP fun n => decide (n.d ≤ R))) : R ≤ nb.d := by
  by_contra hlt
  push Not at hlt
  obtain ⟨k, hk⟩ := List.getElem?_of_mem hnb
  rw [List.getElem?_drop] at hk
  have := countP_of_sorted h hk hlt.le
  omega

theorem neighborList4G {M : Mode} {P : Potential} {n : ℕ} {s : Structure}
    {srt : List Neighbor → List Neighbor} (hsrt : IsSort srt)
    (hM : M.SetUp P n) (hs : s.New n) (hd : ∀ a ∈ s.atoms, a.dAdrQ = []) (hap : s.Apart)
    (hT : P.TripletsOK (M.listRadius s) s) {cutoffs : List (List ℝ)} (hcut : n ≤ cutoffs.length) :
    ∃ s1 full, s.calculateNeighborListCutoffs srt M.maxCutoffRadius cutoffs = some s1 ∧
      s1.around = s.around ∧ s1.atoms.length = s.atoms.length ∧
      s1.Listed full ∧ (∀ R ≤ M.listRadius s, s1.Stored full R
        (fun i => (full i).take ((s1.atom i).getStoredMinNumNeighbors R))) ∧
      ∀ i < s.atoms.length, ∃ e a, s1.atoms[i]? = some a ∧ Listed4G M n s i e a := by
  classical
  have hcl : ∀ a ∈ s.atoms, Cleared a := fun a ha => by
    obtain ⟨⟨g1, g2, g3, g4, -, -⟩, -⟩ := hs.fresh a ha
    exact ⟨g1, g2, g3, g4⟩
  have hfr : ∀ a ∈ s.atoms, a.neighborCutoffs = [] := fun a ha => by
    obtain ⟨⟨-, -, -, -, -, f6⟩, -⟩ := hs.fresh a ha
    exact f6
  have hcu : ∀ a ∈ s.atoms, a.element < cutoffs.length := fun a ha =>
    (hs.atom a ha).1.trans_le hcut
  have h0 : 0 ≤ max M.maxCutoffRadius s.maxCutoffRadiusOverall := le_max_of_le_left hM.max_nonneg
  obtain ⟨s1, full, h1, -, hL, hS⟩ := stored_of_build hsrt h0 hs.boxed hcl hfr hcu
  obtain ⟨s1', h1', -, h3⟩ := build_cutoffs hsrt h0 hs.boxed hcl hcu
  rw [h1] at h1'
  cases h1'
  obtain ⟨r1, r2⟩ := neighborLists4G_rest h1
  have hlen : s1.atoms.length = s.atoms.length := by simpa using congrArg List.length r1
  refine ⟨s1, full, h1, r2, hlen, hL, hS, ?_⟩
  intro i hi
  have hg : s.atoms[i]? = some s.atoms[i] := List.getElem?_eq_getElem hi
  obtain ⟨a, g1, g2, g3, g4, g5, cut, -, g7⟩ := h3 i _ hg
  obtain ⟨k1, -, k3, k4⟩ := hs.atom _ (List.getElem_mem hi)
  have k5 := hs.index i _ hg
  have hb : a.apartFromLists = s.atoms[i].apartFromLists := by
    have := congrArg (fun l => l[i]?) r1
    simpa [g1, hg] using this
  have e1 : a.hasSymmetryFunctions = false := (congrArg Atom.hasSymmetryFunctions hb).trans k3
  have e2 : a.hasSymmetryFunctionDerivatives = false :=
    (congrArg Atom.hasSymmetryFunctionDerivatives hb).trans k4
  have e4 : a.index = i := (congrArg Atom.index hb).trans k5
  have e5 : a.dAdrQ = [] := (congrArg Atom.dAdrQ hb).trans (hd s.atoms[i] (List.getElem_mem hi))
  obtain ⟨e, he⟩ := hM.get (k := a.element) (by rw [g3]; exact k1)
  have hpos : a.r = s.position i := by rw [g2, position_eq hg]
  have hel : a.element = s.elementOf i := by rw [g3, elementOf_eq hg]
  have hin : AtomIn n e M.maxCutoffRadius a := by
    refine atomIn_of_list hM (fun a ha => (hs.atom a ha).1) hap hT hi hpos hel he g5 fun rc _ => ?_
    have hf := g7 rc
    rw [hfr _ (List.getElem_mem hi)] at hf
    change a.neighborCutoffs.find? rc = if _ then _ else _ at hf
    unfold Atom.getStoredMinNumNeighbors
    split_ifs at hf
    · rw [hf]
      exact ⟨List.countP_le_length, fun nb hnb => drop_countP_of_sorted g4 (by convert hnb)⟩
    · rw [hf]
      simp only
      rw [g5.num, List.drop_length]
      exact ⟨le_rfl, by simp⟩
  exact ⟨e, a, g1, hel, he, hpos, e4, g5, hin, ⟨e1, e2⟩, e5⟩

end N2P2
