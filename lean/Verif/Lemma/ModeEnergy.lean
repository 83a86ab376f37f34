import Verif.Lemma.ModeList
import Verif.Lemma.ModeNetwork

/-! From a new structure to symmetry functions, networks and energy. -/

namespace N2P2

theorem foldl_max_ge {α : Type} (f : α → ℝ) (l : List α) (m : ℝ) :
    m ≤ l.foldl (fun m x => max (f x) m) m ∧ ∀ x ∈ l, f x ≤ l.foldl (fun m x => max (f x) m) m := by
  induction l generalizing m with
  | nil => simp
  | cons y l ih =>
    obtain ⟨h1, h2⟩ := ih (max (f y) m)
    rw [List.foldl_cons]
    refine ⟨(le_max_right _ _).trans h1, fun x hx => ?_⟩
    rcases List.mem_cons.1 hx with rfl | hx
    · exact (le_max_left _ _).trans h1
    · exact h2 x hx

theorem foldl_max_map {α β : Type} (g : α → β) (f : β → ℝ) (l : List α) (m : ℝ) :
    l.foldl (fun m x => max (f (g x)) m) m = (l.map g).foldl (fun m x => max (f x) m) m := by
  induction l generalizing m with
  | nil => rfl
  | cons y l ih => simp [ih]

theorem maxCutoffRadiusOf_congr {els els' : List ElementData} (h : SameElements els els') :
    maxCutoffRadiusOf els' = maxCutoffRadiusOf els := by
  have key : ∀ els : List ElementData, maxCutoffRadiusOf els =
      (els.map fun e => (e.symmetryFunctions, e.symmetryFunctionTable, e.cacheSizes)).foldl
        (fun m x => max (x.1.foldl (fun m S => max S.rc m) 0) m) 0 := by
    intro els
    rw [← foldl_max_map (g := fun e : ElementData =>
      (e.symmetryFunctions, e.symmetryFunctionTable, e.cacheSizes))
      (f := fun x => x.1.foldl (fun m S => max S.rc m) 0)]
    rfl
  rw [key, key, h]

variable {M : Mode} {P : Potential} {n : ℕ} {s : Structure}

namespace Mode.SetUp

theorem max_nonneg (h : M.SetUp P n) : 0 ≤ M.maxCutoffRadius := by
  rw [h.maxCutoffRadius]
  exact (foldl_max_ge (fun e : ElementData => e.getMaxCutoffRadius) _ _).1

theorem rc_le (h : M.SetUp P n) {k : ℕ} {e : ElementData} (he : M.elements[k]? = some e)
    {S : SymFnc} (hS : S ∈ e.symmetryFunctions) : S.rc ≤ M.maxCutoffRadius := by
  rw [h.maxCutoffRadius]
  refine ((foldl_max_ge (fun S : SymFnc => S.rc) e.symmetryFunctions 0).2 S hS).trans ?_
  exact (foldl_max_ge (fun e : ElementData => e.getMaxCutoffRadius) _ _).2 e
    (List.mem_of_getElem? he)

theorem ok (h : M.SetUp P n) {k : ℕ} {e : ElementData} (he : M.elements[k]? = some e) :
    e.OK n := by
  obtain ⟨E, lines, conv, t, α, sc, h1, rfl, h3, h4, h5, h6, h7⟩ := h.element k e he
  exact h4.ok h1 h3 h5 h7 h6

theorem get (h : M.SetUp P n) {k : ℕ} (hk : k < n) : ∃ e, M.elements[k]? = some e := by
  rw [← h.count] at hk
  exact ⟨_, List.getElem?_eq_getElem hk⟩

theorem valid (h : M.SetUp P n) {k : ℕ} (hk : k < n) {S : SymFnc} (hS : S ∈ P.functions k) :
    S.Valid ∧ S.Scaled ∧ S.rc ≤ M.maxCutoffRadius := by
  obtain ⟨e, he⟩ := h.get hk
  rw [← (h.functions k e he).1] at hS
  exact ⟨(h.ok he).valid S hS, (h.ok he).scaled S hS, h.rc_le he hS⟩

theorem next (h : M.SetUp P n) {els' : List ElementData} (hs : SameElements M.elements els')
    (hN : NetsOK P els') : ({ M with elements := els' } : Mode).SetUp P n := by
  refine ⟨?_, ?_, ?_, hN, ?_⟩
  · rw [← h.count]; simpa using congrArg List.length hs
  · intro k e he
    obtain ⟨nn, h1⟩ := hs.symm.get he
    obtain ⟨E, lines, conv, t, α, sc, h2⟩ := h.element k _ h1
    exact ⟨E, lines, conv, t, α, sc, h2⟩
  · intro k e he
    obtain ⟨nn, h1⟩ := hs.symm.get he
    have := h.functions k _ h1
    exact this
  · show M.maxCutoffRadius = maxCutoffRadiusOf els'
    rw [maxCutoffRadiusOf_congr hs]; exact h.maxCutoffRadius

end Mode.SetUp

/-- Atom `i` of the structure: `a` after the neighbour list, `b` after the symmetry functions. -/
structure AtomState (M : Mode) (n : ℕ) (s : Structure) (i : ℕ) (e : ElementData) (a b : Atom) :
    Prop where
  element : a.element = s.elementOf i
  get : M.elements[a.element]? = some e
  position : a.r = s.position i
  index : a.index = i
  list : ListOk s (M.listRadius s) i a
  ready : AtomIn n e M.maxCutoffRadius a
  done : AtomDone e M.maxCutoffRadius true a b

theorem elementOf_eq {i : ℕ} {a : Atom} (h : s.atoms[i]? = some a) : s.elementOf i = a.element := by
  simp [Structure.elementOf, h]

theorem position_eq {i : ℕ} {a : Atom} (h : s.atoms[i]? = some a) : s.position i = a.r := by
  simp [Structure.position, h]

/-- Atom `i` of the structure after the neighbour list. -/
structure ListedAtom (M : Mode) (n : ℕ) (s : Structure) (i : ℕ) (e : ElementData) (a : Atom) :
    Prop where
  element : a.element = s.elementOf i
  get : M.elements[a.element]? = some e
  position : a.r = s.position i
  index : a.index = i
  charge : a.useChargeNeuron = false
  cutoffs : a.neighborCutoffs = []
  list : ListOk s (M.listRadius s) i a
  ready : AtomIn n e M.maxCutoffRadius a
  flags : a.hasSymmetryFunctions = false ∧ a.hasSymmetryFunctionDerivatives = false

/-- A neighbour list of the structure is ready for the symmetry functions. -/
theorem atomIn_of_list (hM : M.SetUp P n) (hs : ∀ a ∈ s.atoms, a.element < n) (hap : s.Apart)
    (hT : P.TripletsOK (M.listRadius s) s) {i : ℕ} (hi : i < s.atoms.length) {e : ElementData}
    {a : Atom} (hpos : a.r = s.position i) (hel : a.element = s.elementOf i)
    (he : M.elements[a.element]? = some e) (hl : ListOk s (M.listRadius s) i a)
    (hst : ∀ rc ≤ M.maxCutoffRadius, a.getStoredMinNumNeighbors rc ≤ a.neighbors.length ∧
      ∀ nb ∈ a.neighbors.drop (a.getStoredMinNumNeighbors rc), rc ≤ nb.d) :
    AtomIn n e M.maxCutoffRadius a := by
  obtain ⟨imgs, hL⟩ := listOf_of hi hpos hl
  have hnb : ∀ nb ∈ a.neighbors, ∃ p, s.IsPartner i p ∧ nb.element = s.elementOf p.1 ∧
      nb.dr = s.separation i p ∧ nb.d = len (s.separation i p) := by
    intro nb hnb
    obtain ⟨k, hk, rfl⟩ := List.getElem_of_mem hnb
    have hk' : k < imgs.length := by rw [← hL.2.2.1]; exact hk
    obtain ⟨-, q1, q2, q3⟩ := hL.2.2.2 k _ _ (List.getElem?_eq_getElem hk)
      (List.getElem?_eq_getElem hk')
    exact ⟨_, ((hL.2.1 _).1 (List.getElem_mem hk')).1, q1, q2, q3⟩
  have hlist : ∀ rc ≤ M.maxCutoffRadius, a.ListOK rc := by
    intro rc hrc
    refine ⟨?_, ?_, hl.num, (hst rc hrc).1, (hst rc hrc).2⟩
    · intro nb h
      obtain ⟨p, -, -, q2, q3⟩ := hnb nb h
      rw [q3, q2, len_eq]
    · intro nb h
      obtain ⟨p, q0, -, q2, q3⟩ := hnb nb h
      rw [q3, len_eq]
      have := hap i hi p q0
      exact norm_pos fun h => this (norm2_eq_zero h)
  refine ⟨hlist _ le_rfl, fun S hS => hlist _ (hM.rc_le he hS), fun S hS => hM.rc_le he hS, ?_, ?_⟩
  · intro nb h
    obtain ⟨p, q0, q1, -⟩ := hnb nb h
    rw [q1, elementOf_eq (List.getElem?_eq_getElem q0.1)]
    exact hs _ (List.getElem_mem q0.1)
  · intro S hS
    rw [(hM.functions _ e he).1, hel] at hS
    exact hT i hi S hS _ hL.isBall

theorem neighborList_eq {srt : List Neighbor → List Neighbor} (hsrt : IsSort srt)
    (hM : M.SetUp P n) (hs : s.New n) (hap : s.Apart) (hT : P.TripletsOK (M.listRadius s) s) :
    ∃ s1, s.calculateNeighborList srt M.maxCutoffRadius false = some s1 ∧
      s1.energyElec = s.energyElec ∧ s1.hasSymmetryFunctions = false ∧
      s1.hasSymmetryFunctionDerivatives = false ∧ s1.atoms.length = s.atoms.length ∧
      ∀ i < s.atoms.length, ∃ e a, s1.atoms[i]? = some a ∧ ListedAtom M n s i e a := by
  obtain ⟨s1, h1, h2, -, -, h3⟩ := build_cleared hsrt (s := s) (rc := M.maxCutoffRadius)
    (le_max_of_le_left hM.max_nonneg) hs.boxed (fun a ha => by
      obtain ⟨⟨g1, g2, g3, g4, -, -⟩, -⟩ := hs.fresh a ha
      exact ⟨g1, g2, g3, g4⟩) false
  obtain ⟨r1, r2, r3, r4⟩ := calculateNeighborList_rest h1
  have hlen : s1.atoms.length = s.atoms.length := by simpa using congrArg List.length r1
  refine ⟨s1, h1, r2, r3.trans hs.flags.1, r4.trans hs.flags.2, hlen, ?_⟩
  intro i hi
  have hg : s.atoms[i]? = some s.atoms[i] := List.getElem?_eq_getElem hi
  obtain ⟨a, g1, g2, g3, g4, -, g5, -⟩ := h3 i _ hg
  obtain ⟨⟨-, -, -, -, -, f6⟩, -⟩ := hs.fresh _ (List.getElem_mem hi)
  obtain ⟨k1, k2, k3, k4⟩ := hs.atom _ (List.getElem_mem hi)
  have k5 := hs.index i _ hg
  have hb : a.besides = s.atoms[i].besides := by
    have := congrArg (fun l => l[i]?) r1
    simpa [g1, hg] using this
  have e1 : a.hasSymmetryFunctions = false := (congrArg Atom.hasSymmetryFunctions hb).trans k3
  have e2 : a.hasSymmetryFunctionDerivatives = false :=
    (congrArg Atom.hasSymmetryFunctionDerivatives hb).trans k4
  have e3 : a.useChargeNeuron = false := (congrArg Atom.useChargeNeuron hb).trans k2
  have e4 : a.index = i := (congrArg Atom.index hb).trans k5
  have e5 : a.neighborCutoffs = [] := g4.trans f6
  obtain ⟨e, he⟩ := hM.get (k := a.element) (by rw [g3]; exact k1)
  have hpos : a.r = s.position i := by rw [g2, position_eq hg]
  have hel : a.element = s.elementOf i := by rw [g3, elementOf_eq hg]
  have hin : AtomIn n e M.maxCutoffRadius a := by
    refine atomIn_of_list hM (fun a ha => (hs.atom a ha).1) hap hT hi hpos hel he g5 fun rc _ => ?_
    have hst : a.getStoredMinNumNeighbors rc = a.neighbors.length := by
      rw [stored_of_fresh e5, g5.num]
    rw [hst, List.drop_length]
    exact ⟨le_rfl, by simp⟩
  exact ⟨e, a, g1, hel, he, hpos, e4, e3, e5, g5, hin, e1, e2⟩

theorem symmetryFunctions_eq {srt : List Neighbor → List Neighbor} (hsrt : IsSort srt)
    (hM : M.SetUp P n) (hn : 0 < n) (hs : s.New n) (hap : s.Apart)
    (hT : P.TripletsOK (M.listRadius s) s) :
    ∃ s1 s2, s.calculateNeighborList srt M.maxCutoffRadius false = some s1 ∧
      M.calculateSymmetryFunctions s1 true = some s2 ∧ s2.energyElec = s.energyElec ∧
      s2.atoms.length = s.atoms.length ∧
      ∀ i < s.atoms.length, ∃ e a b, s2.atoms[i]? = some b ∧ AtomState M n s i e a b := by
  obtain ⟨s1, h1, r2, r3, r4, hlen, h3⟩ := neighborList_eq hsrt hM hs hap hT
  have hat : ∀ i, i < s.atoms.length → ∃ e a b, s1.atoms[i]? = some a ∧
      M.calculateAtom true a = some b ∧ AtomState M n s i e a b := by
    intro i hi
    obtain ⟨e, a, g1, h⟩ := h3 i hi
    obtain ⟨b, c1, c2⟩ := calculateAtom_eq h.get (hM.ok h.get) hn (hM.functions _ e h.get).2
      h.ready true h.flags.1 h.flags.2
    exact ⟨e, a, b, g1, c1, h.element, h.get, h.position, h.index, h.list, h.ready, c2⟩
  obtain ⟨atoms, hm⟩ := mapM_exists (f := M.calculateAtom true) (l := s1.atoms) (by
    intro a ha
    obtain ⟨i, hi, rfl⟩ := List.getElem_of_mem ha
    obtain ⟨e, a, b, q1, q2, -⟩ := hat i (by omega)
    rw [List.getElem?_eq_getElem hi] at q1
    rw [Option.some.inj q1, q2]
    exact ⟨_, rfl⟩)
  obtain ⟨m1, m2⟩ := mapM_some hm
  refine ⟨s1, { s1 with
      atoms := atoms
      hasSymmetryFunctions := true
      hasSymmetryFunctionDerivatives := s1.hasSymmetryFunctionDerivatives || true }, h1, ?_, r2,
    by rw [← hlen]; exact m1, ?_⟩
  · unfold Mode.calculateSymmetryFunctions
    rw [r3, r4, if_neg (by simp), if_neg (by simp), hm]
    rfl
  · intro i hi
    obtain ⟨e, a, b, q1, q2, q3⟩ := hat i hi
    obtain ⟨b', p1, p2⟩ := m2 i a q1
    rw [q2] at p2
    cases p2
    exact ⟨e, a, b, p1, q3⟩

theorem bufOf_map (P : Potential) (e : ℕ) (env : List Site) :
    bufOf ((P.functions e).map fun S => S.sc.scale (S.formula env)) = P.input e env := by
  funext m
  unfold bufOf Potential.input
  rw [List.getD_eq_getElem?_getD, List.getElem?_map]
  cases (P.functions e)[m]? <;> rfl

theorem foldl_energy (l : List Atom) (x : ℝ) :
    l.foldl (fun e a => e + a.energy) x = x + (l.map Atom.energy).sum := by
  induction l generalizing x with
  | nil => simp
  | cons a l ih => rw [List.foldl_cons, ih, List.map_cons, List.sum_cons]; ring

theorem sum_range_getElem (l : List ℝ) (f : ℕ → ℝ) (n : ℕ) (hl : l.length = n)
    (h : ∀ i < n, l[i]? = some (f i)) : l.sum = ∑ i ∈ Finset.range n, f i := by
  subst hl
  have : l = (List.range l.length).map f := by
    refine List.ext_getElem (by simp) fun i h1 h2 => ?_
    have := h i h1
    rw [List.getElem?_eq_getElem h1] at this
    simp [Option.some.inj this]
  conv_lhs => rw [this]
  rfl

theorem AtomState.dEdG_length {i : ℕ} {e : ElementData} {a b : Atom} (h : AtomState M n s i e a b) :
    b.dEdG.length = if a.useChargeNeuron then e.symmetryFunctions.length + 1
      else e.symmetryFunctions.length := by
  rw [h.done.dEdG rfl]

theorem AtomState.dEdG_le {i : ℕ} {e : ElementData} {a b : Atom} (h : AtomState M n s i e a b) :
    e.symmetryFunctions.length ≤ b.dEdG.length := by
  rw [h.dEdG_length]
  split <;> omega

/-- Everything up to the energy. -/
theorem evaluate_energy {srt : List Neighbor → List Neighbor} (hsrt : IsSort srt)
    (hM : M.SetUp P n) (hP : P.Fits n) (hn : 0 < n) (hs : s.New n) (hap : s.Apart)
    (hT : P.TripletsOK (M.listRadius s) s) (d : Bool) :
    ∃ s1 s2 els, s.calculateNeighborList srt M.maxCutoffRadius false = some s1 ∧
      M.calculateSymmetryFunctions s1 true = some s2 ∧ s2.energyElec = s.energyElec ∧
      calculateAtomicNeuralNetworks M.elements s2.atoms d =
        some (els, s2.atoms.map (evaluatedAtom P d)) ∧
      SameElements M.elements els ∧ NetsOK P els ∧ s2.atoms.length = s.atoms.length ∧
      (∀ i < s.atoms.length, ∃ e a b, s2.atoms[i]? = some b ∧ AtomState M n s i e a b ∧
        (evaluatedAtom P d b).energy = P.atomic (s.elementOf i) a.env) ∧
      IsEnergy P (M.listRadius s) s ((s2.atoms.map (evaluatedAtom P d)).map Atom.energy).sum := by
  obtain ⟨s1, s2, h1, h2, h3, h4, h5⟩ := symmetryFunctions_eq hsrt hM hn hs hap hT
  have hb : ∀ i < s.atoms.length, ∀ e a b, AtomState M n s i e a b → b.element = s.elementOf i ∧
      b.G = (P.functions (s.elementOf i)).map (fun S => S.sc.scale (S.formula a.env)) ∧
      b.G.length ≤ b.dEdG.length ∧ s.elementOf i < n ∧
      (evaluatedAtom P d b).energy = P.atomic (s.elementOf i) a.env := by
    intro i hi e a b h
    have e1 : b.element = s.elementOf i := by rw [h.done.rest]; exact h.element
    have e2 : b.G = (P.functions (s.elementOf i)).map
        (fun S => S.sc.scale (S.formula a.env)) := by
      rw [h.done.G, (hM.functions _ e h.get).1, h.element]
    refine ⟨e1, e2, ?_, ?_, ?_⟩
    · rw [h.done.G, List.length_map]; exact h.dEdG_le
    · rw [← h.element, ← hM.count]
      exact (List.getElem?_eq_some_iff.1 h.get).1
    · show (P.shape b.element).forward (P.weights b.element) (bufOf b.G) _ 0 = _
      rw [e1, e2, bufOf_map]
      rfl
  obtain ⟨els, g1, g2, g3⟩ := networks_eq (P := P) (els := M.elements) (atoms := s2.atoms) (d := d)
    (fun k e he => hM.net k e he) (by
      intro b hb'
      obtain ⟨i, hi, rfl⟩ := List.getElem_of_mem hb'
      obtain ⟨e, a, b, q1, q2⟩ := h5 i (by omega)
      rw [List.getElem?_eq_getElem hi] at q1
      rw [Option.some.inj q1]
      obtain ⟨e1, e2, e3, e4, -⟩ := hb i (by omega) e a b q2
      obtain ⟨p1, p2, p3⟩ := hP _ e4
      refine ⟨by rw [e1, hM.count]; exact e4, ?_⟩
      unfold NetFits
      rw [e2, List.length_map] at e3
      rw [e1, e2, p2, List.length_map]
      exact ⟨p1, p3, le_rfl, fun _ => e3⟩)
  refine ⟨s1, s2, els, h1, h2, h3, g1, g2, g3, h4, ?_, ?_⟩
  · intro i hi
    obtain ⟨e, a, b, q1, q2⟩ := h5 i hi
    exact ⟨e, a, b, q1, q2, (hb i hi e a b q2).2.2.2.2⟩
  · have : ∀ i, ∃ env, i < s.atoms.length → IsEnv s (M.listRadius s) i env ∧
        ((s2.atoms.map (evaluatedAtom P d)).map Atom.energy)[i]? =
          some (P.atomic (s.elementOf i) env) := by
      intro i
      by_cases hi : i < s.atoms.length
      · obtain ⟨e, a, b, q1, q2⟩ := h5 i hi
        obtain ⟨imgs, hL⟩ := listOf_of hi q2.position q2.list
        refine ⟨a.env, fun _ => ⟨hL.isBall.isEnv le_rfl, ?_⟩⟩
        rw [List.getElem?_map, List.getElem?_map, q1, Option.map_some, Option.map_some,
          (hb i hi e a b q2).2.2.2.2]
      · exact ⟨[], fun h => absurd h hi⟩
    choose env henv using this
    refine ⟨env, fun i hi => (henv i hi).1, ?_⟩
    exact sum_range_getElem _ _ _ (by simp [h4]) fun i hi => (henv i hi).2

end N2P2
