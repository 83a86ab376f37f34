import Verif.Lemma.Mode4GList
import Verif.Lemma.ModeGroups

/-! Symmetry functions for potentials of the fourth generation. -/

namespace N2P2

theorem AtomDone.congr {e : ElementData} {R : ℝ} {d : Bool} {a b b' : Atom}
    (h : AtomDone e R d a b) (hf : b'.forgetCaches = b.forgetCaches) : AtomDone e R d a b' := by
  obtain ⟨h1, h2⟩ := Atom.forget_eq hf
  have hG : b'.G = b.G := by rw [h1]
  have hd : b'.dEdG = b.dEdG := by rw [h1]
  have hs : b'.dGdr = b.dGdr := by rw [h1]
  have hQ : b'.dQdG = b.dQdG := by rw [h1]
  have hC : b'.dChidG = b.dChidG := by rw [h1]
  have hN : b'.numSymmetryFunctionDerivatives = b.numSymmetryFunctionDerivatives := by rw [h1]
  have hb : b'.bareNeighbors = b.bareNeighbors := by
    have := congrArg (List.map Neighbor.bare) h2
    rw [List.map_map, List.map_map] at this
    exact this
  refine ⟨by rw [hG]; exact h.G, by rw [hb]; exact h.bare, ?_, fun hd' => by rw [hd]; exact h.dEdG hd',
    fun hd' => by rw [hs]; exact h.self hd', fun hd' k nb hk hlt => ?_⟩
  · rw [hG, hd, hs, hQ, hC, hN]
    have := congrArg (fun c : Atom => { c with neighbors := b'.neighbors }) h.rest
    dsimp only at this
    rw [← h1] at this
    exact this
  · have h3 := congrArg (fun l => l[k]?) h2
    simp only [List.getElem?_map, hk, Option.map_some] at h3
    obtain ⟨nb0, h4, h5⟩ := Option.map_eq_some_iff.1 h3.symm
    have h6 := h.neighbor hd' k nb0 h4 hlt
    have e1 : nb0.dGdr = nb.dGdr := by have := congrArg Neighbor.dGdr h5; exact this
    have e2 : nb0.element = nb.element := by have := congrArg Neighbor.element h5; exact this
    rw [e1, e2] at h6
    exact h6

variable {M : Mode} {P : Potential} {n : ℕ} {s : Structure} {e : ElementData} {a : Atom}

theorem calculateAtom_done4 (hM : M.elements[a.element]? = some e) (he : e.OK n) (hn : 0 < n)
    (hne : e.symmetryFunctions ≠ []) (ha : AtomIn n e M.maxCutoffRadius a) (d : Bool)
    (h1 : a.hasSymmetryFunctions = false) (h2 : a.hasSymmetryFunctionDerivatives = false) :
    ∃ b, M.calculateAtom d a = some b ∧ b.forgetCaches = doneAtom e M.maxCutoffRadius d a ∧
      AtomDone e M.maxCutoffRadius d a b ∧
      (d = true → b.dChidG.length = e.symmetryFunctions.length) := by
  obtain ⟨b, c1, c2⟩ := calculateAtom_done hM he hn hne ha d h1 h2
  obtain ⟨b', c3, c4⟩ := calculateAtom_eq hM he hn hne ha d h1 h2
  rw [c1] at c3
  cases c3
  refine ⟨b, c1, c2, c4, ?_⟩
  rintro rfl
  have h3 : b.dChidG = (doneAtom e M.maxCutoffRadius true a).dChidG := by
    have := congrArg Atom.dChidG c2; exact this
  have h4 : (doneAtom e M.maxCutoffRadius true a).dChidG =
      List.replicate e.symmetryFunctions.length 0 := by
    have := congrArg Atom.dChidG
      (pureAll_rest true (freshAtom e M.maxCutoffRadius true a).forgetCaches e.symmetryFunctions)
    exact this
  rw [h3, h4, List.length_replicate]

/-- Atom `i` of the structure: `a` after the neighbour list, `b` after the symmetry functions, before
the neural networks. Derivatives with respect to the symmetry functions (`d`) and with respect to the
positions (`f`). -/
structure State4G (M : Mode) (n : ℕ) (s : Structure) (i : ℕ) (f d : Bool) (e : ElementData)
    (a b : Atom) : Prop where
  element : a.element = s.elementOf i
  get : M.elements[a.element]? = some e
  position : a.r = s.position i
  index : a.index = i
  list : ListOk s (M.listRadius s) i a
  ready : AtomIn n e M.maxCutoffRadius a
  bare : b.bareNeighbors = a.bareNeighbors
  G : b.G = e.symmetryFunctions.map fun S => S.sc.scale (S.formula a.env)
  same : b.element = a.element ∧ b.r = a.r ∧ b.index = a.index ∧ b.numNeighbors = a.numNeighbors ∧
    b.neighborCutoffs = a.neighborCutoffs
  dAdrQ : b.dAdrQ = []
  number : b.numSymmetryFunctions = e.symmetryFunctions.length
  dEdG : d = true → b.dEdG.length = e.symmetryFunctions.length + 1
  dChidG : d = true → b.dChidG.length = e.symmetryFunctions.length
  done : f = true → AtomDone e M.maxCutoffRadius true a b

theorem resized_length (l : List ℝ) (n : ℕ) : (resized l n).length = n := by
  unfold resized
  simp
  omega

theorem ListOk.charged {R : ℝ} {i : ℕ} (h : ListOk s R i a) :
    ListOk s R i { a with useChargeNeuron := true } := ⟨h.num, h.uniq, h.imgs⟩

theorem AtomIn.charged {R : ℝ} (h : AtomIn n e R a) : AtomIn n e R { a with useChargeNeuron := true } := by
  have hl : ∀ {rc}, a.ListOK rc → ({ a with useChargeNeuron := true } : Atom).ListOK rc := by
    rintro rc ⟨h1, h2, h3, h4, h5⟩
    exact ⟨h1, h2, h3, h4, h5⟩
  exact ⟨hl h.listR, fun S hS => hl (h.list S hS), h.le, h.elements, h.triplets⟩

/-- One atom. -/
theorem Listed4G.state {M : Mode} {i : ℕ} (h : Listed4G M n s i e a) {d' useForces useDEdG : Bool}
    {b : Atom}
    (hd : AtomDone e M.maxCutoffRadius d' { a with useChargeNeuron := true } b)
    (hc : d' = true → b.dChidG.length = e.symmetryFunctions.length)
    (hf : useForces = true → d' = true) :
    State4G M n s i useForces (useForces || useDEdG) e { a with useChargeNeuron := true }
      (if useDEdG && !useForces then b.resize4G else b) := by
  have hnum : b.numSymmetryFunctions = e.symmetryFunctions.length := by rw [hd.rest]
  have hsame : b.element = a.element ∧ b.r = a.r ∧ b.index = a.index ∧
      b.numNeighbors = a.numNeighbors ∧ b.neighborCutoffs = a.neighborCutoffs ∧
      b.dAdrQ = a.dAdrQ := by
    rw [hd.rest]
    exact ⟨rfl, rfl, rfl, rfl, rfl, rfl⟩
  obtain ⟨s1, s2, s3, s4, s5, s6⟩ := hsame
  by_cases hr : (useDEdG && !useForces) = true
  · rw [if_pos hr]
    refine ⟨h.element, h.get, h.position, h.index, h.list.charged, h.ready.charged, hd.bare, hd.G,
      ⟨s1, s2, s3, s4, s5⟩, s6.trans h.dAdrQ, hnum, fun _ => ?_, fun _ => ?_, fun hu => ?_⟩
    · show (resized _ _).length = _
      rw [resized_length, hnum]
    · show (resized _ _).length = _
      rw [resized_length, hnum]
    · rw [hu] at hr; simp at hr
  · rw [if_neg hr]
    have key : (useForces || useDEdG) = true → d' = true := by
      intro hu
      apply hf
      cases useForces with
      | true => rfl
      | false => simp at hr hu; simp [hr] at hu
    refine ⟨h.element, h.get, h.position, h.index, h.list.charged, h.ready.charged, hd.bare, hd.G,
      ⟨s1, s2, s3, s4, s5⟩, s6.trans h.dAdrQ, hnum, fun hu => ?_, fun hu => hc (key hu), fun hu => ?_⟩
    · rw [hd.dEdG (key hu)]; rfl
    · have := hf hu
      subst this
      exact hd

theorem Structure.SameLists.of_get {s s' : Structure} (hl : s'.atoms.length = s.atoms.length)
    (hn : s'.numAtoms = s.numAtoms) (hp : s'.isPeriodic = s.isPeriodic) (hb : s'.box = s.box)
    (hs : s'.neighborListIsSorted = s.neighborListIsSorted)
    (h : ∀ (i : ℕ) (a b : Atom), s.atoms[i]? = some a → s'.atoms[i]? = some b → b.r = a.r ∧ b.element = a.element ∧
      b.bareNeighbors = a.bareNeighbors ∧ b.numNeighbors = a.numNeighbors ∧
      b.neighborCutoffs = a.neighborCutoffs) : s.SameLists s' := by
  refine ⟨hl, hn, hp, hb, hs, fun i => ?_⟩
  by_cases hi : i < s.atoms.length
  · exact h i _ _ (Structure.atom_get hi) (Structure.atom_get (hl ▸ hi))
  · unfold Structure.atom
    rw [List.getD_eq_getElem?_getD, List.getD_eq_getElem?_getD, List.getElem?_eq_none (by omega),
      List.getElem?_eq_none (by omega)]
    exact ⟨rfl, rfl, rfl, rfl, rfl⟩

/-- The structure after symmetry functions and resizing. -/
noncomputable def Structure.prepared4G (s : Structure) (useForces useDEdG : Bool) : Structure :=
  if useDEdG && !useForces then s.withAtoms (s.atoms.map Atom.resize4G) else s

theorem prepared4G_get (s : Structure) (useForces useDEdG : Bool) (i : ℕ) :
    (s.prepared4G useForces useDEdG).atoms[i]? = (s.atoms[i]?).map fun b =>
      if useDEdG && !useForces then b.resize4G else b := by
  unfold Structure.prepared4G
  by_cases hr : (useDEdG && !useForces) = true
  · rw [if_pos hr]
    simp only [hr, if_true]
    show (s.atoms.map Atom.resize4G)[i]? = _
    rw [List.getElem?_map]
  · rw [if_neg hr]
    simp [hr]

theorem prepared4G_rest (s : Structure) (useForces useDEdG : Bool) :
    (s.prepared4G useForces useDEdG).atoms.length = s.atoms.length ∧
    s.prepared4G useForces useDEdG = s.withAtoms (s.prepared4G useForces useDEdG).atoms := by
  unfold Structure.prepared4G
  split_ifs
  · exact ⟨by simp [Structure.withAtoms], rfl⟩
  · exact ⟨rfl, rfl⟩

theorem symmetryFunctions4G {M : Mode4G} {P : Potential4G} (hM : M.SetUp P n) (hn : 0 < n)
    {useForces useDEdG : Bool} (hG : M.groups ≠ none → P.Groupable n useForces)
    {s1 : Structure} (hfl : s1.hasSymmetryFunctions = false ∧ s1.hasSymmetryFunctionDerivatives = false)
    (hlen : s1.atoms.length = s.atoms.length)
    (hat : ∀ i < s.atoms.length, ∃ e a, s1.atoms[i]? = some a ∧ Listed4G M.mode n s i e a) :
    ∃ s2, M.calculateSymmetryFunctions s1 useForces = some s2 ∧
      s1.SameLists (s2.prepared4G useForces useDEdG) ∧
      (s2.prepared4G useForces useDEdG).chargeRef = s1.chargeRef ∧
      ∀ i < s.atoms.length, ∃ e a b, (s2.prepared4G useForces useDEdG).atoms[i]? = some b ∧
        State4G M.mode n s i useForces (useForces || useDEdG) e a b := by
  -- one atom
  have one : ∃ (fns : Bool → Atom → Option Atom) (d' : Bool), (useForces = true → d' = true) ∧
      M.calculateSymmetryFunctions s1 useForces = calculateAtoms4G fns s1 d' ∧
      ∀ i < s.atoms.length, ∃ e a b, s1.atoms[i]? = some a ∧ Listed4G M.mode n s i e a ∧
        calculateAtom4G fns d' a = some b ∧
        AtomDone e M.mode.maxCutoffRadius d' { a with useChargeNeuron := true } b ∧
        (d' = true → b.dChidG.length = e.symmetryFunctions.length) := by
    unfold Mode4G.calculateSymmetryFunctions
    cases hg : M.groups with
    | none =>
      refine ⟨M.mode.calculateAtom, true, fun _ => rfl, rfl, fun i hi => ?_⟩
      obtain ⟨e, a, g1, h⟩ := hat i hi
      have hr : AtomIn n e M.mode.maxCutoffRadius { a with useChargeNeuron := true } := h.ready.charged
      obtain ⟨b, c1, -, c3, c4⟩ := calculateAtom_done4 (a := { a with useChargeNeuron := true }) h.get
        (hM.mode.ok h.get) hn (hM.mode.functions _ e h.get).2 hr true h.flags.1 h.flags.2
      refine ⟨e, a, b, g1, h, ?_, c3, c4⟩
      unfold calculateAtom4G
      rw [if_neg (by simp [h.flags.2]), if_neg (by simp [h.flags.1])]
      exact c1
    | some gs =>
      refine ⟨M.mode.calculateAtomGroups gs, useForces, id, rfl, fun i hi => ?_⟩
      obtain ⟨e, a, g1, h⟩ := hat i hi
      have hr : AtomIn n e M.mode.maxCutoffRadius { a with useChargeNeuron := true } := h.ready.charged
      obtain ⟨b, -, c2, c3, c4⟩ := calculateAtom_done4 (a := { a with useChargeNeuron := true }) h.get
        (hM.mode.ok h.get) hn (hM.mode.functions _ e h.get).2 hr useForces h.flags.1 h.flags.2
      have hlt : a.element < n := by
        rw [← hM.mode.count]; exact (List.getElem?_eq_some_iff.1 h.get).1
      have hfun := hM.mode.functions _ e h.get
      have hG' := hG (by rw [hg]; simp)
      obtain ⟨b', d1, d2⟩ := calculateAtomGroups_done (a := { a with useChargeNeuron := true })
        (hM.groups gs hg) h.get (hM.mode.ok h.get) hn hfun.2 hr useForces
        (by rw [hfun.1]; exact hG'.function _ hlt) (by rw [hfun.1]; exact hG'.subtypes _ hlt)
        h.flags.1 h.flags.2
      refine ⟨e, a, b', g1, h, ?_, c3.congr (d2.trans c2.symm), fun hd => ?_⟩
      · unfold calculateAtom4G
        rw [if_neg (by simp [h.flags.2]), if_neg (by simp [h.flags.1])]
        exact d1
      · have : b'.dChidG = b.dChidG := by
          have := congrArg Atom.dChidG (d2.trans c2.symm); exact this
        rw [this]
        exact c4 hd
  obtain ⟨fns, d', hf, hcalc, hone⟩ := one
  obtain ⟨atoms, hm⟩ := mapM_exists (f := calculateAtom4G fns d') (l := s1.atoms) (by
    intro a ha
    obtain ⟨i, hi, rfl⟩ := List.getElem_of_mem ha
    obtain ⟨e, a, b, q1, -, q2, -⟩ := hone i (by omega)
    rw [List.getElem?_eq_getElem hi] at q1
    rw [Option.some.inj q1, q2]
    exact ⟨_, rfl⟩)
  obtain ⟨m1, m2⟩ := mapM_some hm
  set s2 : Structure := { s1 with
      atoms := atoms
      hasSymmetryFunctions := true
      hasSymmetryFunctionDerivatives := s1.hasSymmetryFunctionDerivatives || d' } with hs2
  have hall : ∀ i < s.atoms.length, ∃ e a b, s1.atoms[i]? = some a ∧
      (s2.prepared4G useForces useDEdG).atoms[i]? = some b ∧
      State4G M.mode n s i useForces (useForces || useDEdG) e { a with useChargeNeuron := true } b := by
    intro i hi
    obtain ⟨e, a, b, q1, q2, q3, q4, q5⟩ := hone i hi
    obtain ⟨b', p1, p2⟩ := m2 i a q1
    rw [q3] at p2
    cases p2
    refine ⟨e, a, _, q1, ?_, q2.state q4 q5 hf⟩
    rw [prepared4G_get]
    show (atoms[i]?).map _ = _
    rw [p1]
    rfl
  obtain ⟨l1, l2⟩ := prepared4G_rest s2 useForces useDEdG
  have hl1 : (s2.prepared4G useForces useDEdG).atoms.length = s1.atoms.length := l1.trans m1
  refine ⟨s2, ?_, ?_, ?_, ?_⟩
  · rw [hcalc]
    unfold calculateAtoms4G
    rw [hfl.1, hfl.2, if_neg (by simp), if_neg (by simp), hm, hs2, hfl.2]
    rfl
  · refine Structure.SameLists.of_get hl1 ?_ ?_ ?_ ?_ ?_
    · rw [l2]; rfl
    · rw [l2]; rfl
    · rw [l2]; rfl
    · rw [l2]; rfl
    · intro i a b ha hb
      have hi : i < s.atoms.length := by
        rw [← hlen]; exact (List.getElem?_eq_some_iff.1 ha).1
      obtain ⟨e, a', b', q1, q2, q3⟩ := hall i hi
      rw [ha] at q1
      rw [hb] at q2
      cases q1
      cases q2
      obtain ⟨t1, t2, -, t4, t5⟩ := q3.same
      exact ⟨t2, t1, q3.bare, t4, t5⟩
  · rw [l2]; rfl
  · intro i hi
    obtain ⟨e, a', b', -, q2, q3⟩ := hall i hi
    exact ⟨e, _, b', q2, q3⟩

end N2P2
