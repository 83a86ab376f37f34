import Verif.Lemma.ModeDeriv

/-! The result of `evaluateNNP`. -/

namespace N2P2

variable {M : Mode} {P : Potential} {n : ℕ} {s : Structure}

theorem AtomState.next {i : ℕ} {e : ElementData} {a b : Atom} (h : AtomState M n s i e a b)
    {els : List ElementData} (hs : SameElements M.elements els) :
    ∃ nn, AtomState { M with elements := els } n s i { e with net := nn } a b := by
  obtain ⟨nn, hn⟩ := hs.get h.get
  refine ⟨nn, h.element, hn, h.position, h.index, h.list, ?_, ?_⟩
  · have := h.ready
    exact ⟨this.listR, this.list, this.le, this.elements, this.triplets⟩
  · have := h.done
    exact ⟨this.G, this.bare, this.rest, this.dEdG, this.self, this.neighbor⟩

open Classical in
/-- What `evaluateNNP` returns. -/
theorem evaluateNNP_eq {srt : List Neighbor → List Neighbor} (hsrt : IsSort srt)
    (hM : M.SetUp P n) (hP : P.Fits n) (hn : 0 < n) (hs : s.New n) (hap : s.Apart)
    (hT : P.TripletsOK (M.listRadius s) s) (useForces useDEdG : Bool) :
    ∃ M' s', M.evaluateNNP srt s useForces useDEdG = some (M', s') ∧ M'.SetUp P n ∧
      M'.maxCutoffRadius = M.maxCutoffRadius ∧
      s'.atoms.length = s.atoms.length ∧
      (∀ i < s.atoms.length, ∃ a a' : Atom, s'.atoms[i]? = some a' ∧
        IsBall s (M.listRadius s) i a.env ∧ a'.energy = P.atomic (s.elementOf i) a.env) ∧
      IsEnergy P (M.listRadius s) s s'.energyShort ∧
      s'.energy = s'.energyShort + s.energyElec ∧
      (useForces = true → ∃ El A cs, ForceState M' P n s El A cs ∧
        ∀ i < s.atoms.length, ∃ a', s'.atoms[i]? = some a' ∧ a'.f = -selfGradOf P s A (inputGrad P s A) i +
          ∑ j ∈ Finset.range s.atoms.length, if j = i then 0 else forceFrom P s A (inputGrad P s A) i j) := by
  obtain ⟨s1, s2, els, h1, h2, h3, h4, h5, h6, h7, h8, h9⟩ :=
    evaluate_energy hsrt hM hP hn hs hap hT (useForces || useDEdG)
  set M' : Mode := { M with elements := els } with hM'
  set cs := s2.atoms.map (evaluatedAtom P (useForces || useDEdG)) with hcs
  have hSet : M'.SetUp P n := hM.next h5 h6
  have hshort : (Structure.calculateEnergy { s2 with atoms := cs }).energyShort =
      (cs.map Atom.energy).sum := by
    show List.foldl _ 0 _ = _
    rw [foldl_energy, zero_add]
  have hget : ∀ i < s.atoms.length, ∃ e a b, cs[i]? =
      some (evaluatedAtom P (useForces || useDEdG) b) ∧ AtomState M n s i e a b ∧
      (evaluatedAtom P (useForces || useDEdG) b).energy = P.atomic (s.elementOf i) a.env := by
    intro i hi
    obtain ⟨e, a, b, g1, g2, g3⟩ := h8 i hi
    exact ⟨e, a, b, by rw [hcs, List.getElem?_map, g1]; rfl, g2, g3⟩
  have hball : ∀ i < s.atoms.length, ∀ e a b, AtomState M n s i e a b →
      IsBall s (M.listRadius s) i a.env := by
    intro i hi e a b h
    obtain ⟨imgs, hL⟩ := listOf_of hi h.position h.list
    exact hL.isBall
  cases useForces with
  | false =>
    refine ⟨M', Structure.calculateEnergy { s2 with atoms := cs }, ?_, hSet, rfl, ?_, ?_, ?_, ?_,
      nofun⟩
    · unfold Mode.evaluateNNP
      rw [h1]
      show Option.bind (M.calculateSymmetryFunctions s1 true) _ = _
      rw [h2]
      show Option.bind (calculateAtomicNeuralNetworks M.elements s2.atoms _) _ = _
      rw [h4]
      rfl
    · show cs.length = _
      rw [hcs, List.length_map, h7]
    · intro i hi
      obtain ⟨e, a, b, g1, g2, g3⟩ := hget i hi
      exact ⟨a, _, g1, hball i hi e a b g2, g3⟩
    · rw [hshort]; exact h9
    · show _ + s2.energyElec = _
      rw [h3]; rfl
  | true =>
    have hA : ∀ i, ∃ e a, i < s.atoms.length → ∃ b, AtomState M' n s i e a b ∧
        cs[i]? = some (evaluatedAtom P true b) ∧
        (evaluatedAtom P true b).energy = P.atomic (s.elementOf i) a.env := by
      intro i
      by_cases hi : i < s.atoms.length
      · obtain ⟨e, a, b, g1, g2, g3⟩ := hget i hi
        obtain ⟨nn, g4⟩ := g2.next h5
        exact ⟨_, a, fun _ => ⟨b, g4, g1, g3⟩⟩
      · obtain ⟨e, -⟩ := hM.get hn
        exact ⟨e, Atom.init, fun h => absurd h hi⟩
    choose El A hEA using hA
    have hFS : ForceState M' P n s El A cs := by
      refine ⟨by rw [hcs, List.length_map, h7], fun i hi => ?_⟩
      obtain ⟨b, g1, g2, -⟩ := hEA i hi
      exact ⟨b, g1, g2⟩
    have hforce : ∀ i < s.atoms.length, ∃ c, cs[i]? = some c ∧ M'.forceOn cs c =
        some (-selfGradOf P s A (inputGrad P s A) i + ∑ j ∈ Finset.range s.atoms.length,
          if j = i then 0 else forceFrom P s A (inputGrad P s A) i j) ∧ ∃ a : Atom, IsBall s (M.listRadius s) i a.env ∧
          c.energy = P.atomic (s.elementOf i) a.env := by
      intro i hi
      obtain ⟨b, g1, g2, g3⟩ := hEA i hi
      refine ⟨_, g2, forceOn_eq hSet (hFS.forceable hSet hP) hi g2, A i, ?_, g3⟩
      obtain ⟨imgs, hL⟩ := listOf_of hi g1.position g1.list
      exact hL.isBall
    obtain ⟨atoms, hm⟩ := mapM_exists
      (f := fun ai => (M'.forceOn cs ai).map fun f => { ai with f := f }) (l := cs) (by
      intro c hc
      obtain ⟨i, hi, rfl⟩ := List.getElem_of_mem hc
      obtain ⟨c, g1, g2, -⟩ := hforce i (by rw [← hFS.len]; exact hi)
      rw [List.getElem?_eq_getElem hi] at g1
      rw [Option.some.inj g1, g2]
      exact ⟨_, rfl⟩)
    obtain ⟨m1, m2⟩ := mapM_some hm
    refine ⟨M', { Structure.calculateEnergy { s2 with atoms := cs } with atoms := atoms }, ?_,
      hSet, rfl, ?_, ?_, ?_, ?_, fun _ => ⟨El, A, cs, hFS, ?_⟩⟩
    · unfold Mode.evaluateNNP
      rw [h1]
      show Option.bind (M.calculateSymmetryFunctions s1 true) _ = _
      rw [h2]
      show Option.bind (calculateAtomicNeuralNetworks M.elements s2.atoms _) _ = _
      rw [h4]
      show Option.bind (M'.calculateForces (Structure.calculateEnergy { s2 with atoms := cs })) _ = _
      have : M'.calculateForces (Structure.calculateEnergy { s2 with atoms := cs }) =
          some { Structure.calculateEnergy { s2 with atoms := cs } with atoms := atoms } := by
        unfold Mode.calculateForces
        exact congrArg (Option.bind · _) hm
      rw [this]
      rfl
    · show atoms.length = _
      rw [m1, hFS.len]
    · intro i hi
      obtain ⟨c, g1, g2, a, g3, g4⟩ := hforce i hi
      obtain ⟨c', k1, k2⟩ := m2 i c g1
      rw [g2] at k2
      cases k2
      exact ⟨a, _, k1, g3, g4⟩
    · show IsEnergy P _ s (Structure.calculateEnergy { s2 with atoms := cs }).energyShort
      rw [hshort]; exact h9
    · show _ + s2.energyElec = _
      rw [h3]; rfl
    · intro i hi
      obtain ⟨c, g1, g2, -⟩ := hforce i hi
      obtain ⟨c', k1, k2⟩ := m2 i c g1
      rw [g2] at k2
      cases k2
      exact ⟨_, k1, rfl⟩

end N2P2
