import Verif.Lemma.ModeElement
import Verif.Lemma.ModeFold

/-! The symmetry functions of one atom: memory, caches, values and derivatives. -/

namespace N2P2

/-- The neighbour list of the atom is in order for the functions of the element and the largest
cutoff radius. -/
structure AtomIn (n : ℕ) (e : ElementData) (R : ℝ) (a : Atom) : Prop where
  listR : a.ListOK R
  list : ∀ S ∈ e.symmetryFunctions, a.ListOK S.rc
  le : ∀ S ∈ e.symmetryFunctions, S.rc ≤ R
  elements : ∀ nb ∈ a.neighbors, nb.element < n
  triplets : ∀ S ∈ e.symmetryFunctions, S.TripletsOK a.env

/-- The neighbour with fresh memory. -/
noncomputable def freshNeighbor (e : ElementData) (d : Bool) (nb : Neighbor) : Neighbor :=
  { nb with
    cache := List.replicate (e.cacheSizes.getD nb.element 0) (-DBL_MAX)
    dGdr := List.replicate (if d then (relevantIndices e.symmetryFunctions nb.element).length
      else 0) 0 }

/-- The atom with fresh memory. -/
noncomputable def freshAtom (e : ElementData) (R : ℝ) (d : Bool) (a : Atom) : Atom :=
  let b := a.takeSizes e d
  let n := e.symmetryFunctions.length
  { b with
    G := List.replicate n 0
    dEdG := if d then List.replicate (if a.useChargeNeuron then n + 1 else n) 0 else []
    dQdG := if d then List.replicate n 0 else []
    dChidG := if d then List.replicate n 0 else []
    dGdr := if d then List.replicate n 0 else []
    neighbors := (a.neighbors.take (a.getStoredMinNumNeighbors R)).map (freshNeighbor e d) ++
      a.neighbors.drop (a.getStoredMinNumNeighbors R)
    hasSymmetryFunctions := false
    hasSymmetryFunctionDerivatives := false }

theorem mapM_eq_map {α β : Type} {f : α → Option β} {g : α → β} : ∀ {l : List α},
    (∀ x ∈ l, f x = some (g x)) → l.mapM f = some (l.map g)
  | [], _ => rfl
  | x :: l, h => by
    rw [List.mapM_cons, h x (by simp), mapM_eq_map fun y hy => h y (by simp [hy])]
    rfl

variable {n : ℕ} {e : ElementData} {R : ℝ} {a : Atom}

theorem allocate_eq (he : e.OK n) (hn : 0 < n) (hne : e.symmetryFunctions ≠ [])
    (ha : AtomIn n e R a) (d : Bool) :
    (a.takeSizes e d).allocate d R = some (freshAtom e R d a) := by
  unfold Atom.allocate
  have h1 : (a.takeSizes e d).numSymmetryFunctions ≠ 0 := by
    show e.symmetryFunctions.length ≠ 0
    simpa using hne
  have hst : (a.takeSizes e d).getStoredMinNumNeighbors R = a.getStoredMinNumNeighbors R := rfl
  simp only
  rw [if_neg h1, if_neg (by rw [hst]; exact not_lt.2 ha.listR.stored_le), if_neg (by
    rintro ⟨hd, h⟩
    subst hd
    change (e.symmetryFunctionTable.map List.length).length = 0 at h
    rw [he.table] at h
    simp at h
    omega)]
  have h2 : ((a.takeSizes e d).neighbors.take ((a.takeSizes e d).getStoredMinNumNeighbors R)).mapM
      ((a.takeSizes e d).allocateNeighbor d) =
      some ((a.neighbors.take (a.getStoredMinNumNeighbors R)).map (freshNeighbor e d)) := by
    refine mapM_eq_map fun nb hnb => ?_
    have hlt : nb.element < n := ha.elements nb (List.mem_of_mem_take hnb)
    unfold Atom.allocateNeighbor freshNeighbor
    have c1 : (a.takeSizes e d).cacheSizePerElement[nb.element]? =
        some (e.cacheSizes.getD nb.element 0) := by
      show e.cacheSizes[nb.element]? = _
      have : nb.element < e.cacheSizes.length := by rw [he.sizes]; exact hlt
      simp [this]
    rw [c1]
    cases d with
    | false => rfl
    | true =>
      have c2 : (a.takeSizes e true).numSymmetryFunctionDerivatives[nb.element]? =
          some (relevantIndices e.symmetryFunctions nb.element).length := by
        show (e.symmetryFunctionTable.map List.length)[nb.element]? = _
        rw [he.table]
        simp [hlt]
      simp only [if_true, c2]
      rfl
  rw [h2]
  rfl

theorem freshAtom_get (d : Bool) (hl : a.getStoredMinNumNeighbors R ≤ a.neighbors.length) (k : ℕ) :
    (freshAtom e R d a).neighbors[k]? = (a.neighbors[k]?).map fun nb =>
      if k < a.getStoredMinNumNeighbors R then freshNeighbor e d nb else nb := by
  show ((a.neighbors.take (a.getStoredMinNumNeighbors R)).map (freshNeighbor e d) ++
      a.neighbors.drop (a.getStoredMinNumNeighbors R))[k]? = _
  generalize a.getStoredMinNumNeighbors R = m at hl
  by_cases hk : k < m
  · rw [List.getElem?_append_left (by simp; omega), List.getElem?_map, List.getElem?_take_of_lt hk]
    simp [hk]
  · rw [List.getElem?_append_right (by simp; omega), List.getElem?_drop]
    have : m + (k - (List.map (freshNeighbor e d) (List.take m a.neighbors)).length) = k := by
      simp; omega
    rw [this]
    simp [hk]

theorem freshAtom_mem (d : Bool) {nb : Neighbor} (h : nb ∈ (freshAtom e R d a).neighbors) :
    (nb ∈ a.neighbors.drop (a.getStoredMinNumNeighbors R) ∨
      ∃ nb0 ∈ a.neighbors, nb = freshNeighbor e d nb0) := by
  rcases List.mem_append.1 h with h | h
  · obtain ⟨nb0, h1, rfl⟩ := List.mem_map.1 h
    exact Or.inr ⟨nb0, List.mem_of_mem_take h1, rfl⟩
  · exact Or.inl h

theorem freshAtom_bare (d : Bool) (hl : a.getStoredMinNumNeighbors R ≤ a.neighbors.length) :
    (freshAtom e R d a).bareNeighbors = a.bareNeighbors := by
  refine List.ext_getElem? fun k => ?_
  rw [Atom.bareNeighbors_getElem?, Atom.bareNeighbors_getElem?, freshAtom_get d hl]
  cases a.neighbors[k]? with
  | none => rfl
  | some nb =>
    simp only [Option.map_some]
    split <;> rfl

theorem ListOK.congr {a b : Atom} {rc : ℝ} (h : a.ListOK rc) (hb : b.bareNeighbors = a.bareNeighbors)
    (hn : b.numNeighbors = a.numNeighbors)
    (hs : b.getStoredMinNumNeighbors rc = a.getStoredMinNumNeighbors rc) : b.ListOK rc := by
  have hmem : ∀ x ∈ b.neighbors, ∃ y ∈ a.neighbors, y.d = x.d ∧ y.dr = x.dr := by
    intro x hx
    have : x.bare ∈ a.bareNeighbors := hb ▸ List.mem_map_of_mem hx
    obtain ⟨y, hy, e⟩ := List.mem_map.1 this
    refine ⟨y, hy, ?_, ?_⟩
    · have := congrArg Neighbor.d e; exact this
    · have := congrArg Neighbor.dr e; exact this
  have hlen := Atom.length_congr hb
  refine ⟨?_, ?_, ?_, ?_, ?_⟩
  · intro x hx
    obtain ⟨y, hy, e1, e2⟩ := hmem x hx
    rw [← e1, ← e2]; exact h.d y hy
  · intro x hx
    obtain ⟨y, hy, e1, e2⟩ := hmem x hx
    rw [← e1]; exact h.pos y hy
  · rw [hn, h.num, hlen]
  · rw [hs, hlen]; exact h.stored_le
  · intro x hx
    rw [hs] at hx
    have h1 : x.bare ∈ (b.neighbors.drop (a.getStoredMinNumNeighbors rc)).map Neighbor.bare :=
      List.mem_map_of_mem hx
    rw [List.map_drop] at h1
    have h2 : b.neighbors.map Neighbor.bare = a.neighbors.map Neighbor.bare := hb
    rw [h2, ← List.map_drop] at h1
    obtain ⟨y, hy, e⟩ := List.mem_map.1 h1
    have h3 := h.stored y hy
    have h4 := congrArg Neighbor.d e
    change y.d = x.d at h4
    rw [← h4]; exact h3

theorem relevantIndices_length (Ss : List SymFnc) (e : ℕ) :
    (relevantIndices Ss e).length = (Ss.filter fun S => S.checkRelevantElement e).length := by
  simp [relevantIndices]

theorem memoryPosition_lt {Ss : List SymFnc} {k e : ℕ} {S : SymFnc} (h : Ss[k]? = some S)
    (hr : S.checkRelevantElement e) : memoryPosition Ss k e < (relevantIndices Ss e).length := by
  rw [relevantIndices_length, memoryPosition_eq]
  obtain ⟨hk, hS⟩ := List.getElem?_eq_some_iff.1 h
  have : Ss = Ss.take k ++ Ss[k] :: Ss.drop (k + 1) := by
    rw [← List.drop_eq_getElem_cons hk, List.take_append_drop]
  conv_rhs => rw [this]
  rw [List.filter_append, List.length_append, List.filter_cons_of_pos (by rw [hS]; exact hr)]
  simp

/-- Everything is in place for the calculation. -/
theorem freshAtom_ready (he : e.OK n) (ha : AtomIn n e R a) (d : Bool) :
    ∃ L, ∀ S ∈ e.symmetryFunctions, S.Ready (freshAtom e R d a) d L R := by
  obtain ⟨L, hL1, hL2, hL3⟩ := he.caches
  have hbare := freshAtom_bare (e := e) d ha.listR.stored_le
  have hD : -DBL_MAX < 0 := by unfold DBL_MAX; norm_num
  refine ⟨L, fun S hS => ⟨he.valid S hS, ?_, ⟨?_, ?_, ⟨?_, ?_⟩, ?_⟩, ?_, hL1, hL2 S hS, ha.le S hS, ?_⟩⟩
  · exact ListOK.congr (ha.list S hS) hbare rfl rfl
  · obtain ⟨k, hk⟩ := List.getElem?_of_mem hS
    rw [he.index k S hk]
    simpa [freshAtom] using (List.getElem?_eq_some_iff.1 hk).1
  · intro hd
    obtain ⟨k, hk⟩ := List.getElem?_of_mem hS
    rw [he.index k S hk]
    simpa [freshAtom, hd] using (List.getElem?_eq_some_iff.1 hk).1
  · rw [he.cacheLength S hS]; exact he.e1 S hS
  · intro nb hnb
    rw [he.cacheLength S hS]
    rcases freshAtom_mem d hnb with h | ⟨nb0, h, rfl⟩
    · exact ha.elements nb (List.mem_of_mem_drop h)
    · exact ha.elements nb0 h
  · intro hd nb hnb hlt hr
    rcases freshAtom_mem d hnb with h | ⟨nb0, h, rfl⟩
    · have := ha.listR.stored nb h
      exact absurd (lt_of_lt_of_le hlt (ha.le S hS)) (not_lt.2 this)
    · obtain ⟨k, hk⟩ := List.getElem?_of_mem hS
      refine ⟨_, he.position k S nb0.element hk (ha.elements nb0 h) hr, ?_⟩
      show _ < (List.replicate _ _).length
      rw [List.length_replicate, if_pos hd]
      exact memoryPosition_lt hk hr
  · rw [Atom.env_congr hbare]; exact ha.triplets S hS
  · intro nb hnb hlt
    rcases freshAtom_mem d hnb with h | ⟨nb0, h, rfl⟩
    · exact absurd hlt (not_lt.2 (ha.listR.stored nb h))
    · intro c hc
      have hlt' : nb0.element < e.cacheSizes.length := by rw [he.sizes]; exact ha.elements nb0 h
      obtain ⟨h1, h2⟩ := hL3 nb0.element _ (List.getElem?_eq_getElem hlt') c hc
      refine ⟨-DBL_MAX, -DBL_MAX, ?_, ?_, Or.inl hD⟩
      · show (List.replicate (e.cacheSizes.getD nb0.element 0) (-DBL_MAX))[c.val]? = _
        rw [List.getElem?_replicate, List.getD_eq_getElem?_getD, List.getElem?_eq_getElem hlt',
          Option.getD_some, if_pos h1]
      · show (List.replicate (e.cacheSizes.getD nb0.element 0) (-DBL_MAX))[c.der]? = _
        rw [List.getElem?_replicate, List.getD_eq_getElem?_getD, List.getElem?_eq_getElem hlt',
          Option.getD_some, if_pos h2]

/-- The atom `a'` holds the symmetry functions of atom `a`, with derivatives if `d` is set. -/
structure AtomDone (e : ElementData) (R : ℝ) (d : Bool) (a a' : Atom) : Prop where
  G : a'.G = e.symmetryFunctions.map fun S => S.sc.scale (S.formula a.env)
  bare : a'.bareNeighbors = a.bareNeighbors
  rest : a' = { a with
    numSymmetryFunctions := e.symmetryFunctions.length
    numSymmetryFunctionDerivatives := a'.numSymmetryFunctionDerivatives
    cacheSizePerElement := e.cacheSizes
    G := a'.G, dEdG := a'.dEdG, dQdG := a'.dQdG, dChidG := a'.dChidG, dGdr := a'.dGdr
    neighbors := a'.neighbors
    hasSymmetryFunctions := true
    hasSymmetryFunctionDerivatives := d }
  dEdG : d = true → a'.dEdG.length =
    if a.useChargeNeuron then e.symmetryFunctions.length + 1 else e.symmetryFunctions.length
  self : d = true → a'.dGdr = e.symmetryFunctions.map fun S => (S.total true a).2.1
  neighbor : d = true → ∀ (k : ℕ) nb, a'.neighbors[k]? = some nb →
    k < a.getStoredMinNumNeighbors R →
    nb.dGdr = neighborGrads a e.symmetryFunctions nb.element k

theorem neighborGrads_congr {a b : Atom} {Ss : List SymFnc} (hV : ∀ S ∈ Ss, S.Valid)
    (h : a.bareNeighbors = b.bareNeighbors) (e k : ℕ) :
    neighborGrads a Ss e k = neighborGrads b Ss e k := by
  unfold neighborGrads
  refine List.map_congr_left fun S hS => ?_
  rw [SymFnc.total_congr (hV S (List.mem_filter.1 hS).1) true h]

theorem freshAtom_done (he : e.OK n) (ha : AtomIn n e R a) (d : Bool) :
    ∃ a', calculateSymmetryFunctions e.symmetryFunctions (freshAtom e R d a) d = some a' ∧
      AtomDone e R d a { a' with
        hasSymmetryFunctions := true
        hasSymmetryFunctionDerivatives := a'.hasSymmetryFunctionDerivatives || d } := by
  obtain ⟨L, hL⟩ := freshAtom_ready he ha d
  obtain ⟨a', h1, h2, -⟩ := calculateAll_eq hL
  refine ⟨a', h1, ?_⟩
  set b := freshAtom e R d a with hb
  have h2' : a'.forgetCaches = pureAll d b.forgetCaches e.symmetryFunctions := h2
  have hfb : b.forgetCaches.bareNeighbors = b.bareNeighbors := by
    simp only [Atom.bareNeighbors, Atom.forgetCaches, List.map_map]
    rfl
  have hbb : b.forgetCaches.bareNeighbors = a.bareNeighbors :=
    hfb.trans (freshAtom_bare d ha.listR.stored_le)
  have hfa : a'.forgetCaches.bareNeighbors = a'.bareNeighbors := by
    simp only [Atom.bareNeighbors, Atom.forgetCaches, List.map_map]
    rfl
  have hG : a'.G = e.symmetryFunctions.map fun S => S.sc.scale (S.formula a.env) := by
    have : a'.G = a'.forgetCaches.G := rfl
    rw [this, h2', pureAll_G he.index (by
      show _ ≤ (List.replicate _ (0 : ℝ)).length
      simp), Atom.env_congr hbb]
    have : b.forgetCaches.G.drop e.symmetryFunctions.length = [] := by
      show (List.replicate _ (0 : ℝ)).drop _ = []
      simp
    rw [this, List.append_nil]
  have hrest := pureAll_rest d b.forgetCaches e.symmetryFunctions
  rw [← h2'] at hrest
  have hfl : a'.hasSymmetryFunctionDerivatives = false := by
    have := congrArg Atom.hasSymmetryFunctionDerivatives hrest
    exact this
  have hdE : a'.dEdG = if d then List.replicate
      (if a.useChargeNeuron then e.symmetryFunctions.length + 1 else e.symmetryFunctions.length) 0
      else [] := congrArg Atom.dEdG hrest
  refine ⟨hG, ?_, ?_, ?_, ?_, ?_⟩
  · show a'.bareNeighbors = _
    rw [← hfa, h2', pureAll_bare, hbb]
  · have f := fun {α : Type} (g : Atom → α) => congrArg g hrest
    cases a' with
    | mk =>
    simp only [Atom.forgetCaches, Atom.mk.injEq] at hrest ⊢
    simp only [hb, freshAtom, Atom.takeSizes] at hrest
    simp only [hrest, true_and, and_true]
    simp
  · intro hd
    show a'.dEdG.length = _
    rw [hdE, if_pos hd, List.length_replicate]
  · intro hd
    subst hd
    show a'.forgetCaches.dGdr = _
    rw [h2', pureAll_dGdr he.valid he.index e.symmetryFunctions.length le_rfl rfl, Nat.sub_self]
    simp only [List.replicate_zero, List.append_nil]
    exact List.map_congr_left fun S hS => by rw [SymFnc.total_congr (he.valid S hS) true hbb]
  · intro hd k nb hnb hk
    subst hd
    have hkl : k < a.neighbors.length := lt_of_lt_of_le hk ha.listR.stored_le
    have hn0 : a.neighbors[k]? = some a.neighbors[k] := List.getElem?_eq_getElem hkl
    have hlt := ha.elements _ (List.getElem_mem hkl)
    have hbk : b.forgetCaches.neighbors[k]? =
        some (freshNeighbor e true a.neighbors[k]).forget := by
      rw [Atom.forget_getElem?, freshAtom_get true ha.listR.stored_le, hn0]
      simp [hk]
    obtain ⟨c, hc⟩ := pureAll_neighbor hbk he.valid (by
      intro i S hS hr
      unfold SymFnc.slotOf
      rw [List.getD_eq_getElem?_getD]
      have := he.position i S a.neighbors[k].element hS hlt hr
      show ((S.indexPerElement[a.neighbors[k].element]?).getD 0) = _
      rw [this]
      rfl) (relevantIndices e.symmetryFunctions a.neighbors[k].element).length (by
        rw [relevantIndices_length]; exact le_rfl) rfl
    rw [← h2', Atom.forget_getElem?] at hc
    have hnb' : a'.neighbors[k]? = some nb := hnb
    rw [hnb', Option.map_some, Option.some.injEq] at hc
    have h3 := congrArg Neighbor.dGdr hc
    change nb.dGdr = _ at h3
    have h4 := congrArg Neighbor.element hc
    change nb.element = a.neighbors[k].element at h4
    rw [h3, h4, relevantIndices_length]
    simp only [freshNeighbor, Neighbor.forget, Nat.sub_self, List.replicate_zero, List.append_nil]
    exact neighborGrads_congr he.valid hbb _ _

/-- The symmetry functions of an atom are calculated, unless they are there already. -/
theorem calculateAtom_eq {M : Mode} (hM : M.elements[a.element]? = some e) (he : e.OK n)
    (hn : 0 < n) (hne : e.symmetryFunctions ≠ []) (ha : AtomIn n e M.maxCutoffRadius a) (d : Bool)
    (h1 : a.hasSymmetryFunctions = false) (h2 : a.hasSymmetryFunctionDerivatives = false) :
    ∃ a', M.calculateAtom d a = some a' ∧ AtomDone e M.maxCutoffRadius d a a' := by
  obtain ⟨a', h3, h4⟩ := freshAtom_done he ha d
  refine ⟨_, ?_, h4⟩
  unfold Mode.calculateAtom
  rw [if_neg (by simp [h2]), if_neg (by simp [h1]), hM]
  show Option.bind ((a.takeSizes e d).allocate d M.maxCutoffRadius) _ = _
  rw [allocate_eq he hn hne ha d]
  show Option.bind (calculateSymmetryFunctions e.symmetryFunctions _ d) _ = _
  rw [h3]
  rfl

end N2P2
