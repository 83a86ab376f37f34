import Verif.Lemma.ModeEnergy

/-! Forces as sums over atoms, neighbours and symmetry functions. -/

namespace N2P2

theorem foldlM_sum {α : Type} {g : Vec3 → α → Option Vec3} {h : α → Vec3} :
    ∀ (l : List α), (∀ x ∈ l, ∀ f, g f x = some (f + h x)) → ∀ f0,
      l.foldlM g f0 = some (f0 + (l.map h).sum)
  | [], _, f0 => by simp
  | x :: l, hl, f0 => by
    rw [List.foldlM_cons, hl x (by simp)]
    show List.foldlM _ _ _ = _
    rw [foldlM_sum l fun y hy => hl y (by simp [hy])]
    simp [add_assoc]

/-- Value and derivatives of function `m`. -/
noncomputable def totalOf (Ss : List SymFnc) (a : Atom) (m : ℕ) : Contrib :=
  match Ss[m]? with
  | some S => S.total true a
  | none => 0

/-- Derivative of the energy of an atom with respect to its own position, neighbours fixed. -/
noncomputable def selfGrad (x : ℕ → ℝ) (Ss : List SymFnc) (a : Atom) : Vec3 :=
  ∑ m ∈ Finset.range Ss.length, x m • (totalOf Ss a m).2.1

/-- Minus derivative of the energy of an atom with respect to neighbour `k`. -/
noncomputable def pairForce (x : ℕ → ℝ) (Ss : List SymFnc) (a : Atom) (k : ℕ) : Vec3 :=
  ∑ m ∈ Finset.range Ss.length, x m • (totalOf Ss a m).2.2 k

theorem sum_range_list {β : Type} [AddCommMonoid β] (n : ℕ) (f : ℕ → β) :
    ((List.range n).map f).sum = ∑ i ∈ Finset.range n, f i := rfl

theorem selfForce_eq {c : Atom} {x : ℕ → ℝ} {Ss : List SymFnc} {a : Atom}
    (h1 : c.numSymmetryFunctions = Ss.length) (h2 : ∀ m < Ss.length, c.dEdG[m]? = some (x m))
    (h3 : c.dGdr = Ss.map fun S => (S.total true a).2.1) :
    c.calculateSelfForceShort = some (-selfGrad x Ss a) := by
  unfold Atom.calculateSelfForceShort
  rw [foldlM_sum (h := fun m => -(x m • (totalOf Ss a m).2.1))]
  · rw [zero_add, sum_range_list, Finset.sum_neg_distrib, h1]
    rfl
  · intro m hm f
    rw [List.mem_range, h1] at hm
    rw [h2 m hm, h3, List.getElem?_map]
    unfold totalOf
    rw [List.getElem?_eq_getElem hm]
    show some _ = some _
    rw [sub_eq_add_neg]

theorem sum_filter_zero {α : Type} (p : α → Bool) (f : α → Vec3) (l : List α)
    (h : ∀ x ∈ l, p x = false → f x = 0) : ((l.filter p).map f).sum = (l.map f).sum := by
  induction l with
  | nil => rfl
  | cons x l ih =>
    have ih := ih fun y hy => h y (by simp [hy])
    cases hp : p x with
    | true => simp [hp, ih]
    | false => simp [hp, ih, h x (by simp) hp]

theorem zipIdx_filter_fst (Ss : List SymFnc) (p : SymFnc → Bool) :
    (Ss.zipIdx.filter fun q => p q.1).map Prod.fst = Ss.filter p := by
  rw [show (fun q : SymFnc × ℕ => p q.1) = p ∘ Prod.fst from rfl, ← List.filter_map,
    List.zipIdx_map_fst]

theorem pairForce_eq {c : Atom} {nb : Neighbor} {x : ℕ → ℝ} {Ss : List SymFnc} {a : Atom} {k n : ℕ}
    {tables : List (List ℕ)} (hidx : ∀ (k : ℕ) (S : SymFnc), Ss[k]? = some S → S.index = k)
    (h2 : ∀ m < Ss.length, c.dEdG[m]? = some (x m)) (he : nb.element < n)
    (h3 : nb.dGdr = neighborGrads a Ss nb.element k)
    (ht : tables = (List.range n).map (relevantIndices Ss)) {nb0 : Neighbor}
    (hk : a.neighbors[k]? = some nb0) (h0 : nb0.element = nb.element) :
    c.calculatePairForceShort nb tables = some (pairForce x Ss a k) := by
  have ht' : tables[nb.element]? = some (relevantIndices Ss nb.element) := by
    rw [ht, List.getElem?_map, List.getElem?_range he]; rfl
  set Q := Ss.zipIdx.filter fun q => q.1.checkRelevantElement nb.element with hQ
  have q1 : relevantIndices Ss nb.element = Q.map Prod.snd := by
    unfold relevantIndices
    rw [← zipIdx_filter_fst, List.map_map]
    refine List.map_congr_left fun q hq => ?_
    have := List.mem_zipIdx_iff_getElem?.1 (List.mem_filter.1 hq).1
    exact hidx _ _ this
  have q2 : neighborGrads a Ss nb.element k = Q.map fun q => -(q.1.total true a).2.2 k := by
    unfold neighborGrads
    rw [← zipIdx_filter_fst, List.map_map]
    rfl
  unfold Atom.calculatePairForceShort
  rw [ht']
  show List.foldlM _ _ _ = _
  rw [h3, q2, q1, foldlM_sum (h := fun i => match Q[i]? with
    | some q => x q.2 • (q.1.total true a).2.2 k
    | none => 0)]
  · rw [zero_add]
    congr 1
    have e1 : ((List.range (Q.map fun q => -(q.1.total true a).2.2 k).length).map fun i =>
        match Q[i]? with
        | some q => x q.2 • (q.1.total true a).2.2 k
        | none => 0) = Q.map fun q => x q.2 • (q.1.total true a).2.2 k := by
      refine List.ext_getElem (by simp) fun i g1 g2 => ?_
      rw [List.length_map] at g2
      simp [List.getElem?_eq_getElem g2]
    rw [e1, sum_filter_zero]
    · unfold pairForce
      rw [← sum_range_list]
      congr 1
      refine List.ext_getElem (by simp) fun i g1 g2 => ?_
      simp only [List.length_map, List.length_range] at g2
      simp [totalOf, List.getElem?_eq_getElem g2]
    · intro q hq hr
      rw [q.1.total_irrelevant true a hk (by
        rintro ⟨-, h⟩
        rw [h0] at h
        simp [h] at hr), smul_zero]
  · intro i hi f
    rw [List.mem_range, List.length_map] at hi
    have hmem : Q[i] ∈ Ss.zipIdx := (List.mem_filter.1 (List.getElem_mem hi)).1
    have hlt : Q[i].2 < Ss.length := by
      exact (List.getElem?_eq_some_iff.1 (List.mem_zipIdx_iff_getElem?.1 hmem)).1
    simp only [List.getElem?_map, List.getElem?_eq_getElem hi, Option.map_some]
    show (do let e ← c.dEdG[Q[i].2]?; some (f - e • -(Q[i].1.total true a).2.2 k)) = _
    rw [h2 _ hlt]
    show some _ = some _
    rw [smul_neg, sub_neg_eq_add]

/-- Index of neighbour `k`. -/
def nbIndex (a : Atom) (k : ℕ) : ℕ := ((a.neighbors[k]?).map Neighbor.index).getD 0

theorem bare_get {a c : Atom} (hb : c.bareNeighbors = a.bareNeighbors) (k : ℕ) (nb : Neighbor)
    (hk : c.neighbors[k]? = some nb) : ∃ nb0 : Neighbor, a.neighbors[k]? = some nb0 ∧
      nb0.element = nb.element ∧ nb0.index = nb.index ∧ nb0.tag = nb.tag ∧ nb0.d = nb.d ∧
      nb0.dr = nb.dr := by
  have h := congrArg (fun l => l[k]?) hb
  simp only [Atom.bareNeighbors_getElem?, hk, Option.map_some] at h
  obtain ⟨nb0, g1, g2⟩ := Option.map_eq_some_iff.1 h.symm
  have e1 := congrArg Neighbor.element g2
  have e2 := congrArg Neighbor.index g2
  have e3 := congrArg Neighbor.tag g2
  have e4 := congrArg Neighbor.d g2
  have e5 := congrArg Neighbor.dr g2
  exact ⟨nb0, g1, e1, e2, e3, e4, e5⟩

/-- A loop over the first entries of a list, by index. -/
theorem foldlM_take {l : List Neighbor} {m : ℕ} (hm : m ≤ l.length)
    {g : Vec3 → Neighbor → Option Vec3} (f : Vec3) :
    (l.take m).foldlM g f = (List.range m).foldlM (fun f k => match l[k]? with
      | some nb => g f nb
      | none => some f) f := by
  have e1 : l.take m = (List.range m).map fun k => (l[k]?).getD ⟨0, 0, 0, 0, 0, [], []⟩ := by
    refine List.ext_getElem (by simpa using hm) fun k g1 g2 => ?_
    have : k < l.length := by simp at g1; omega
    simp [List.getElem?_eq_getElem this]
  rw [e1, List.foldlM_map]
  have : ∀ (is : List ℕ) (f : Vec3), (∀ k ∈ is, k < l.length) →
      is.foldlM (fun f k => g f ((l[k]?).getD ⟨0, 0, 0, 0, 0, [], []⟩)) f =
      is.foldlM (fun f k => match l[k]? with
        | some nb => g f nb
        | none => some f) f := by
    intro is
    induction is with
    | nil => intro f _; rfl
    | cons k is ih =>
      intro f hl
      have hk := List.getElem?_eq_getElem (hl k (by simp))
      simp only [List.foldlM_cons, hk, Option.getD_some]
      refine congrArg (Option.bind _) ?_
      funext f'
      exact ih f' fun j hj => hl j (by simp [hj])
  exact this _ _ fun k hk => by rw [List.mem_range] at hk; omega

open Classical in
theorem addPairForces_eq {M : Mode} {n i : ℕ} {f : Vec3} {c a : Atom} {e : ElementData}
    {x : ℕ → ℝ} (hM : M.elements[c.element]? = some e) (he : e.OK n)
    (hst : c.getStoredMinNumNeighbors M.maxCutoffRadius ≤ c.neighbors.length)
    (hfar : ∀ (k : ℕ), k < a.neighbors.length → c.getStoredMinNumNeighbors M.maxCutoffRadius ≤ k →
      pairForce x e.symmetryFunctions a k = 0)
    (hb : c.bareNeighbors = a.bareNeighbors)
    (hel : ∀ nb ∈ c.neighbors, nb.element < n)
    (h2 : ∀ m < e.symmetryFunctions.length, c.dEdG[m]? = some (x m))
    (h3 : ∀ (k : ℕ) nb, c.neighbors[k]? = some nb →
      k < c.getStoredMinNumNeighbors M.maxCutoffRadius →
      nb.dGdr = neighborGrads a e.symmetryFunctions nb.element k) :
    M.addPairForces i f c = some (f + ∑ k ∈ Finset.range a.neighbors.length,
      if nbIndex a k = i then pairForce x e.symmetryFunctions a k else 0) := by
  have hlen : c.neighbors.length = a.neighbors.length := Atom.length_congr hb
  have hget := bare_get hb
  unfold Mode.addPairForces
  rw [hM]
  show (if c.neighbors.length < c.getStoredMinNumNeighbors M.maxCutoffRadius then none else
    List.foldlM _ f (c.neighbors.take (c.getStoredMinNumNeighbors M.maxCutoffRadius))) = _
  generalize c.getStoredMinNumNeighbors M.maxCutoffRadius = m at hst hfar h3
  rw [if_neg (not_lt.2 hst)]
  have hsum : ∑ k ∈ Finset.range a.neighbors.length,
      (if nbIndex a k = i then pairForce x e.symmetryFunctions a k else 0) =
      ∑ k ∈ Finset.range m,
        if nbIndex a k = i then pairForce x e.symmetryFunctions a k else 0 := by
    symm
    refine Finset.sum_subset (fun k hk => ?_) fun k hk hk' => ?_
    · rw [Finset.mem_range] at hk ⊢
      omega
    · rw [Finset.mem_range] at hk hk'
      rw [hfar k hk (by omega), ite_self]
  rw [hsum, foldlM_take hst, foldlM_sum (h := fun k => if nbIndex a k = i then
    pairForce x e.symmetryFunctions a k else 0), sum_range_list]
  intro k hk f
  rw [List.mem_range] at hk
  have hck := List.getElem?_eq_getElem (l := c.neighbors) (i := k) (by omega)
  obtain ⟨nb0, g1, g2, g3⟩ := hget k _ hck
  rw [hck]
  have hni : nbIndex a k = c.neighbors[k].index := by
    unfold nbIndex
    rw [g1]; exact g3.1
  simp only [hni]
  by_cases hi : c.neighbors[k].index = i
  · rw [if_pos hi, if_pos hi, pairForce_eq he.index h2 (hel _ (List.getElem_mem _)) (h3 k _ hck hk)
      he.table g1 g2]
    rfl
  · rw [if_neg hi, if_neg hi, add_zero]

/-- The atoms of a structure after the networks: `A i` is atom `i` with its neighbour list. -/
structure ForceState (M : Mode) (P : Potential) (n : ℕ) (s : Structure) (El : ℕ → ElementData)
    (A : ℕ → Atom) (cs : List Atom) : Prop where
  len : cs.length = s.atoms.length
  atom : ∀ i < s.atoms.length, ∃ b, AtomState M n s i (El i) (A i) b ∧
    cs[i]? = some (evaluatedAtom P true b)

/-- Derivative of the energy of atom `i` with respect to its function `m`. -/
noncomputable def inputGrad (P : Potential) (s : Structure) (A : ℕ → Atom) (i m : ℕ) : ℝ :=
  (P.shape (s.elementOf i)).tangent (P.weights (s.elementOf i))
    (P.input (s.elementOf i) (A i).env) 0 (NetShape.unit m) (P.shape (s.elementOf i)).out 0

/-- Minus derivative of a function of the symmetry functions of atom `j`, with gradients `x`, with
respect to its neighbour `k`. -/
noncomputable def pairForceOf (P : Potential) (s : Structure) (A : ℕ → Atom) (x : ℕ → ℕ → ℝ)
    (j k : ℕ) : Vec3 :=
  pairForce (x j) (P.functions (s.elementOf j)) (A j) k

/-- Its derivative with respect to the position of the atom. -/
noncomputable def selfGradOf (P : Potential) (s : Structure) (A : ℕ → Atom) (x : ℕ → ℕ → ℝ)
    (i : ℕ) : Vec3 :=
  selfGrad (x i) (P.functions (s.elementOf i)) (A i)

open Classical in
/-- Force on atom `i` through the energy of atom `j`. -/
noncomputable def forceFrom (P : Potential) (s : Structure) (A : ℕ → Atom) (x : ℕ → ℕ → ℝ)
    (i j : ℕ) : Vec3 :=
  ∑ k ∈ Finset.range (A j).neighbors.length,
    if nbIndex (A j) k = i then pairForceOf P s A x j k else 0

variable {M : Mode} {P : Potential} {n : ℕ} {s : Structure} {El : ℕ → ElementData} {A : ℕ → Atom}
  {cs : List Atom} {x : ℕ → ℕ → ℝ}

/-- The facts about one atom needed for forces; `x i` is the gradient in `dEdG`. -/
structure AtomForce (M : Mode) (P : Potential) (n : ℕ) (s : Structure) (El : ℕ → ElementData)
    (A : ℕ → Atom) (x : ℕ → ℕ → ℝ) (i : ℕ) (c : Atom) : Prop where
  get : M.elements[c.element]? = some (El i)
  functions : (El i).symmetryFunctions = P.functions (s.elementOf i)
  index : c.index = i
  num : c.numSymmetryFunctions = (P.functions (s.elementOf i)).length
  stored : c.getStoredMinNumNeighbors M.maxCutoffRadius ≤ c.neighbors.length
  far : ∀ (k : ℕ), k < (A i).neighbors.length →
    c.getStoredMinNumNeighbors M.maxCutoffRadius ≤ k →
    ∀ y, pairForce y (P.functions (s.elementOf i)) (A i) k = 0
  bare : c.bareNeighbors = (A i).bareNeighbors
  elements : ∀ nb ∈ c.neighbors, nb.element < n
  dEdG : ∀ m < (P.functions (s.elementOf i)).length, c.dEdG[m]? = some (x i m)
  self : c.dGdr = (P.functions (s.elementOf i)).map fun S => (S.total true (A i)).2.1
  neighbor : ∀ (k : ℕ) nb, c.neighbors[k]? = some nb →
    k < c.getStoredMinNumNeighbors M.maxCutoffRadius →
    nb.dGdr = neighborGrads (A i) (P.functions (s.elementOf i)) nb.element k
  unique : c.neighborsUnique = (A i).neighborsUnique
  position : (A i).r = s.position i
  list : ListOk s (M.listRadius s) i (A i)

/-- The atoms of a structure before the forces. -/
structure Forceable (M : Mode) (P : Potential) (n : ℕ) (s : Structure) (El : ℕ → ElementData)
    (A : ℕ → Atom) (x : ℕ → ℕ → ℝ) (cs : List Atom) : Prop where
  len : cs.length = s.atoms.length
  atom : ∀ i < s.atoms.length, ∃ c, cs[i]? = some c ∧ AtomForce M P n s El A x i c

/-- The facts about an atom after symmetry functions and networks. -/
theorem AtomState.forceable (hM : M.SetUp P n) {i : ℕ} {b c : Atom}
    (h : AtomState M n s i (El i) (A i) b)
    (hc : c = { b with
      dEdG := c.dEdG
      dChidG := c.dChidG
      chi := c.chi
      charge := c.charge
      energy := c.energy
      dAdrQ := c.dAdrQ
      pEelecpr := c.pEelecpr
      dEelecdQ := c.dEelecdQ })
    (hx : ∀ m < (P.functions (s.elementOf i)).length, c.dEdG[m]? = some (x i m)) :
    AtomForce M P n s El A x i c := by
  have hr := h.done.rest
  have hf : (El i).symmetryFunctions = P.functions (s.elementOf i) := by
    rw [(hM.functions _ _ h.get).1, h.element]
  have hel : b.element = s.elementOf i := by rw [hr]; exact h.element
  have hbare : b.bareNeighbors = (A i).bareNeighbors := h.done.bare
  have hlen := Atom.length_congr hbare
  have hst : c.getStoredMinNumNeighbors M.maxCutoffRadius =
      (A i).getStoredMinNumNeighbors M.maxCutoffRadius := by
    rw [hc]
    show b.getStoredMinNumNeighbors M.maxCutoffRadius = _
    rw [hr]
    rfl
  have hnb : c.neighbors = b.neighbors := by rw [hc]
  refine ⟨?_, hf, ?_, ?_, ?_, ?_, ?_, ?_, hx, ?_, ?_, ?_, h.position, h.list⟩
  · have : c.element = b.element := by rw [hc]
    rw [this, hel, ← h.element]; exact h.get
  · have : c.index = b.index := by rw [hc]
    rw [this, hr]; exact h.index
  · have : c.numSymmetryFunctions = b.numSymmetryFunctions := by rw [hc]
    rw [this, hr, ← hf]
  · rw [hst, hnb, hlen]
    exact h.ready.listR.stored_le
  · intro k hk hle y
    rw [hst] at hle
    unfold pairForce
    refine Finset.sum_eq_zero fun m hm => ?_
    have hm := Finset.mem_range.1 hm
    have hS := List.getElem_mem hm
    unfold totalOf
    rw [List.getElem?_eq_getElem hm]
    simp only
    rw [SymFnc.total_irrelevant _ true _ (List.getElem?_eq_getElem hk), smul_zero]
    rintro ⟨hlt, -⟩
    have h1 := h.ready.le _ (show _ ∈ (El i).symmetryFunctions by rw [hf]; exact hS)
    have h2 := h.ready.listR.stored (A i).neighbors[k] (by
      rw [List.mem_drop_iff_getElem]
      exact ⟨k - (A i).getStoredMinNumNeighbors M.maxCutoffRadius, by omega, by
        congr 1; omega⟩)
    linarith
  · have : c.bareNeighbors = b.bareNeighbors := by
      unfold Atom.bareNeighbors
      rw [hnb]
    rw [this, hbare]
  · intro nb hnb'
    rw [hnb] at hnb'
    have : nb.bare ∈ (A i).bareNeighbors := hbare ▸ List.mem_map_of_mem hnb'
    obtain ⟨nb0, g1, g2⟩ := List.mem_map.1 this
    have g3 := congrArg Neighbor.element g2
    change nb0.element = nb.element at g3
    rw [← g3]; exact h.ready.elements nb0 g1
  · have : c.dGdr = b.dGdr := by rw [hc]
    rw [this, h.done.self rfl, hf]
  · intro k nb hk hlt
    rw [hnb] at hk
    rw [hst] at hlt
    rw [h.done.neighbor rfl k nb hk hlt, hf]
  · have : c.neighborsUnique = b.neighborsUnique := by rw [hc]
    rw [this, hr]

theorem AtomState.force (hM : M.SetUp P n) (hP : P.Fits n) {i : ℕ} {b : Atom}
    (h : AtomState M n s i (El i) (A i) b) :
    AtomForce M P n s El A (inputGrad P s A) i (evaluatedAtom P true b) := by
  refine h.forceable hM rfl fun m hm => ?_
  have hr := h.done.rest
  have hf : (El i).symmetryFunctions = P.functions (s.elementOf i) := by
    rw [(hM.functions _ _ h.get).1, h.element]
  have hel : b.element = s.elementOf i := by rw [hr]; exact h.element
  have hlt : s.elementOf i < n := by
    rw [← h.element, ← hM.count]; exact (List.getElem?_eq_some_iff.1 h.get).1
  obtain ⟨hT, h0, -⟩ := hP _ hlt
  have hdl := h.dEdG_le
  rw [hf] at hdl
  have hG : bufOf b.G = P.input (s.elementOf i) (A i).env := by
    rw [h.done.G, hf, bufOf_map]
  show (listOf b.dEdG.length fun m => if m < (P.shape b.element).n 0 then
      (P.shape b.element).tangent (P.weights b.element) (bufOf b.G) 0 (NetShape.unit m)
        (P.shape b.element).out 0 else bufOf b.dEdG m)[m]? = _
  unfold listOf
  rw [List.getElem?_map, List.getElem?_range (by omega), Option.map_some, hel, hG,
    if_pos (by rw [h0]; exact hm)]
  rfl

theorem ForceState.forceable (hM : M.SetUp P n) (hP : P.Fits n) (h : ForceState M P n s El A cs) :
    Forceable M P n s El A (inputGrad P s A) cs :=
  ⟨h.len, fun i hi => by
    obtain ⟨b, h1, h2⟩ := h.atom i hi
    exact ⟨_, h2, h1.force hM hP⟩⟩

open Classical in
theorem forceOn_eq (hM : M.SetUp P n) (h : Forceable M P n s El A x cs) {i : ℕ}
    (hi : i < s.atoms.length) {c : Atom} (hc : cs[i]? = some c) :
    M.forceOn cs c = some (-selfGradOf P s A x i + ∑ j ∈ Finset.range s.atoms.length,
      if j = i then 0 else forceFrom P s A x i j) := by
  obtain ⟨c', hcb, hF⟩ := h.atom i hi
  rw [hc] at hcb
  obtain rfl := Option.some.inj hcb
  obtain ⟨U, hU, -, hnd, hmem⟩ := hF.list.uniq
  have hself := selfForce_eq (x := x i) hF.num hF.dEdG hF.self
  obtain ⟨hiU, hUnd⟩ := List.nodup_cons.1 hnd
  obtain ⟨imgs, hL⟩ := listOf_of hi hF.position hF.list
  have hUlt : ∀ j ∈ U, j < s.atoms.length := by
    intro j hj
    obtain ⟨-, nb, h1, rfl⟩ := (hmem j).1 hj
    obtain ⟨k, hk, rfl⟩ := List.getElem_of_mem h1
    have hk' : k < imgs.length := by rw [← hL.2.2.1]; exact hk
    obtain ⟨q, -⟩ := hL.2.2.2 k _ _ (List.getElem?_eq_getElem hk) (List.getElem?_eq_getElem hk')
    rw [q]
    exact ((hL.2.1 _).1 (List.getElem_mem hk')).1.1
  unfold Mode.forceOn
  rw [hself]
  show (match c.neighborsUnique with
    | [] => none
    | _ :: rest => rest.foldlM (fun f j => do
        let aj ← cs[j]?
        M.addPairForces c.index f aj)
      (0 + -selfGrad (x i) (P.functions (s.elementOf i)) (A i))) = _
  rw [hF.unique, hU, hF.index]
  simp only
  rw [foldlM_sum (h := fun j => forceFrom P s A x i j)]
  · rw [zero_add]
    congr 2
    rw [← List.sum_toFinset _ hUnd]
    have hsub : U.toFinset ⊆ Finset.range s.atoms.length := by
      intro j hj
      exact Finset.mem_range.2 (hUlt j (List.mem_toFinset.1 hj))
    rw [← Finset.sum_subset hsub (f := fun j => if j = i then 0 else forceFrom P s A x i j)]
    · refine Finset.sum_congr rfl fun j hj => ?_
      rw [if_neg]
      rintro rfl
      exact hiU (List.mem_toFinset.1 hj)
    · intro j hj hjU
      have hj := Finset.mem_range.1 hj
      by_cases e : j = i
      · rw [if_pos e]
      · rw [if_neg e]
        unfold forceFrom
        refine Finset.sum_eq_zero fun k hk => ?_
        have hk := Finset.mem_range.1 hk
        rw [if_neg]
        intro hki
        apply hjU
        rw [List.mem_toFinset, hmem]
        refine ⟨e, ?_⟩
        obtain ⟨cj, -, hFj⟩ := h.atom j hj
        obtain ⟨imgs', hL'⟩ := listOf_of hj hFj.position hFj.list
        have hk' : k < imgs'.length := by rw [← hL'.2.2.1]; exact hk
        obtain ⟨q, -⟩ := hL'.2.2.2 k _ _ (List.getElem?_eq_getElem hk)
          (List.getElem?_eq_getElem hk')
        have hq : imgs'[k].1 = i := by
          unfold nbIndex at hki
          rw [List.getElem?_eq_getElem hk] at hki
          exact q.symm.trans hki
        have him := (hL'.2.1 imgs'[k]).1 (List.getElem_mem hk')
        rw [← isImage_iff s _ hj] at him
        have him2 : IsImage s (M.listRadius s) j (i, imgs'[k].2) := by rw [← hq]; exact him
        have him3 := (hL.2.1 _).2 ((isImage_iff s _ hi _).1 (isImage_symm him2))
        obtain ⟨l, hl, hl2⟩ := List.getElem_of_mem him3
        have hl' : l < (A i).neighbors.length := by rw [hL.2.2.1]; exact hl
        obtain ⟨q', -⟩ := hL.2.2.2 l _ _ (List.getElem?_eq_getElem hl')
          (List.getElem?_eq_getElem hl)
        exact ⟨_, List.getElem_mem hl', by rw [q', hl2]⟩
  · intro j hj f
    have hjl := hUlt j hj
    obtain ⟨cj, hcj, hFj⟩ := h.atom j hjl
    rw [hcj]
    show M.addPairForces i f cj = _
    rw [addPairForces_eq (x := x j) hFj.get (hM.ok hFj.get) hFj.stored
      (by rw [hFj.functions]; exact fun k hk hle => hFj.far k hk hle _) hFj.bare
      hFj.elements (by rw [hFj.functions]; exact hFj.dEdG)
      (by rw [hFj.functions]; exact hFj.neighbor), hFj.functions]
    rfl

end N2P2
