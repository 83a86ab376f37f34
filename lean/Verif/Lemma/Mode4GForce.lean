import Verif.Lemma.Mode4GEnergy
import Verif.Lemma.ModeDeriv

/-! Forces of a potential of the fourth generation as sums. -/

namespace N2P2

/-! ### Derivatives of the electronegativities -/

/-- The atom with the derivatives of its electronegativity in place of those of its energy. -/
def Atom.chiAsE (a : Atom) : Atom := { a with dEdG := a.dChidG }

theorem foldlM_neg {α : Type} (l : List α) {g h : Vec3 → α → Option Vec3}
    (hg : ∀ k u w, g u k = (h w k).map fun z => u + w - z) (u w : Vec3) :
    l.foldlM g u = (l.foldlM h w).map fun z => u + w - z := by
  induction l generalizing u w with
  | nil => simp
  | cons k l ih =>
    rw [List.foldlM_cons, List.foldlM_cons, hg k u w]
    cases h w k with
    | none => rfl
    | some z =>
      show List.foldlM g (u + w - z) l = (List.foldlM h z l).map _
      rw [ih (u + w - z) z]
      congr 1
      funext z'
      abel

theorem addDChidr_eq (c : Atom) (tables : List (List ℕ)) (d : Vec3) (nb : Neighbor) :
    c.addDChidr tables d nb = (c.chiAsE.calculatePairForceShort nb tables).map fun z => d - z := by
  unfold Atom.addDChidr Atom.calculatePairForceShort
  cases tables[nb.element]? with
  | none => rfl
  | some table =>
    show List.foldlM _ d _ = Option.map _ (List.foldlM _ 0 _)
    rw [foldlM_neg _ (fun k u w => ?_) d 0, add_zero]
    show (do
      let t ← table[k]?
      let x ← c.dChidG[t]?
      let g ← nb.dGdr[k]?
      some (u + x • g)) = Option.map _ (do
      let t ← table[k]?
      let x ← c.dChidG[t]?
      let g ← nb.dGdr[k]?
      some (w - x • g))
    cases table[k]? with
    | none => rfl
    | some t =>
      show (do
        let x ← c.dChidG[t]?
        let g ← nb.dGdr[k]?
        some (u + x • g)) = Option.map _ (do
        let x ← c.dChidG[t]?
        let g ← nb.dGdr[k]?
        some (w - x • g))
      cases c.dChidG[t]? with
      | none => rfl
      | some x =>
        cases nb.dGdr[k]? with
        | none => rfl
        | some g =>
          show some _ = some _
          congr 1
          show u + x • g = u + w - (w - x • g)
          abel

theorem ownDChidr_eq (c : Atom) (i : ℕ) : c.ownDChidr i = if i = c.index then
    (c.chiAsE.calculateSelfForceShort).map fun z => -z else some 0 := by
  unfold Atom.ownDChidr Atom.calculateSelfForceShort
  by_cases hi : i = c.index
  · rw [if_pos hi, if_pos hi, foldlM_neg _ (fun k u w => ?_) 0 0]
    · congr 1
      funext z
      abel
    · show (do
        let x ← c.dChidG[k]?
        let g ← c.dGdr[k]?
        some (u + x • g)) = Option.map _ (do
        let x ← c.dChidG[k]?
        let g ← c.dGdr[k]?
        some (w - x • g))
      cases c.dChidG[k]? with
      | none => rfl
      | some x =>
        cases c.dGdr[k]? with
        | none => rfl
        | some g =>
          show some _ = some _
          congr 1
          show u + x • g = u + w - (w - x • g)
          abel
  · rw [if_neg hi, if_neg hi]

/-- Derivative of a function of the symmetry functions of atom `j`, with gradients `x`, with respect to
the position of atom `i`. -/
noncomputable def gradFrom (P : Potential) (s : Structure) (A : ℕ → Atom) (x : ℕ → ℕ → ℝ)
    (i j : ℕ) : Vec3 :=
  (if i = j then selfGradOf P s A x j else 0) - forceFrom P s A x i j

theorem gradFrom_sum {P : Potential} {s : Structure} {A : ℕ → Atom} {x : ℕ → ℕ → ℝ} {v : ℕ → Vec3}
    {j : ℕ} {R : ℝ} {imgs} (hj : j < s.atoms.length) (hL : ListOf s R j (A j) imgs) :
    ∑ i ∈ Finset.range s.atoms.length, (gradFrom P s A x i j).dot (v i) =
      (selfGradOf P s A x j).dot (v j) - ∑ k ∈ Finset.range (A j).neighbors.length,
        (pairForceOf P s A x j k).dot (v (nbIndex (A j) k)) := by
  rw [pair_swap hL]
  unfold gradFrom
  have : ∀ i, ((if i = j then selfGradOf P s A x j else 0) - forceFrom P s A x i j).dot (v i) =
      (if i = j then (selfGradOf P s A x j).dot (v j) else 0) -
        (forceFrom P s A x i j).dot (v i) := by
    intro i
    by_cases h : i = j
    · rw [if_pos h, if_pos h, h, sub_dot]
    · rw [if_neg h, if_neg h, sub_dot, zero_dot]
  rw [Finset.sum_congr rfl fun i _ => this i, Finset.sum_sub_distrib, Finset.sum_ite_eq',
    if_pos (Finset.mem_range.2 hj)]

variable {M : Mode} {P : Potential} {n : ℕ} {s : Structure} {El : ℕ → ElementData} {A : ℕ → Atom}
  {x : ℕ → ℕ → ℝ}

theorem dChidr_eq (hM : M.SetUp P n) {c : Atom} {j : ℕ}
    (hF : AtomForce M P n s El A x j c.chiAsE) (i : ℕ) :
    c.calculateDChidr i M.maxCutoffRadius (El j).symmetryFunctionTable =
      some (gradFrom P s A x i j) := by
  classical
  have hok := hM.ok hF.get
  have hself := selfForce_eq (x := x j) hF.num hF.dEdG hF.self
  have hown : c.ownDChidr i = some (if i = j then selfGradOf P s A x j else 0) := by
    rw [ownDChidr_eq, hself]
    have : c.index = j := hF.index
    rw [this]
    by_cases h : i = j
    · rw [if_pos h, if_pos h, Option.map_some, neg_neg]
      rfl
    · rw [if_neg h, if_neg h]
  obtain ⟨imgs, h1, h2, h3⟩ := hF.list.imgs
  have hget := bare_get hF.bare
  have hlen : c.neighbors.length = (A j).neighbors.length := Atom.length_congr hF.bare
  unfold Atom.calculateDChidr
  rw [hown]
  show (if c.neighbors.length < c.getStoredMinNumNeighbors M.maxCutoffRadius then none else _) = _
  have hst : c.getStoredMinNumNeighbors M.maxCutoffRadius ≤ c.neighbors.length := hF.stored
  have hfar := hF.far
  have hnb := hF.neighbor
  change ∀ (k : ℕ), k < (A j).neighbors.length →
    c.getStoredMinNumNeighbors M.maxCutoffRadius ≤ k →
    ∀ y, pairForce y (P.functions (s.elementOf j)) (A j) k = 0 at hfar
  change ∀ (k : ℕ) nb, c.neighbors[k]? = some nb →
    k < c.getStoredMinNumNeighbors M.maxCutoffRadius →
    nb.dGdr = neighborGrads (A j) (P.functions (s.elementOf j)) nb.element k at hnb
  rw [if_neg (not_lt.2 hst)]
  generalize c.getStoredMinNumNeighbors M.maxCutoffRadius = m at hst hfar hnb
  have hsum : forceFrom P s A x i j = ∑ k ∈ Finset.range m,
      if nbIndex (A j) k = i then pairForceOf P s A x j k else 0 := by
    unfold forceFrom
    symm
    refine Finset.sum_subset (fun k hk => ?_) fun k hk hk' => ?_
    · rw [Finset.mem_range] at hk ⊢
      omega
    · rw [Finset.mem_range] at hk hk'
      unfold pairForceOf
      rw [hfar k hk (by omega), ite_self]
  rw [foldlM_take hst, foldlM_sum (h := fun k => if nbIndex (A j) k = i then
    -pairForceOf P s A x j k else 0), sum_range_list]
  · unfold gradFrom
    rw [hsum, sub_eq_add_neg, ← Finset.sum_neg_distrib]
    congr 2
    refine Finset.sum_congr rfl fun k _ => ?_
    split_ifs
    · rfl
    · rw [neg_zero]
  · intro k hk f
    rw [List.mem_range] at hk
    have hck := List.getElem?_eq_getElem (l := c.neighbors) (i := k) (by omega)
    obtain ⟨nb0, g1, g2, g3, g4, -⟩ := hget k _ hck
    rw [hck]
    have hkA : k < (A j).neighbors.length := by omega
    have hki : k < imgs.length := by rw [← h3.length_eq]; exact hkA
    obtain ⟨b, -, q2, q3, -⟩ := (List.forall₂_iff_get.1 h3).2 k hkA hki
    simp only [List.get_eq_getElem] at q2 q3
    have hnb0 : (A j).neighbors[k] = nb0 := by
      rw [List.getElem?_eq_getElem hkA] at g1
      exact Option.some.inj g1
    rw [hnb0] at q2 q3
    have hni : nbIndex (A j) k = nb0.index := by
      unfold nbIndex
      rw [g1]
      rfl
    have htag : c.neighbors[k].tag = (nbIndex (A j) k : ℤ) := by
      rw [← g4, q3, hni, q2]
    simp only [htag]
    by_cases hi : nbIndex (A j) k = i
    · have hp := pairForce_eq (x := x j) hok.index
        (by rw [hF.functions]; exact hF.dEdG) (nb := c.neighbors[k])
        (hF.elements _ (List.getElem_mem _)) (by rw [hF.functions]; exact hnb k _ hck hk) hok.table
        g1 g2
      rw [if_pos (by rw [hi]), if_pos hi, addDChidr_eq, hp, hF.functions]
      show some (f - pairForceOf P s A x j k) = some _
      rw [sub_eq_add_neg]
    · rw [if_neg (by exact_mod_cast hi), if_neg hi, add_zero]

theorem foldlM_add {α β : Type} [AddCommMonoid β] {g : β → α → Option β} {h : α → β} :
    ∀ (l : List α), (∀ x ∈ l, ∀ f, g f x = some (f + h x)) → ∀ f0,
      l.foldlM g f0 = some (f0 + (l.map h).sum)
  | [], _, f0 => by simp
  | x :: l, hl, f0 => by
    rw [List.foldlM_cons, hl x (by simp)]
    show List.foldlM _ _ _ = _
    rw [foldlM_add l fun y hy => hl y (by simp [hy])]
    simp [add_assoc]

/-! ### The atoms after the networks -/

/-- The atom with forces. -/
def Atom.withForces (a : Atom) (f g : Vec3) : Atom :=
  { a with
    f := f
    fElec := g }

theorem AtomForce.withForces {i : ℕ} {c : Atom} (h : AtomForce M P n s El A x i c) (f g : Vec3) :
    AtomForce M P n s El A x i (c.withForces f g) :=
  ⟨h.get, h.functions, h.index, h.num, h.stored, h.far, h.bare, h.elements, h.dEdG, h.self,
    h.neighbor, h.unique, h.position, h.list⟩

/-- Derivative of the short-range energy of atom `i` with respect to input `m` of its network. -/
noncomputable def shortGrad (P : Potential4G) (s : Structure) (A : ℕ → Atom) (Q : ℕ → ℝ) (i m : ℕ) : ℝ :=
  (P.shape (s.elementOf i)).tangent (P.weights (s.elementOf i))
    (P.inputQ (s.elementOf i) (A i).env (Q i)) 0 (NetShape.unit m) (P.shape (s.elementOf i)).out 0

/-- Derivative of the electronegativity of atom `i` with respect to its symmetry function `m`. -/
noncomputable def chiGrad (P : Potential4G) (s : Structure) (A : ℕ → Atom) (i m : ℕ) : ℝ :=
  P.unit * inputGrad P.chi s A i m

section Run

variable {P : Potential4G} {ls : LinSolve} {conv : ℝ → ℝ} {d : Bool} {M' : Mode4G}
  {s3 s4 t : Structure} {U : Structure → ℕ → ℝ} {V W : Structure → ℕ → ℕ → ℝ} {i : ℕ}
  {a b c : Atom} {e : ElementData}

theorem listOf_getElem? {k m : ℕ} (g : Buf) (h : m < k) : (listOf k g)[m]? = some (g m) := by
  unfold listOf
  rw [List.getElem?_map, List.getElem?_range h]
  rfl

/-- The atom is the one with symmetry functions, up to what networks and equilibration compute. -/
theorem Stage4G.rest_eq {f : Bool} (h : Stage4G P n conv f d s M' s3 s4 t i e a b c) :
    c = { b with
      dEdG := c.dEdG
      dChidG := c.dChidG
      chi := c.chi
      charge := c.charge
      energy := c.energy
      dAdrQ := c.dAdrQ
      pEelecpr := c.pEelecpr
      dEelecdQ := c.dEelecdQ } := by
  have h1 := congrArg (fun x : Atom => ({ x with
      dEdG := c.dEdG
      dChidG := c.dChidG
      chi := c.chi
      charge := c.charge
      energy := c.energy
      dAdrQ := c.dAdrQ
      pEelecpr := c.pEelecpr
      dEelecdQ := c.dEelecdQ } : Atom)) h.rest
  exact h1

theorem Stage4G.short_eq {f : Bool} (h : Stage4G P n conv f d s M' s3 s4 t i e a b c)
    {k : Atom} (hk : k = shortAtom P.toPotential d c ∨ k = (shortAtom P.toPotential d c).chiAsE) :
    k = { b with
      dEdG := k.dEdG
      dChidG := k.dChidG
      chi := k.chi
      charge := k.charge
      energy := k.energy
      dAdrQ := k.dAdrQ
      pEelecpr := k.pEelecpr
      dEelecdQ := k.dEelecdQ } := by
  have h1 := congrArg (fun x : Atom => ({ x with
      dEdG := k.dEdG
      dChidG := k.dChidG
      chi := k.chi
      charge := k.charge
      energy := k.energy
      dAdrQ := k.dAdrQ
      pEelecpr := k.pEelecpr
      dEelecdQ := k.dEelecdQ } : Atom)) h.rest_eq
  rcases hk with rfl | rfl
  · exact h1
  · exact h1

theorem Stage4G.dEdG_length {f : Bool} (h : Stage4G P n conv f d s M' s3 s4 t i e a b c)
    (hd : d = true) : (shortAtom P.toPotential d c).dEdG.length =
      (P.functions (s.elementOf i)).length + 1 := by
  have h1 : c.dEdG = b.dEdG := by have := congrArg Atom.dEdG h.rest; exact this
  show (if d then _ else _ : List ℝ).length = _
  rw [if_pos hd]
  unfold listOf
  rw [List.length_map, List.length_range, h1, h.state.dEdG hd, h.functions]

theorem Stage4G.dEdG {f : Bool} (h : Stage4G P n conv f d s M' s3 s4 t i e a b c) (hd : d = true)
    (hP : P.Fits4G n) {A : ℕ → Atom} (hA : A i = a) {m : ℕ}
    (hm : m < (P.functions (s.elementOf i)).length + 1) :
    (shortAtom P.toPotential d c).dEdG[m]? =
      some (shortGrad P s A (fun i => (s4.atom i).charge) i m) := by
  have h1 : c.dEdG = b.dEdG := by have := congrArg Atom.dEdG h.rest; exact this
  have h2 := (hP.short _ h.lt).2.1
  show (if d then _ else _ : List ℝ)[m]? = _
  rw [if_pos hd, listOf_getElem?]
  · rw [h.element, if_pos (by rw [h2]; exact hm)]
    unfold shortGrad
    dsimp only
    rw [h.inputQ, hA, h.charge]
  · rw [h1, h.state.dEdG hd, h.functions]
    exact hm

theorem Stage4G.dEdG_last {f : Bool} (h : Stage4G P n conv f d s M' s3 s4 t i e a b c) (hd : d = true)
    (hP : P.Fits4G n) {A : ℕ → Atom} (hA : A i = a) :
    (shortAtom P.toPotential d c).dEdG.getLastD 0 =
      shortGrad P s A (fun i => (s4.atom i).charge) i (P.functions (s.elementOf i)).length := by
  have h1 := h.dEdG_length hd
  have h2 := h.dEdG hd hP hA (m := (P.functions (s.elementOf i)).length) (by omega)
  rw [List.getLastD_eq_getLast?, List.getLast?_eq_getElem?, h1, Nat.add_sub_cancel, h2]
  rfl

theorem Stage4G.dChidG {f : Bool} (h : Stage4G P n conv f d s M' s3 s4 t i e a b c) (hd : d = true)
    (hP : P.Fits4G n) (hconv : ∀ x, conv x = P.unit * x) {A : ℕ → Atom} (hA : A i = a) {m : ℕ}
    (hm : m < (P.functions (s.elementOf i)).length) :
    (shortAtom P.toPotential d c).dChidG[m]? = some (chiGrad P s A i m) := by
  have h1 : (shortAtom P.toPotential d c).dChidG = (elecAtom conv P.chi d b).dChidG := by
    have := congrArg Atom.dChidG h.rest; exact this
  have hel : b.element = s.elementOf i := h.state.same.1.trans h.state.element
  have h2 := (hP.chi _ h.lt).2.1
  rw [h1]
  show (if d then _ else _ : List ℝ)[m]? = _
  rw [if_pos hd, List.getElem?_map, listOf_getElem?]
  · rw [hel, if_pos (by rw [h2]; exact hm), Option.map_some, hconv]
    unfold chiGrad inputGrad
    rw [h.input, hA]
    rfl
  · rw [h.state.dChidG hd, h.functions]
    exact hm

theorem Stage4G.force (h : Stage4G P n conv true true s M' s3 s4 t i e a b c)
    (hM : M'.mode.SetUp P.toPotential n) (hP : P.Fits4G n) {El : ℕ → ElementData} {A : ℕ → Atom}
    (hE : El i = e) (hA : A i = a) :
    AtomForce M'.mode P.toPotential n s El A (shortGrad P s A fun i => (s4.atom i).charge) i
      (shortAtom P.toPotential true c) := by
  subst hE
  subst hA
  exact h.state.atomState.forceable hM (h.short_eq (.inl rfl)) fun m hm =>
    h.dEdG rfl hP rfl (by omega)

theorem Stage4G.chiForce (h : Stage4G P n conv true true s M' s3 s4 t i e a b c)
    (hM : M'.mode.SetUp P.toPotential n) (hP : P.Fits4G n) (hconv : ∀ x, conv x = P.unit * x)
    {El : ℕ → ElementData} {A : ℕ → Atom} (hE : El i = e) (hA : A i = a) :
    AtomForce M'.mode P.toPotential n s El A (chiGrad P s A) i
      (shortAtom P.toPotential true c).chiAsE := by
  subst hE
  subst hA
  exact h.state.atomState.forceable hM (h.short_eq (.inr rfl)) fun m hm =>
    h.dChidG rfl hP hconv rfl hm

/-! ### The forces -/

/-- Derivative of the equation of charge equilibration of atom `j` with respect to the position of
atom `i`. -/
noncomputable def equationGrad (P : Potential4G) (s s4 : Structure) (A : ℕ → Atom) (i j : ℕ) : Vec3 :=
  (s4.atom i).dAdrQ.getD j 0 + gradFrom P.toPotential s A (chiGrad P s A) i j

/-- Derivative of the energy with respect to the charge of atom `i`. -/
noncomputable def chargeGrad (P : Potential4G) (s s4 : Structure) (A : ℕ → Atom) (i : ℕ) : ℝ :=
  (s4.atom i).dEelecdQ + shortGrad P s A (fun i => (s4.atom i).charge) i
    (P.functions (s.elementOf i)).length

/-- Adjoint charges for derivatives `g` with respect to the charges. -/
noncomputable def adjoint (ls : LinSolve) (s s4 : Structure) (g : ℕ → ℝ) : ℕ → ℝ :=
  ls.run (s.atoms.length + 1) s4.A fun i => -(if i < s.atoms.length then g i else 0)

theorem dChidrOf_eq {P : Potential} (hM : M.SetUp P n) {El : ℕ → ElementData} {A : ℕ → Atom} {j : ℕ}
    {k : Atom} (hF : AtomForce M P n s El A x j k.chiAsE) {u : Structure} (hu : u.atoms[j]? = some k)
    (i : ℕ) : M.dChidrOf u j i = some (gradFrom P s A x i j) := by
  unfold Mode.dChidrOf
  rw [hu]
  show (do
    let e ← M.elements[k.element]?
    k.calculateDChidr i M.maxCutoffRadius e.symmetryFunctionTable) = _
  rw [show M.elements[k.element]? = some (El j) from hF.get]
  exact dChidr_eq hM (c := k) hF i

/-- Short-range force on atom `i`. -/
noncomputable def shortForce (P : Potential4G) (s s4 : Structure) (A : ℕ → Atom) (i : ℕ) : Vec3 :=
  -selfGradOf P.toPotential s A (shortGrad P s A fun i => (s4.atom i).charge) i +
    ∑ j ∈ Finset.range s.atoms.length, if j = i then 0
      else forceFrom P.toPotential s A (shortGrad P s A fun i => (s4.atom i).charge) i j

/-- Force on atom `i` through the charges, for adjoint charges `l`. -/
noncomputable def chargeForce (P : Potential4G) (s s4 : Structure) (A : ℕ → Atom) (l : ℕ → ℝ) (i : ℕ) :
    Vec3 :=
  -(s4.atom i).pEelecpr - ∑ j ∈ Finset.range s.atoms.length, l j • equationGrad P s s4 A i j

theorem Run4G.numAtoms (run : Run4G ls P n conv true true s M' s3 s4 t U V W) :
    t.numAtoms = s.atoms.length := by
  obtain ⟨buf, buf', h3⟩ := run.qeq
  have h1 := congrArg Structure.numAtoms (chargeEquilibration_noElec h3)
  have h2 : s4.numAtoms = s3.numAtoms := h1
  rw [run.after]
  show s4.numAtoms = _
  rw [h2, run.number, run.alike.count]

theorem Run4G.dAdrQ (run : Run4G ls P n conv true d s M' s3 s4 t U V W) {i : ℕ}
    (hi : i < s.atoms.length) : (s4.atom i).dAdrQ.length = s.atoms.length + 1 := by
  obtain ⟨buf, buf', h3⟩ := run.qeq
  obtain ⟨ri, ro, hfs⟩ := run.setup.screening
  have := (C79_potential_partial run.number run.covers run.field run.screening hfs run.apart run.fresh
    h3).1 i (by rw [run.alike.count]; exact hi)
  rw [this, run.alike.count]

theorem chargeForces_eq {P : Potential4G} (hM : M'.mode.SetUp P.toPotential n) (hP : P.Fits4G n)
    (hconv : ∀ x, conv x = P.unit * x) {El : ℕ → ElementData} {A B C : ℕ → Atom}
    (h : ∀ i < s.atoms.length, Stage4G P n conv true true s M' s3 s4 t i (El i) (A i) (B i) (C i))
    {u : Structure} {F G : ℕ → Vec3} (hu : ∀ i < s.atoms.length, u.atoms[i]? =
      some ((shortAtom P.toPotential true (C i)).withForces (F i) (G i)))
    (hN : u.numAtoms = s.atoms.length) {i : ℕ} (hi : i < s.atoms.length)
    (hQ : (s4.atom i).dAdrQ.length = s.atoms.length + 1) (lT lE : ℕ → ℝ) :
    M'.mode.chargeForces u lT lE ((shortAtom P.toPotential true (C i)).withForces (F i) (G i)) =
      some (F i + chargeForce P s s4 A lT i, chargeForce P s s4 A lE i) := by
  have hc : C i = s4.atom i := (atom_of_get (h i hi).get4).symm
  have hidx : (shortAtom P.toPotential true (C i)).index = i :=
    ((h i hi).force hM hP (El := El) (A := A) rfl rfl).index
  unfold Mode.chargeForces
  rw [foldlM_add (h := fun j => (-(lT j • equationGrad P s s4 A i j),
    -(lE j • equationGrad P s s4 A i j))), sum_range_list, hN]
  · have e1 : ((shortAtom P.toPotential true (C i)).withForces (F i) (G i)).f = F i := rfl
    have e2 : ((shortAtom P.toPotential true (C i)).withForces (F i) (G i)).pEelecpr =
        (s4.atom i).pEelecpr := by rw [← hc]; rfl
    rw [e1, e2]
    congr 1
    refine Prod.ext ?_ ?_
    · rw [Prod.fst_add, Prod.fst_sum, Finset.sum_neg_distrib]
      unfold chargeForce
      dsimp only
      abel
    · rw [Prod.snd_add, Prod.snd_sum, Finset.sum_neg_distrib]
      unfold chargeForce
      dsimp only
      exact (sub_eq_add_neg _ _).symm
  · intro j hj f
    rw [List.mem_range, hN] at hj
    have e1 := dChidrOf_eq hM (k := (shortAtom P.toPotential true (C j)).withForces (F j) (G j))
      (((h j hj).chiForce hM hP hconv (El := El) (A := A) rfl rfl).withForces (F j) (G j)) (hu j hj) i
    have e2 : ((shortAtom P.toPotential true (C i)).withForces (F i) (G i)).dAdrQ[j]? =
        some ((s4.atom i).dAdrQ.getD j 0) := by
      show (C i).dAdrQ[j]? = _
      rw [hc, List.getD_eq_getElem?_getD, List.getElem?_eq_getElem (by omega)]
      rfl
    have e3 : ((shortAtom P.toPotential true (C i)).withForces (F i) (G i)).index = i := hidx
    rw [e3, e1]
    show (do
      let dAdrQ ← ((shortAtom P.toPotential true (C i)).withForces (F i) (G i)).dAdrQ[j]?
      some (f.1 - lT j • (dAdrQ + gradFrom P.toPotential s A (chiGrad P s A) i j),
        f.2 - lE j • (dAdrQ + gradFrom P.toPotential s A (chiGrad P s A) i j))) = _
    rw [e2]
    refine congrArg some (Prod.ext ?_ ?_)
    · exact sub_eq_add_neg _ _
    · exact sub_eq_add_neg _ _

/-- The forces of a potential of the fourth generation. -/
theorem Run4G.forces (run : Run4G ls P n conv true true s M' s3 s4 t U V W) (hP : P.Fits4G n)
    (hconv : ∀ x, conv x = P.unit * x) {El : ℕ → ElementData} {A B C : ℕ → Atom}
    (h : ∀ i < s.atoms.length, Stage4G P n conv true true s M' s3 s4 t i (El i) (A i) (B i) (C i)) :
    ∃ t', M'.mode.calculateForces4G ls t = some t' ∧ t' = t.withAtoms t'.atoms ∧
      t'.atoms.length = s.atoms.length ∧ ∀ i < s.atoms.length, t'.atoms[i]? =
        some ((shortAtom P.toPotential true (C i)).withForces
          (shortForce P s s4 A i + chargeForce P s s4 A
            (adjoint ls s s4 (chargeGrad P s s4 A)) i)
          (chargeForce P s s4 A (adjoint ls s s4 fun i => (s4.atom i).dEelecdQ) i)) := by
  have hM := run.setup.mode
  have hl : t.atoms.length = s.atoms.length := by rw [run.atoms, List.length_map, run.length4]
  have hfor : Forceable M'.mode P.toPotential n s El A
      (shortGrad P s A fun i => (s4.atom i).charge) t.atoms :=
    ⟨hl, fun i hi => ⟨_, (h i hi).get, (h i hi).force hM hP rfl rfl⟩⟩
  have hF : ∀ i < s.atoms.length, M'.mode.forceOn t.atoms (shortAtom P.toPotential true (C i)) =
      some (shortForce P s s4 A i) := fun i hi => forceOn_eq hM hfor hi (h i hi).get
  -- short-range forces
  obtain ⟨m, hm⟩ := mapM_exists (l := t.atoms)
    (f := fun ai => (M'.mode.forceOn t.atoms ai).map fun f => { ai with f := f }) (by
      intro a ha
      obtain ⟨i, hi⟩ := List.mem_iff_getElem?.1 ha
      have hi' : i < s.atoms.length := by
        rw [← hl]; exact (List.getElem?_eq_some_iff.1 hi).1
      rw [(h i hi').get] at hi
      rw [← Option.some.inj hi, hF i hi']
      exact ⟨_, rfl⟩)
  obtain ⟨hm1, hm2⟩ := mapM_some hm
  have hu : ∀ i < s.atoms.length, m[i]? = some ((shortAtom P.toPotential true (C i)).withForces
      (shortForce P s s4 A i) (C i).fElec) := by
    intro i hi
    obtain ⟨b, hb1, hb2⟩ := hm2 i _ (h i hi).get
    rw [hF i hi] at hb2
    rw [hb1, ← hb2]
    rfl
  have h1 : M'.mode.calculateForces t = some (t.withAtoms m) := by
    show Option.bind (t.atoms.mapM fun ai => (M'.mode.forceOn t.atoms ai).map fun f =>
      { ai with f := f }) _ = _
    rw [hm]
    rfl
  have hN : (t.withAtoms m).numAtoms = s.atoms.length := run.numAtoms
  have hml : m.length = s.atoms.length := hm1.trans hl
  have hat : ∀ i < s.atoms.length, (t.withAtoms m).atom i =
      (shortAtom P.toPotential true (C i)).withForces (shortForce P s s4 A i) (C i).fElec :=
    fun i hi => atom_of_get (hu i hi)
  have hA : (t.withAtoms m).A = s4.A := by rw [run.after]; rfl
  -- adjoint charges
  have h2 : (t.withAtoms m).calculateForceLambdaTotal ls =
      some (adjoint ls s s4 (chargeGrad P s s4 A)) := by
    unfold Structure.calculateForceLambdaTotal
    rw [hN, hA, if_neg]
    · congr 1
      unfold adjoint
      congr 1
      funext i
      by_cases hi : i < s.atoms.length
      · rw [if_pos hi, if_pos hi, hat i hi]
        unfold chargeGrad
        rw [← (h i hi).dEdG_last rfl hP rfl, atom_of_get (h i hi).get4]
        rfl
      · rw [if_neg hi, if_neg hi]
    · rintro (h4 | ⟨i, hi, h4⟩)
      · have : (t.withAtoms m).atoms.length = m.length := rfl
        omega
      · rw [hat i hi] at h4
        have h5 := (h i hi).dEdG_length rfl
        have h6 : (shortAtom P.toPotential true (C i)).dEdG = [] := h4
        rw [h6] at h5
        simp at h5
  have h3 : (t.withAtoms m).calculateForceLambdaElec ls =
      some (adjoint ls s s4 fun i => (s4.atom i).dEelecdQ) := by
    unfold Structure.calculateForceLambdaElec
    rw [hN, hA, if_neg]
    · congr 1
      unfold adjoint
      congr 1
      funext i
      by_cases hi : i < s.atoms.length
      · rw [if_pos hi, if_pos hi, hat i hi]
        dsimp only
        rw [atom_of_get (h i hi).get4]
        rfl
      · rw [if_neg hi, if_neg hi]
    · have : (t.withAtoms m).atoms.length = m.length := rfl
      omega
  -- forces through the charges
  have hC := fun i (hi : i < s.atoms.length) => chargeForces_eq hM hP hconv h
    (u := t.withAtoms m) hu hN hi (run.dAdrQ hi) (adjoint ls s s4 (chargeGrad P s s4 A))
    (adjoint ls s s4 fun i => (s4.atom i).dEelecdQ)
  have hz : ∀ (i : ℕ) (p : Atom × ℕ), m.zipIdx[i]? = some p → i < s.atoms.length ∧
      p = ((shortAtom P.toPotential true (C i)).withForces (shortForce P s s4 A i) (C i).fElec, i) := by
    intro i p hp
    rw [List.getElem?_zipIdx] at hp
    obtain ⟨a, ha, rfl⟩ := Option.map_eq_some_iff.1 hp
    have hi : i < s.atoms.length := by rw [← hml]; exact (List.getElem?_eq_some_iff.1 ha).1
    rw [hu i hi] at ha
    rw [Option.some.inj ha, zero_add]
    exact ⟨hi, rfl⟩
  obtain ⟨k, hk⟩ := mapM_exists (l := m.zipIdx)
    (f := fun p : Atom × ℕ => if p.2 < (t.withAtoms m).numAtoms then
      (M'.mode.chargeForces (t.withAtoms m) (adjoint ls s s4 (chargeGrad P s s4 A))
        (adjoint ls s s4 fun i => (s4.atom i).dEelecdQ) p.1).map fun f =>
      ({ p.1 with
        f := f.1
        fElec := f.2 } : Atom)
    else some p.1) (by
      intro p hp
      obtain ⟨i, hi⟩ := List.mem_iff_getElem?.1 hp
      obtain ⟨hi', rfl⟩ := hz i p hi
      rw [hN, if_pos hi', hC i hi']
      exact ⟨_, rfl⟩)
  obtain ⟨hk1, hk2⟩ := mapM_some hk
  refine ⟨t.withAtoms k, ?_, rfl, ?_, fun i hi => ?_⟩
  · unfold Mode.calculateForces4G
    rw [h1]
    show M'.mode.addChargeForces ls (t.withAtoms m) = _
    unfold Mode.addChargeForces
    rw [h2]
    show Option.bind ((t.withAtoms m).calculateForceLambdaElec ls) _ = _
    rw [h3]
    show Option.bind (m.zipIdx.mapM _) _ = _
    rw [hk]
    rfl
  · show k.length = _
    rw [hk1, List.length_zipIdx, hml]
  · have hzi : m.zipIdx[i]? = some ((shortAtom P.toPotential true (C i)).withForces
        (shortForce P s s4 A i) (C i).fElec, i) := by
      rw [List.getElem?_zipIdx, hu i hi, Option.map_some, zero_add]
    obtain ⟨b, hb1, hb2⟩ := hk2 i _ hzi
    dsimp only at hb2
    rw [hN, if_pos hi, hC i hi] at hb2
    show k[i]? = _
    rw [hb1, ← hb2]
    rfl

end Run

end N2P2
