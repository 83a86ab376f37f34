import Verif.Lemma.Reading
import Verif.Lemma.Units
import Verif.Lemma.Mode4GList
import Verif.Lemma.ModeEval

/-! Structures with the same arrangement, and what the evaluation leaves alone. -/

namespace N2P2

/-! ### The same arrangement -/

/-- Same atoms at the same places. -/
structure SameSystem (s t : Structure) : Prop where
  periodic : t.isPeriodic = s.isPeriodic
  box : t.box = s.box
  length : t.atoms.length = s.atoms.length
  position : t.position = s.position
  element : t.elementOf = s.elementOf

namespace SameSystem

variable {s t : Structure} {P : Potential} {R E : ℝ}

theorem symm (h : SameSystem s t) : SameSystem t s :=
  ⟨h.periodic.symm, h.box.symm, h.length.symm, h.position.symm, h.element.symm⟩

theorem isPartner (h : SameSystem s t) : t.IsPartner = s.IsPartner := by
  unfold Structure.IsPartner
  rw [h.length, h.periodic]

theorem separation (h : SameSystem s t) : t.separation = s.separation := by
  unfold Structure.separation
  rw [h.position, h.box]

theorem isEnergy (h : SameSystem s t) : IsEnergy P R t E ↔ IsEnergy P R s E := by
  unfold IsEnergy IsEnv
  rw [h.isPartner, h.separation, h.element, h.length]

theorem isBall (h : SameSystem s t) : IsBall t R = IsBall s R := by
  unfold IsBall
  rw [h.isPartner, h.separation, h.element]

theorem apart (h : SameSystem s t) : t.Apart ↔ s.Apart := by
  unfold Structure.Apart
  rw [h.isPartner, h.separation, h.length]

theorem triplets (h : SameSystem s t) : P.TripletsOK R t ↔ P.TripletsOK R s := by
  unfold Potential.TripletsOK
  rw [h.isBall, h.element, h.length]

theorem smooth (h : SameSystem s t) : P.Smooth R t ↔ P.Smooth R s := by
  unfold Potential.Smooth
  rw [h.isBall, h.element, h.length]

theorem noOwnImages (h : SameSystem s t) : P.NoOwnImages t ↔ P.NoOwnImages s := by
  unfold Potential.NoOwnImages
  rw [h.isPartner, h.separation, h.element, h.length]

theorem within (h : SameSystem s t) : P.Within R t ↔ P.Within R s := by
  unfold Potential.Within
  rw [h.element, h.length]

/-- From the atoms. -/
theorem of_atoms (hp : t.isPeriodic = s.isPeriodic) (hb : t.box = s.box)
    (hl : t.atoms.length = s.atoms.length)
    (ha : ∀ (i : ℕ) a, s.atoms[i]? = some a → ∃ b, t.atoms[i]? = some b ∧ b.r = a.r ∧
      b.element = a.element) : SameSystem s t := by
  refine ⟨hp, hb, hl, ?_, ?_⟩
  · funext i
    unfold Structure.position
    cases h : s.atoms[i]? with
    | none =>
      have : t.atoms[i]? = none := by
        rw [List.getElem?_eq_none_iff] at h ⊢
        omega
      rw [this]
    | some a =>
      obtain ⟨b, h1, h2, -⟩ := ha i a h
      rw [h1]
      exact h2
  · funext i
    unfold Structure.elementOf
    cases h : s.atoms[i]? with
    | none =>
      have : t.atoms[i]? = none := by
        rw [List.getElem?_eq_none_iff] at h ⊢
        omega
      rw [this]
    | some a =>
      obtain ⟨b, h1, -, h2⟩ := ha i a h
      rw [h1]
      exact h2

theorem move (h : SameSystem s t) (pos : ℕ → Vec3) : SameSystem (s.move pos) (t.move pos) := by
  refine of_atoms h.periodic h.box (by simp [Structure.move, h.length]) fun i a ha => ?_
  simp only [Structure.move, List.getElem?_mapIdx] at ha ⊢
  obtain ⟨a0, g1, rfl⟩ := Option.map_eq_some_iff.1 ha
  have hi : i < t.atoms.length := by
    rw [h.length]
    exact (List.getElem?_eq_some_iff.1 g1).1
  refine ⟨{ t.atoms[i] with r := pos i }, by rw [List.getElem?_eq_getElem hi]; rfl, rfl, ?_⟩
  have := congrFun h.element i
  unfold Structure.elementOf at this
  rw [g1, List.getElem?_eq_getElem hi] at this
  exact this

end SameSystem

/-! ### Scaled structures -/

theorem scaled_length (c : ℝ) (s : Structure) : (s.scaled c).atoms.length = s.atoms.length := by
  simp [Structure.scaled]

theorem scaled_position (c : ℝ) (s : Structure) (i : ℕ) :
    (s.scaled c).position i = c • s.position i := by
  unfold Structure.position Structure.scaled
  rw [List.getElem?_map]
  cases s.atoms[i]? <;> simp

theorem scaled_element (c : ℝ) (s : Structure) (i : ℕ) :
    (s.scaled c).elementOf i = s.elementOf i := by
  unfold Structure.elementOf Structure.scaled
  rw [List.getElem?_map]
  cases s.atoms[i]? <;> simp

theorem shift_smul (c : ℝ) (box : Fin 3 → Vec3) (n : Fin 3 → ℤ) :
    shift (fun k => c • box k) n = c • shift box n := by
  unfold shift
  rw [Finset.smul_sum]
  exact Finset.sum_congr rfl fun k _ => smul_comm _ _ _

theorem scaled_separation {c : ℝ} {s : Structure} {i : ℕ} {p : ℕ × (Fin 3 → ℤ)}
    (h : s.IsPartner i p) : (s.scaled c).separation i p = c • s.separation i p := by
  unfold Structure.separation
  rw [scaled_position, scaled_position]
  have : shift (s.scaled c).box p.2 = c • shift s.box p.2 := by
    unfold Structure.scaled
    dsimp only
    by_cases hp : s.isPeriodic = true
    · rw [if_pos hp, shift_smul]
    · obtain h0 | h0 := h.2.1
      · exact absurd h0 hp
      · rw [h0, shift_zero, shift_zero, smul_zero]
  rw [this, smul_add, smul_sub]

theorem scaled_partner (c : ℝ) (s : Structure) (i : ℕ) (p : ℕ × (Fin 3 → ℤ)) :
    (s.scaled c).IsPartner i p ↔ s.IsPartner i p := by
  unfold Structure.IsPartner
  rw [scaled_length]
  rfl

theorem scaled_apart {c : ℝ} (hc : c ≠ 0) {s : Structure} (h : s.Apart) : (s.scaled c).Apart := by
  intro i hi p hp
  rw [scaled_length] at hi
  have hp := (scaled_partner c s i p).1 hp
  rw [scaled_separation hp]
  exact smul_ne_zero hc (h i hi p hp)

theorem scaled_move (c : ℝ) (s : Structure) (pos : ℕ → Vec3) :
    (s.move pos).scaled c = (s.scaled c).move fun i => c • pos i := by
  have h : (List.map (fun a : Atom => { a with r := c • a.r })
      (s.atoms.mapIdx fun i a => { a with r := pos i })) =
      (s.atoms.map fun a : Atom => { a with r := c • a.r }).mapIdx
        fun i a => { a with r := c • pos i } := by
    apply List.ext_getElem?
    intro i
    simp only [List.getElem?_map, List.getElem?_mapIdx]
    cases s.atoms[i]? <;> rfl
  unfold Structure.scaled Structure.move
  dsimp only
  rw [h]

theorem cartesian_smul (c : ℝ) (box : Fin 3 → Vec3) (f : Fin 3 → ℝ) :
    cartesian (fun k => c • box k) f = c • cartesian box f := by
  unfold cartesian
  rw [Finset.smul_sum]
  exact Finset.sum_congr rfl fun k _ => smul_comm _ _ _

theorem nonSingular_smul {c : ℝ} (hc : c ≠ 0) {box : Fin 3 → Vec3} (h : NonSingular box) :
    NonSingular fun k => c • box k := by
  unfold NonSingular at h ⊢
  have : Matrix.of (fun k => c • box k) = c • Matrix.of box := rfl
  rw [this, Matrix.det_smul]
  exact mul_ne_zero (pow_ne_zero _ hc) h

theorem scaled_boxed {c : ℝ} (hc : c ≠ 0) {s : Structure} (h : Boxed s) : Boxed (s.scaled c) := by
  intro hp
  have hp : s.isPeriodic = true := hp
  obtain ⟨h1, h2⟩ := h hp
  have hb : (s.scaled c).box = fun k => c • s.box k := if_pos hp
  rw [hb]
  refine ⟨nonSingular_smul hc h1, fun a ha => ?_⟩
  obtain ⟨a0, ha0, rfl⟩ := List.mem_map.1 ha
  obtain ⟨f, g1, g2⟩ := h2 a0 ha0
  exact ⟨f, g1, by rw [cartesian_smul, ← g2]⟩

/-! ### What the evaluation leaves alone -/

variable {M M' : Mode} {P : Potential} {n : ℕ} {s s' : Structure}

theorem mapM_getElem? {α β : Type} {f : α → Option β} {l : List α} {m : List β}
    (h : l.mapM f = some m) {i : ℕ} {b : β} (hb : m[i]? = some b) :
    ∃ a, l[i]? = some a ∧ f a = some b := by
  obtain ⟨h1, h2⟩ := mapM_some h
  have hi : i < l.length := by
    rw [← h1]
    exact (List.getElem?_eq_some_iff.1 hb).1
  obtain ⟨b', g1, g2⟩ := h2 i _ (List.getElem?_eq_getElem hi)
  rw [hb] at g1
  cases g1
  exact ⟨_, List.getElem?_eq_getElem hi, g2⟩

/-- Atom `c` after the evaluation of the atom `a`. -/
structure AtomKept (a c : Atom) : Prop where
  r : c.r = a.r
  element : c.element = a.element
  fRef : c.fRef = a.fRef
  index : c.index = a.index
  tag : c.tag = a.tag
  allocated : c.derivativesAllocated = true

theorem evaluate_kept {srt : List Neighbor → List Neighbor} (hsrt : IsSort srt)
    (hM : M.SetUp P n) (hP : P.Fits n) (hn : 0 < n) (hs : s.Evaluable M P n) (d : Bool)
    (he : M.evaluateNNP srt s true d = some (M', s')) :
    s'.isPeriodic = s.isPeriodic ∧ s'.box = s.box ∧ s'.numAtoms = s.numAtoms ∧
      s'.numAtomsPerElement = s.numAtomsPerElement ∧ s'.energyRef = s.energyRef ∧
      s'.energyElec = s.energyElec ∧ s'.maxCutoffRadiusOverall = s.maxCutoffRadiusOverall ∧
      s'.atoms.length = s.atoms.length ∧
      ∀ (i : ℕ) a, s.atoms[i]? = some a → ∃ c, s'.atoms[i]? = some c ∧ AtomKept a c := by
  obtain ⟨s1, g1, -, g3, g4, g5, g6⟩ := neighborList_eq hsrt hM hs.new hs.apart hs.triplets
  obtain ⟨s1', s2, els, h1, h2, -, h4, -, -, h7, -, -⟩ :=
    evaluate_energy hsrt hM hP hn hs.new hs.apart hs.triplets (true || d)
  rw [g1] at h1
  cases h1
  obtain ⟨a1, a2⟩ := calculateNeighborList_around g1
  have h2' := h2
  unfold Mode.calculateSymmetryFunctions at h2
  rw [g3, g4, if_neg (by simp), if_neg (by simp)] at h2
  obtain ⟨bs, m1, m2⟩ := Option.bind_eq_some_iff.1 h2
  have m2 := Option.some.inj m2
  unfold Mode.evaluateNNP at he
  obtain ⟨t1, e1, he⟩ := Option.bind_eq_some_iff.1 he
  rw [g1] at e1
  cases e1
  obtain ⟨t2, e2, he⟩ := Option.bind_eq_some_iff.1 he
  rw [h2'] at e2
  cases e2
  obtain ⟨r, e3, he⟩ := Option.bind_eq_some_iff.1 he
  rw [h4] at e3
  cases e3
  dsimp only at he
  rw [if_pos rfl] at he
  obtain ⟨t3, e4, he⟩ := Option.bind_eq_some_iff.1 he
  cases he
  unfold Mode.calculateForces at e4
  obtain ⟨cs, m3, e5⟩ := Option.bind_eq_some_iff.1 e4
  cases e5
  have hat : s2.atoms = bs := by rw [← m2]
  have har : s2.around = { s.around with
      hasSymmetryFunctions := true
      hasSymmetryFunctionDerivatives := true } := by
    rw [← a2, ← m2]
    rfl
  obtain ⟨hl3, hm3⟩ := mapM_some m3
  have hlen : cs.length = s.atoms.length := by
    rw [hl3, ← h7]
    simp [Structure.calculateEnergy]
  have b1 : s2.isPeriodic = s.isPeriodic := (congrArg Structure.isPeriodic har :)
  have b2 : s2.box = s.box := (congrArg Structure.box har :)
  have b3 : s2.numAtoms = s.numAtoms := (congrArg Structure.numAtoms har :)
  have b4 : s2.numAtomsPerElement = s.numAtomsPerElement :=
    (congrArg Structure.numAtomsPerElement har :)
  have b5 : s2.energyRef = s.energyRef := (congrArg Structure.energyRef har :)
  have b6 : s2.energyElec = s.energyElec := (congrArg Structure.energyElec har :)
  have b7 : s2.maxCutoffRadiusOverall = s.maxCutoffRadiusOverall :=
    (congrArg Structure.maxCutoffRadiusOverall har :)
  refine ⟨b1, b2, b3, b4, b5, b6, b7, hlen, ?_⟩
  intro i a ha
  have hi : i < s.atoms.length := (List.getElem?_eq_some_iff.1 ha).1
  obtain ⟨e, b, k1, k2⟩ := g6 i hi
  have hb : b.besides = a.besides := by
    have := congrArg (fun l => l[i]?) a1
    simpa [k1, ha] using this
  obtain ⟨b', q1, q2⟩ := calculateAtom_eq k2.get (hM.ok k2.get) hn (hM.functions _ e k2.get).2
    k2.ready true k2.flags.1 k2.flags.2
  obtain ⟨b'', p1, p2⟩ := (mapM_some m1).2 i b k1
  rw [q1] at p2
  cases p2
  obtain ⟨c, c1, c2⟩ := hm3 i (evaluatedAtom P (true || d) b') (by
    show (s2.atoms.map _)[i]? = _
    rw [List.getElem?_map, hat, p1]
    rfl)
  obtain ⟨f, -, rfl⟩ := Option.map_eq_some_iff.1 c2
  have hrest := q2.rest
  have hlen1 : b'.dEdG.length = e.symmetryFunctions.length := by
    rw [q2.dEdG rfl, k2.charge]
    rfl
  have hlen2 : b'.dGdr.length = e.symmetryFunctions.length := by
    rw [q2.self rfl, List.length_map]
  have hnum : b'.numSymmetryFunctions = e.symmetryFunctions.length :=
    congrArg Atom.numSymmetryFunctions hrest
  have hch : b'.useChargeNeuron = false := (congrArg Atom.useChargeNeuron hrest).trans k2.charge
  refine ⟨_, c1, (congrArg Atom.r hrest).trans (congrArg Atom.r hb :),
    (congrArg Atom.element hrest).trans (congrArg Atom.element hb :),
    (congrArg Atom.fRef hrest).trans (congrArg Atom.fRef hb :),
    (congrArg Atom.index hrest).trans (congrArg Atom.index hb :),
    (congrArg Atom.tag hrest).trans (congrArg Atom.tag hb :), ?_⟩
  have key : (evaluatedAtom P (true || d) b').dEdG.length = b'.dEdG.length := by
    simp [evaluatedAtom, evaluated, listOf]
  show (!_ || (decide (b'.numSymmetryFunctions + (if b'.useChargeNeuron then 1 else 0) ≤
    (evaluatedAtom P (true || d) b').dEdG.length) &&
      decide (b'.numSymmetryFunctions ≤ b'.dGdr.length))) = true
  rw [key, hlen1, hlen2, hnum, hch]
  simp

/-! ### Units -/

/-- Atom `b` is atom `a` with the length unit changed. -/
structure AtomScaled (c g : ℝ) (a b : Atom) : Prop where
  r : b.r = c • a.r
  f : b.f = g • a.f
  fRef : b.fRef = g • a.fRef
  element : b.element = a.element
  index : b.index = a.index
  tag : b.tag = a.tag

theorem toNormalized_spec (p : Prediction) (hs : ReadDone n s) :
    ∃ t, p.toNormalized s = some t ∧ t.isPeriodic = s.isPeriodic ∧
      t.box = (s.scaled p.lengthUnit).box ∧ t.numAtoms = s.numAtoms ∧
      t.numAtomsPerElement = s.numAtomsPerElement ∧ t.numElements = s.numElements ∧
      t.energyRef = (s.energyRef - s.numAtoms * p.meanEnergy) * p.energyUnit ∧
      t.energyElec = s.energyElec ∧ t.maxCutoffRadiusOverall = s.maxCutoffRadiusOverall ∧
      t.hasSymmetryFunctions = s.hasSymmetryFunctions ∧
      t.hasSymmetryFunctionDerivatives = s.hasSymmetryFunctionDerivatives ∧
      t.atoms.length = s.atoms.length ∧
      ∀ (i : ℕ) a, s.atoms[i]? = some a → ∃ b, t.atoms[i]? = some b ∧
        AtomScaled p.lengthUnit (p.energyUnit / p.lengthUnit) a b ∧ AtomRead n i b := by
  unfold Prediction.toNormalized Prediction.lengthUnit Prediction.energyUnit Prediction.meanEnergy
  by_cases hN : p.normalize = true
  · simp only [if_pos hN]
    unfold Structure.toNormalizedUnits
    have hex : ∀ a ∈ s.atoms, ∃ b : Atom, a.toNormalizedUnits p.units.convEnergy p.units.convLength
        p.units.convCharge = some b ∧
        AtomScaled p.units.convLength (p.units.convEnergy / p.units.convLength) a b ∧
        ∀ i, AtomRead n i a → AtomRead n i b := by
      intro a ha
      obtain ⟨i, hi, rfl⟩ := List.getElem_of_mem ha
      have hr := hs.atom i _ (List.getElem?_eq_getElem hi)
      obtain ⟨f1, f2, f3, f4⟩ := hr.flags
      unfold Atom.toNormalizedUnits
      rw [if_pos (by unfold Atom.derivativesAllocated; rw [f3]; rfl)]
      refine ⟨_, rfl, ⟨rfl, rfl, rfl, rfl, rfl, rfl⟩, fun j hj => ?_⟩
      obtain ⟨u1, u2, u3, u4, u5, u6⟩ := hj.fresh
      refine ⟨⟨?_, u2, u3, u4, u5, u6⟩, hj.element, hj.index, hj.flags⟩
      dsimp only
      rw [f4]
      exact u1
    obtain ⟨m, hm⟩ := mapM_exists (fun a ha => (hex a ha).imp fun b hb => hb.1)
    obtain ⟨h1, h2⟩ := mapM_some hm
    rw [hm]
    refine ⟨_, rfl, rfl, rfl, rfl, rfl, rfl, rfl, rfl, rfl, rfl, rfl, h1, fun i a ha => ?_⟩
    obtain ⟨b, g1, g2⟩ := h2 i a ha
    obtain ⟨b', k1, k2, k3⟩ := hex a (List.mem_of_getElem? ha)
    rw [g2] at k1
    cases k1
    exact ⟨b, g1, k2, k3 i (hs.atom i a ha)⟩
  · simp only [if_neg hN]
    refine ⟨s, rfl, rfl, ?_, rfl, rfl, rfl, by ring, rfl, rfl, rfl, rfl, rfl, fun i a ha =>
      ⟨a, ha, ⟨(one_smul _ _).symm, by simp, by simp, rfl, rfl, rfl⟩, hs.atom i a ha⟩⟩
    simp [Structure.scaled]

theorem toPhysical_spec (p : Prediction)
    (hs : ∀ a ∈ s.atoms, a.derivativesAllocated = true) :
    ∃ t, p.toPhysical s = some t ∧ t.isPeriodic = s.isPeriodic ∧
      t.box = (s.scaled p.lengthUnit⁻¹).box ∧ t.numAtoms = s.numAtoms ∧
      t.numAtomsPerElement = s.numAtomsPerElement ∧
      t.energyRef = s.energyRef / p.energyUnit + s.numAtoms * p.meanEnergy ∧
      t.energy = s.energy / p.energyUnit + s.numAtoms * p.meanEnergy ∧
      t.energyElec = s.energyElec ∧ t.maxCutoffRadiusOverall = s.maxCutoffRadiusOverall ∧
      t.atoms.length = s.atoms.length ∧
      ∀ (i : ℕ) a, s.atoms[i]? = some a → ∃ b, t.atoms[i]? = some b ∧
        AtomScaled p.lengthUnit⁻¹ (p.lengthUnit / p.energyUnit) a b := by
  unfold Prediction.toPhysical Prediction.lengthUnit Prediction.energyUnit Prediction.meanEnergy
  by_cases hN : p.normalize = true
  · simp only [if_pos hN]
    unfold Structure.toPhysicalUnits
    have hex : ∀ a ∈ s.atoms, ∃ b : Atom, a.toPhysicalUnits p.units.convEnergy p.units.convLength
        p.units.convCharge = some b ∧
        AtomScaled p.units.convLength⁻¹ (p.units.convLength / p.units.convEnergy) a b := by
      intro a ha
      unfold Atom.toPhysicalUnits
      rw [if_pos (hs a ha)]
      refine ⟨_, rfl, ⟨?_, ?_, ?_, rfl, rfl, rfl⟩⟩
      · simp [Vec3.div]
      · simp [Vec3.div]
      · simp [Vec3.div]
    obtain ⟨m, hm⟩ := mapM_exists (fun a ha => (hex a ha).imp fun b hb => hb.1)
    obtain ⟨h1, h2⟩ := mapM_some hm
    rw [hm]
    refine ⟨_, rfl, rfl, ?_, rfl, rfl, rfl, rfl, rfl, rfl, h1, fun i a ha => ?_⟩
    · simp [Structure.scaled, Vec3.div]
    obtain ⟨b, g1, g2⟩ := h2 i a ha
    obtain ⟨b', k1, k2⟩ := hex a (List.mem_of_getElem? ha)
    rw [g2] at k1
    cases k1
    exact ⟨b, g1, k2⟩
  · simp only [if_neg hN]
    refine ⟨s, rfl, rfl, ?_, rfl, rfl, by ring, by ring, rfl, rfl, rfl, fun i a ha =>
      ⟨a, ha, ⟨by simp, by simp, by simp, rfl, rfl, rfl⟩⟩⟩
    simp [Structure.scaled]

end N2P2
