import Verif.Lemma.Prediction
import Verif.Props.StructureFile
import Verif.Props.Units
import Verif.Props.Mode

/-! Property C84 (prediction for a structure in a file). -/

namespace N2P2

variable {srt : List Neighbor → List Neighbor} {N : NumberText} {p : Prediction} {P : Potential}
  {n : ℕ} {u : Structure}

/-- The sum of offsets in terms of atoms. -/
theorem offset_sum (offs : List ℝ) (s : Structure) (k : ℕ) (hk : offs.length = k)
    (hel : ∀ a ∈ s.atoms, a.element < k)
    (hcnt : s.numAtomsPerElement =
      (List.range k).map (fun i => s.atoms.countP (fun a => a.element = i))) :
    ((List.zip s.numAtomsPerElement offs).map fun q => (q.1 : ℝ) * q.2).sum =
      ∑ i ∈ Finset.range s.atoms.length, offs.getD (s.elementOf i) 0 := by
  subst hk
  obtain ⟨h, -⟩ := C37_offset_is_sum_over_atoms offs s hel hcnt
  unfold getEnergyOffset at h
  rw [if_neg (by rw [hcnt]; simp), foldl_offset_add, zero_add] at h
  rw [Option.some.inj h]
  refine sum_range_getElem _ _ _ (by simp) fun i hi => ?_
  rw [List.getElem?_map, List.getElem?_eq_getElem hi, elementOf_eq (List.getElem?_eq_getElem hi)]
  rfl

theorem addOffset_eq (offs : List ℝ) (s : Structure) (h : ¬ s.numAtomsPerElement.length < offs.length) :
    addEnergyOffset offs s false = some { s with energy := s.energy +
      ((List.zip s.numAtomsPerElement offs).map fun q => (q.1 : ℝ) * q.2).sum } ∧
    addEnergyOffset offs s true = some { s with energyRef := s.energyRef +
      ((List.zip s.numAtomsPerElement offs).map fun q => (q.1 : ℝ) * q.2).sum } ∧
    removeEnergyOffset offs s true = some { s with energyRef := s.energyRef -
      ((List.zip s.numAtomsPerElement offs).map fun q => (q.1 : ℝ) * q.2).sum } := by
  unfold addEnergyOffset removeEnergyOffset
  simp only [foldl_offset_add, foldl_offset_sub, if_neg h]
  exact ⟨rfl, rfl, rfl⟩

/-- What happens when a structure is read and evaluated. -/
theorem predict_run (hsrt : IsSort srt) (hp : p.Ready P n) (hP : P.Fits n) (hn : 0 < n) (text : Str)
    (rest : List Str) (e : (Structure.forReading p.emap 0).readFromFile N p.emap (readLines text) =
      some (u, rest)) (hu : p.Suits P u) :
    ∃ t p1 M' s' p2, p.readStructureFromFile N text = some p1 ∧ p1.structure' = t ∧
      t.Evaluable p.mode P n ∧ t.energyElec = 0 ∧ t.maxCutoffRadiusOverall = 0 ∧
      SameSystem (u.scaled p.lengthUnit) t ∧
      p.mode.evaluateNNP srt t true true = some (M', s') ∧ p1.predict srt = some p2 ∧
      p2.Ready P n ∧ p2.mode = M' ∧ Prediction.SameData u p2.structure' ∧
      p2.structure'.energy = s'.energy / p.energyUnit +
        ∑ i ∈ Finset.range u.atoms.length, p.baseEnergy (u.elementOf i) ∧
      ∀ i < u.atoms.length,
        p2.structure'.forceOn i = (p.lengthUnit / p.energyUnit) • s'.forceOn i := by
  have hdone := readFromFile_done e
  rw [hp.emap] at hdone
  set Z := ((List.zip u.numAtomsPerElement p.offsets).map fun q => (q.1 : ℝ) * q.2).sum with hZ
  have hcl : ∀ v : Structure, v.numAtomsPerElement = u.numAtomsPerElement →
      ¬ v.numAtomsPerElement.length < p.offsets.length := by
    intro v hv
    rw [hv, hdone.counts, hp.offsets]
    simp
  -- reading
  set s0 : Structure := { u.withPast p.structure' with energyRef := u.energyRef - Z } with hs0
  have hs0d : ReadDone n s0 := ⟨hdone.elements, hdone.flags, ⟨hp.elec, hp.radius⟩, hdone.numAtoms,
    hdone.counts, hdone.atom, hdone.inside⟩
  obtain ⟨t, n1, n2, n3, n4, n5, n6, n7, n8, n9, n10, n11, n12, n13⟩ := toNormalized_spec p hs0d
  have hread : p.readStructureFromFile N text =
      some { p with structure' := t, mapSize := p.emap.size } := by
    unfold Prediction.readStructureFromFile
    rw [reset_eq]
    refine (congrArg (Option.bind · _) ((readFromFile_past p.structure' (readLines text) _).trans
      (congrArg _ e))).trans ?_
    refine (congrArg (Option.bind · _)
      (addOffset_eq p.offsets (u.withPast p.structure') (hcl _ rfl)).2.2).trans ?_
    exact (congrArg (Option.bind · _) n1).trans rfl
  have hsame : SameSystem (u.scaled p.lengthUnit) t := by
    refine .of_atoms n2 n3 (n12.trans (scaled_length _ _).symm) fun i a ha => ?_
    rw [show (u.scaled p.lengthUnit).atoms = u.atoms.map _ from rfl, List.getElem?_map] at ha
    obtain ⟨a0, h1, rfl⟩ := Option.map_eq_some_iff.1 ha
    obtain ⟨b, h2, h3, -⟩ := n13 i a0 h1
    exact ⟨b, h2, h3.r, h3.element⟩
  have hread' : ∀ (i : ℕ) b, t.atoms[i]? = some b → AtomRead n i b := by
    intro i b hb
    have hi : i < s0.atoms.length := by
      rw [← n12]
      exact (List.getElem?_eq_some_iff.1 hb).1
    obtain ⟨b', g1, -, g3⟩ := n13 i _ (List.getElem?_eq_getElem hi)
    rw [hb] at g1
    cases g1
    exact g3
  have hboxed : Boxed u := fun hper => ⟨hu.box hper, hdone.inside hper (hu.box hper)⟩
  have hnew : t.New n := by
    refine ⟨fun b hb => ?_, ?_, ⟨n10.trans hdone.flags.1, n11.trans hdone.flags.2⟩,
      fun b hb => ?_, fun i b hb => (hread' i b hb).index⟩
    · obtain ⟨i, hi, rfl⟩ := List.getElem_of_mem hb
      have := hread' i _ (List.getElem?_eq_getElem hi)
      rw [n6.trans hs0d.elements]
      exact ⟨this.fresh, this.element⟩
    · intro hper
      obtain ⟨b1, b2⟩ := scaled_boxed hp.lengthUnit hboxed (n2.symm.trans hper)
      rw [n3]
      refine ⟨b1, fun b hb => ?_⟩
      obtain ⟨i, hi, rfl⟩ := List.getElem_of_mem hb
      have hi' : i < s0.atoms.length := by
        rw [← n12]
        exact hi
      obtain ⟨b', g1, g2, -⟩ := n13 i _ (List.getElem?_eq_getElem hi')
      rw [List.getElem?_eq_getElem hi] at g1
      rw [Option.some.inj g1, g2.r]
      exact b2 _ (List.mem_map.2 ⟨_, List.getElem_mem hi', rfl⟩)
    · obtain ⟨i, hi, rfl⟩ := List.getElem_of_mem hb
      have := hread' i _ (List.getElem?_eq_getElem hi)
      exact ⟨this.element, this.flags.1, this.flags.2.1, this.flags.2.2.1⟩
  have hrad : t.maxCutoffRadiusOverall = 0 := n9.trans hp.radius
  have hlist : p.mode.listRadius t = p.mode.maxCutoffRadius := by
    unfold Mode.listRadius
    rw [hrad]
    exact max_eq_left hp.setup.max_nonneg
  have hev : t.Evaluable p.mode P n := by
    refine ⟨hnew, hsame.apart.2 (scaled_apart hp.lengthUnit hu.apart), ?_⟩
    rw [hlist]
    exact hsame.triplets.2 hu.triplets
  -- evaluation
  obtain ⟨M', s', he, hM', -⟩ := C74_energy hsrt hp.setup hP hn hev true true
  obtain ⟨k1, k2, k3, k4, k5, k6, k7, k8, k9⟩ := evaluate_kept hsrt hp.setup hP hn hev true he
  obtain ⟨w, w1, w2, w3, w4, w5, w6, w7, w8, w9, w10, w11⟩ := toPhysical_spec (s := s') p (by
    intro c hc
    obtain ⟨i, hi, rfl⟩ := List.getElem_of_mem hc
    have hi' : i < t.atoms.length := by
      rw [← k8]
      exact hi
    obtain ⟨c', g1, g2⟩ := k9 i _ (List.getElem?_eq_getElem hi')
    rw [List.getElem?_eq_getElem hi] at g1
    rw [Option.some.inj g1]
    exact g2.allocated)
  have hwc : w.numAtomsPerElement = u.numAtomsPerElement := (w5.trans k4).trans n5
  have hZ' : ((List.zip w.numAtomsPerElement p.offsets).map fun q => (q.1 : ℝ) * q.2).sum = Z := by
    rw [hwc]
  have hpred : Prediction.predict srt { p with structure' := t, mapSize := p.emap.size } =
      some { p with
        mode := M'
        mapSize := p.emap.size
        structure' := { w with energy := w.energy + Z, energyRef := w.energyRef + Z } } := by
    unfold Prediction.predict
    refine (congrArg (Option.bind · _) he).trans ?_
    refine (congrArg (Option.bind · _) w1).trans ?_
    refine (congrArg (Option.bind · _) (addOffset_eq p.offsets w (hcl _ hwc)).1).trans ?_
    refine (congrArg (Option.bind · _) (addOffset_eq p.offsets { w with energy := w.energy +
      ((List.zip w.numAtomsPerElement p.offsets).map fun q => (q.1 : ℝ) * q.2).sum }
      (hcl _ hwc)).2.1).trans ?_
    rw [← hZ']
    rfl
  have hnum : (s'.numAtoms : ℝ) = u.atoms.length := by
    rw [(k3.trans n4).trans hdone.numAtoms]
  have hat : ∀ (i : ℕ) a, u.atoms[i]? = some a → ∃ b c d, t.atoms[i]? = some b ∧
      s'.atoms[i]? = some c ∧ w.atoms[i]? = some d ∧
      AtomScaled p.lengthUnit (p.energyUnit / p.lengthUnit) a b ∧ AtomKept b c ∧
      AtomScaled p.lengthUnit⁻¹ (p.lengthUnit / p.energyUnit) c d := by
    intro i a ha
    obtain ⟨b, h1, h2, -⟩ := n13 i a ha
    obtain ⟨c, h3, h4⟩ := k9 i b h1
    obtain ⟨d, h5, h6⟩ := w11 i c h3
    exact ⟨b, c, d, h1, h3, h5, h2, h4, h6⟩
  refine ⟨t, _, M', s', _, hread, rfl, hev, n8.trans hp.elec, hrad, hsame, he, hpred, ?_, rfl, ?_,
    ?_, ?_⟩
  · exact ⟨hM', hp.emap, hp.offsets, hp.energyUnit, hp.lengthUnit,
      ((w8.trans k6).trans n8).trans hp.elec, ((w9.trans k7).trans n9).trans hp.radius⟩
  · refine ⟨(w2.trans k1).trans n2, ?_, ?_, ?_, ?_⟩
    · show w.box = _
      rw [w3]
      unfold Structure.scaled
      dsimp only
      rw [k1, k2, n2, n3]
      show (if u.isPeriodic then _ else _) = _
      unfold Structure.scaled
      dsimp only
      by_cases hper : u.isPeriodic = true
      · rw [if_pos hper]
        funext k
        rw [show (if s0.isPeriodic = true then fun k => p.lengthUnit • s0.box k else s0.box) =
          fun k => p.lengthUnit • u.box k from if_pos hper]
        dsimp only
        rw [smul_smul, inv_mul_cancel₀ hp.lengthUnit, one_smul]
      · rw [if_neg hper]
        exact if_neg hper
    · show w.energyRef + Z = _
      rw [w6, k5, n7, hnum]
      have hE := hp.energyUnit
      show (u.energyRef - Z - (u.numAtoms : ℝ) * p.meanEnergy) * p.energyUnit / p.energyUnit +
        (u.atoms.length : ℝ) * p.meanEnergy + Z = _
      rw [mul_div_assoc, div_self hE, hdone.numAtoms]
      ring
    · exact (w10.trans k8).trans n12
    · intro i a ha
      obtain ⟨b, c, d, h1, h2, h3, h4, h5, h6⟩ := hat i a ha
      refine ⟨d, h3, ?_, ?_, ?_, ?_, ?_⟩
      · rw [h6.r, h5.r, h4.r, smul_smul, inv_mul_cancel₀ hp.lengthUnit, one_smul]
      · rw [h6.element, h5.element, h4.element]
      · rw [h6.fRef, h5.fRef, h4.fRef, smul_smul, div_mul_div_comm, mul_comm p.lengthUnit,
          div_self (mul_ne_zero hp.energyUnit hp.lengthUnit), one_smul]
      · rw [h6.index, h5.index, h4.index]
      · rw [h6.tag, h5.tag, h4.tag]
  · show w.energy + Z = _
    rw [w7, hnum, hZ, offset_sum p.offsets u n hp.offsets (fun a ha => by
      obtain ⟨i, hi, rfl⟩ := List.getElem_of_mem ha
      exact (hdone.atom i _ (List.getElem?_eq_getElem hi)).element) hdone.counts]
    unfold Prediction.baseEnergy
    rw [Finset.sum_add_distrib, Finset.sum_const, Finset.card_range, nsmul_eq_mul]
    ring
  · intro i hi
    obtain ⟨b, c, d, h1, h2, h3, h4, h5, h6⟩ := hat i _ (List.getElem?_eq_getElem hi)
    show ((w.atoms[i]?).map Atom.f).getD 0 = _ • ((s'.atoms[i]?).map Atom.f).getD 0
    rw [h2, h3]
    exact h6.f

/-- **C84 (energy).** Let the object be set up for the potential `P`, whatever it was used for before. For
every file whose first structure can be read, a prediction gives the physical energy of that structure: the
energy of the potential in physical units plus the base energies of atoms. The structure afterwards has the
positions, box and reference data of the file, and the object is ready for the next file. -/
theorem C84_energy (hsrt : IsSort srt) (hp : p.Ready P n) (hP : P.Fits n) (hn : 0 < n) (text : Str)
    (rest : List Str) (e : (Structure.forReading p.emap 0).readFromFile N p.emap (readLines text) =
      some (u, rest)) (hu : p.Suits P u) :
    ∃ p1 p2, p.readStructureFromFile N text = some p1 ∧ p1.predict srt = some p2 ∧ p2.Ready P n ∧
      Prediction.SameData u p2.structure' ∧
      ∀ R X, P.Within R u → p.IsEnergy P R u X → p2.structure'.energy = X := by
  obtain ⟨t, p1, M', s', p2, h1, h2, h3, h4, h5, h6, h7, h8, h9, h10, h11, h12, -⟩ :=
    predict_run hsrt hp hP hn text rest e hu
  refine ⟨p1, p2, h1, h8, h9, h11, fun R X hR hX => ?_⟩
  obtain ⟨E, hE, rfl⟩ := hX
  obtain ⟨M'', s'', g1, -, -, -, g2⟩ := C74_energy hsrt hp.setup hP hn h3 true true
  rw [h7] at g1
  cases g1
  have hW : P.Within R (u.scaled p.lengthUnit) := by
    unfold Potential.Within at hR ⊢
    intro i hi
    rw [scaled_length] at hi
    rw [scaled_element]
    exact hR i hi
  rw [h12, (g2 R E (h6.within.2 hW) (h6.isEnergy.2 hE)).2, h4, add_zero]

/-- **C84 (forces).** Predicted forces are the negative gradient of the physical energy: along any motion
of atoms the energy changes at the rate given by the forces. This needs the smoothness of the potential at
the structure, and that no atom sees its own periodic images (see `C75_own_images`). -/
theorem C84_forces_partial (hsrt : IsSort srt) (hp : p.Ready P n) (hP : P.Fits n) (hn : 0 < n)
    (text : Str) (rest : List Str)
    (e : (Structure.forReading p.emap 0).readFromFile N p.emap (readLines text) = some (u, rest))
    (hu : p.Suits P u) (hsm : P.Smooth p.mode.maxCutoffRadius (u.scaled p.lengthUnit))
    (hown : P.NoOwnImages (u.scaled p.lengthUnit)) :
    ∃ p1 p2, p.readStructureFromFile N text = some p1 ∧ p1.predict srt = some p2 ∧
      ∀ (r : ℕ → ℝ → Vec3) (v : ℕ → Vec3) (t : ℝ), (∀ i < u.atoms.length, r i t = u.position i) →
        (∀ i < u.atoms.length, HasDerivAt (r i) (v i) t) → ∀ R, P.Within R u → ∀ X : ℝ → ℝ,
        (∀ x, p.IsEnergy P R (u.move fun i => r i x) (X x)) →
        HasDerivAt X
          (-∑ i ∈ Finset.range u.atoms.length, (p2.structure'.forceOn i).dot (v i)) t := by
  obtain ⟨t, p1, M', s', p2, h1, h2, h3, h4, h5, h6, h7, h8, h9, h10, h11, -, h13⟩ :=
    predict_run hsrt hp hP hn text rest e hu
  refine ⟨p1, p2, h1, h8, fun r v τ h0 hv R hR X hX => ?_⟩
  choose E hE hXE using hX
  have hlist : p.mode.listRadius t = p.mode.maxCutoffRadius := by
    unfold Mode.listRadius
    rw [h5]
    exact max_eq_left hp.setup.max_nonneg
  have hlen : t.atoms.length = u.atoms.length := h6.length.trans (scaled_length _ _)
  have hW : P.Within R (u.scaled p.lengthUnit) := by
    unfold Potential.Within at hR ⊢
    intro i hi
    rw [scaled_length] at hi
    rw [scaled_element]
    exact hR i hi
  have hd := C75_forces_partial hsrt hp.setup hP hn h3 (by rw [hlist]; exact h6.smooth.2 hsm)
    (h6.noOwnImages.2 hown) true h7 (fun i x => p.lengthUnit • r i x) (fun i => p.lengthUnit • v i) τ
    (fun i hi => by
      rw [hlen] at hi
      rw [h0 i hi, h6.position, scaled_position])
    (fun i hi => HasDerivAt.const_smul p.lengthUnit (hv i (by rwa [hlen] at hi))) R (h6.within.2 hW) E (fun x => by
      have := hE x
      rw [scaled_move] at this
      exact (h6.move _).isEnergy.2 this)
  have hX' : X = fun x => E x / p.energyUnit +
      ∑ i ∈ Finset.range u.atoms.length, p.baseEnergy (u.elementOf i) := by
    funext x
    rw [hXE x]
    congr 1
    rw [show (u.move fun i => r i x).atoms.length = u.atoms.length by simp [Structure.move]]
    refine Finset.sum_congr rfl fun i _ => ?_
    rw [at_elementOf]
  rw [hX']
  refine ((hd.div_const _).add_const _).congr_deriv ?_
  rw [hlen, neg_div, Finset.sum_div]
  congr 1
  refine Finset.sum_congr rfl fun i hi => ?_
  rw [h13 i (Finset.mem_range.1 hi)]
  simp only [Vec3.dot, Pi.smul_apply, smul_eq_mul]
  ring

/-- **C84 (forces of a cluster).** Without periodic boundary conditions there are no images, and predicted
forces are the negative gradient of the physical energy without further condition. -/
theorem C84_forces_cluster (hsrt : IsSort srt) (hp : p.Ready P n) (hP : P.Fits n) (hn : 0 < n)
    (text : Str) (rest : List Str)
    (e : (Structure.forReading p.emap 0).readFromFile N p.emap (readLines text) = some (u, rest))
    (hu : p.Suits P u) (hsm : P.Smooth p.mode.maxCutoffRadius (u.scaled p.lengthUnit))
    (hper : u.isPeriodic = false) :
    ∃ p1 p2, p.readStructureFromFile N text = some p1 ∧ p1.predict srt = some p2 ∧
      ∀ (r : ℕ → ℝ → Vec3) (v : ℕ → Vec3) (t : ℝ), (∀ i < u.atoms.length, r i t = u.position i) →
        (∀ i < u.atoms.length, HasDerivAt (r i) (v i) t) → ∀ R, P.Within R u → ∀ X : ℝ → ℝ,
        (∀ x, p.IsEnergy P R (u.move fun i => r i x) (X x)) →
        HasDerivAt X
          (-∑ i ∈ Finset.range u.atoms.length, (p2.structure'.forceOn i).dot (v i)) t := by
  refine C84_forces_partial hsrt hp hP hn text rest e hu hsm ?_
  intro i _ q hq
  obtain ⟨-, h1 | h1, h2⟩ := hq
  · rw [show (u.scaled p.lengthUnit).isPeriodic = u.isPeriodic from rfl, hper] at h1; cases h1
  · exact absurd (by rw [show q = 0 from h1]) h2

/-- A structure written to a file by the library can be used for a prediction. -/
theorem C84_written (hsrt : IsSort srt) (hp : p.Ready P n) (hP : P.Fits n) (hn : 0 < n)
    (hN : N.Sane) (hm : p.emap.Sane) (s : Structure) (ref : Bool) (hs : s.Filable N p.emap ref) :
    ∃ text u, s.writeToFile N p.emap ref = some text ∧ s.FileCopy N p.emap ref 0 u ∧
      (p.Suits P u → ∃ p1 p2, p.readStructureFromFile N text = some p1 ∧ p1.predict srt = some p2 ∧
        p2.Ready P n ∧ Prediction.SameData u p2.structure' ∧
        ∀ R X, P.Within R u → p.IsEnergy P R u X → p2.structure'.energy = X) := by
  obtain ⟨text, h1, h2⟩ := C58_roundtrip_partial hN hm s ref hs 0
  obtain ⟨u, h3, h4⟩ := h2 []
  rw [List.append_nil] at h3
  exact ⟨text, u, h1, h4, fun hu => C84_energy hsrt hp hP hn text _ h3 hu⟩

/-- A prediction object with normalized units for hydrogen and oxygen, used before or not. -/
theorem exists_exPrediction : ∃ p : Prediction, p.Ready exPotential 2 ∧ p.emap.Sane ∧
    p.normalize = true ∧ p.lengthUnit = 2 ∧ p.energyUnit = 4 ∧ p.baseEnergy 0 = -2 ∧
    p.baseEnergy 1 = -1 := by
  obtain ⟨M, hM, -⟩ := exists_exMode
  obtain ⟨m, -, h2, h3⟩ := emap_sane "O\t H".toList ["O".toList, "H".toList]
    ((C01_tokens_are_words _ _).1 (by decide)) (by decide +kernel) (by decide)
  refine ⟨{ mode := M, emap := m, offsets := [1, 2], normalize := true,
            units := { meanEnergy := -3, convEnergy := 4, convLength := 2, convCharge := 1 },
            structure' := { Structure.init with energy := 5 }, mapSize := 0 },
    ⟨hM, h2, rfl, ?_, ?_, rfl, rfl⟩, h3, rfl, if_pos rfl, if_pos rfl, ?_, ?_⟩
  · show (if true then (4 : ℝ) else 1) ≠ 0
    norm_num
  · show (if true then (2 : ℝ) else 1) ≠ 0
    norm_num
  · show (if true then (-3 : ℝ) else 0) + 1 = -2
    norm_num
  · show (if true then (-3 : ℝ) else 0) + 2 = -1
    norm_num

/-- Three atoms apart from each other, read from a file, suit the potential of the example. -/
theorem exPotential_suits {p : Prediction} {u : Structure} (hper : u.isPeriodic = false)
    (ha : u.Apart) : p.Suits exPotential u :=
  ⟨fun h => absurd h (by rw [hper]; decide), ha, (exPotential_evaluable (M := p.mode)
    (s := u.scaled p.lengthUnit) |> fun _ => by
      intro i _ S hS env _ h
      rw [List.mem_singleton.1 hS] at h
      exact absurd (Or.inr (Or.inr (Or.inl rfl))) h)⟩

example : ∃ (srt : _) (p : Prediction) (text : Str) (u : Structure) (rest : List Str),
    IsSort srt ∧ p.Ready exPotential 2 ∧ exPotential.Fits 2 ∧ p.normalize = true ∧
    p.lengthUnit ≠ 1 ∧ p.baseEnergy 0 ≠ 0 ∧
    (Structure.forReading p.emap 0).readFromFile exText p.emap (readLines text) = some (u, rest) ∧
    p.Suits exPotential u ∧ exPotential.Smooth p.mode.maxCutoffRadius (u.scaled p.lengthUnit) ∧
    u.isPeriodic = false ∧ u.atoms.length = 3 := by
  obtain ⟨srt, hsrt⟩ := exists_isSort
  obtain ⟨p, hp, hm, h1, h2, -, h4, -⟩ := exists_exPrediction
  have hf : (exFiled false 3).Filable exText p.emap true := by
    refine ⟨exFiled_comment _ _, fun a ha => ?_, fun h => absurd h (by decide),
      fun h => absurd h (by decide), fun h => absurd h (by decide)⟩
    rw [hp.emap]
    simp only [exFiled, List.mem_cons, List.not_mem_nil, or_false] at ha
    rcases ha with rfl | rfl | rfl <;> decide
  obtain ⟨text, -, g⟩ := C58_roundtrip_partial exText_sane hm (exFiled false 3) true hf 0
  obtain ⟨u, g1, g2⟩ := g []
  have hlen : u.atoms.length = 3 := g2.length
  have hpos : ∀ i < 3, u.position i 0 = [1, 2, 9].getD i 0 := by
    intro i hi
    have hi' : i < (exFiled false 3).atoms.length := hi
    have := (g2.atom i _ _ (List.getElem?_eq_getElem hi')
      (List.getElem?_eq_getElem (by rw [hlen]; exact hi))).free rfl
    unfold Structure.position
    rw [List.getElem?_eq_getElem (by rw [hlen]; exact hi)]
    show (u.atoms[i]'_).r 0 = _
    rw [this]
    unfold NumberText.roundedVec
    interval_cases i
    · exact exText_num 1 1 (by norm_num) (by norm_num)
    · exact exText_num 2 2 (by norm_num) (by norm_num)
    · exact exText_num 9 9 (by norm_num) (by norm_num)
  have hper : u.isPeriodic = false := g2.periodic
  have ha : u.Apart := by
    rintro i hi ⟨j, q⟩ ⟨hj, hq, hne⟩ h0
    rw [hper] at hq
    obtain rfl : q = 0 := hq.resolve_left nofun
    rw [hlen] at hi
    have hj : j < 3 := by rw [← hlen]; exact hj
    unfold Structure.separation at h0
    rw [shift_zero] at h0
    have e0 := congrFun h0 0
    simp only [Pi.sub_apply, Pi.add_apply, Pi.zero_apply, hpos i hi, hpos j hj] at e0
    interval_cases i <;> interval_cases j <;> simp at hne e0 <;> norm_num at e0
  refine ⟨srt, p, _, u, _, hsrt, hp, exPotential_fits, h1, by rw [h2]; norm_num, by rw [h4]; norm_num,
    g1, exPotential_suits hper ha, exPotential_smooth (scaled_apart hp.lengthUnit ha) _, hper, hlen⟩

end N2P2
