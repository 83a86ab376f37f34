import Verif.Lemma.DistributionRun
import Verif.Lemma.NeighborRebuild

/-! nnp-dist: one structure, and the loop over the file. -/

namespace N2P2

variable {N : NumberText} {m : EMap} {srt : List Neighbor → List Neighbor} {D : DistributionSetup} {u v : Structure}

/-! ### Neighbour lists -/

theorem calculateNeighborList_keeps {rc : ℝ} (h : u.calculateNeighborList srt rc false = some v) :
    v.volume = u.volume ∧ v.numAtomsPerElement = u.numAtomsPerElement := by
  unfold Structure.calculateNeighborList at h
  simp only at h
  cases hp : u.isPeriodic with
  | true =>
    rw [hp, if_pos rfl] at h
    obtain ⟨pbc, -, h3⟩ := Option.bind_eq_some_iff.1 h
    have := Option.some.inj h3
    subst this
    exact ⟨rfl, rfl⟩
  | false =>
    rw [hp] at h
    have := Option.some.inj h
    subst this
    exact ⟨rfl, rfl⟩

theorem norm_len (w : Vec3) : w.norm = len w := by
  unfold Vec3.norm len
  rw [Fin.sum_univ_three]
  congr 1
  ring

theorem lists_of_read (hsrt : IsSort srt) {K : ℕ} (h : ReadDone K u) (hbox : ProperBox u) {x : Structure}
    (hx : x.maxCutoffRadiusOverall = 0) {rc : ℝ} (hrc : 0 ≤ rc) :
    ∃ v, (u.withPast x).calculateNeighborList srt rc false = some v ∧ HasLists rc u v ∧ v.maxCutoffRadiusOverall = 0 := by
  obtain ⟨v, h1, h2, -, -, h3⟩ := build_cleared hsrt (s := u.withPast x) (rc := rc) (le_max_of_le_left hrc)
    (fun hper => ⟨hbox hper, h.inside hper (hbox hper)⟩) (fun a ha => by
      obtain ⟨i, hi, rfl⟩ := List.getElem_of_mem (show a ∈ u.atoms from ha)
      obtain ⟨g1, g2, g3, g4, -, -⟩ := (h.atom i _ (List.getElem?_eq_getElem hi)).fresh
      exact ⟨g1, g2, g3, g4⟩) false
  have hm : max rc (u.withPast x).maxCutoffRadiusOverall = rc := by
    show max rc x.maxCutoffRadiusOverall = rc
    rw [hx, max_eq_left hrc]
  rw [hm] at h3
  obtain ⟨k1, k2⟩ := calculateNeighborList_keeps h1
  have hlen : v.atoms.length = u.atoms.length := by
    have : (v.atoms.map _).length = (u.atoms.map _).length := congrArg List.length h2.atoms
    rwa [List.length_map, List.length_map] at this
  refine ⟨v, h1, ⟨h2.per, h2.box, k1, k2, hlen, ?_⟩, h2.cut.trans hx⟩
  intro p a' ha'
  have hp : p < u.atoms.length := hlen ▸ (List.getElem?_eq_some_iff.1 ha').1
  have hg : u.atoms[p]? = some u.atoms[p] := List.getElem?_eq_getElem hp
  obtain ⟨b, g1, g2, g3, -, -, g5, -⟩ := h3 p _ hg
  obtain rfl : b = a' := Option.some.inj (g1.symm.trans ha')
  refine ⟨by rw [g3]; simp [Structure.elementOf, hg], ?_⟩
  obtain ⟨imgs, q1, q2, q3⟩ := g5.imgs
  refine ⟨imgs, q1, q2, q3.imp ?_⟩
  rintro nb ⟨j, t⟩ ⟨c, c1, -, -, c2, c3, c4⟩
  have c1' : u.atoms[j]? = some c := c1
  have hdr : nb.dr = u.bond (p, j, t) := by
    rw [c3]
    simp only [Structure.bond, Structure.position, hg, c1']
    rw [g2]
    rfl
  refine ⟨?_, hdr, ?_⟩
  · rw [c2]
    simp [Structure.elementOf, c1']
  · rw [c4, hdr]

/-! ### One structure -/

theorem IsBond.present {i j : ℕ} {p : BondIndex} {w : Vec3} (h : IsBond u i j p w) :
    u.elementCount i ≠ 0 ∧ u.elementCount j ≠ 0 := by
  obtain ⟨a, c, h1, h2, h3, h4, -⟩ := h
  constructor
  · refine (List.countP_pos_iff.2 ⟨a, List.mem_of_getElem? h1, ?_⟩).ne'
    simpa using h3
  · refine (List.countP_pos_iff.2 ⟨c, List.mem_of_getElem? h2, ?_⟩).ne'
    simpa using h4

theorem bondsIn_absent {i j : ℕ} (h : u.elementCount i = 0 ∨ u.elementCount j = 0) (lo hi : ℝ) : bondsIn u i j lo hi = ∅ := by
  rw [Set.eq_empty_iff_forall_notMem]
  rintro p ⟨w, hw, -⟩
  obtain ⟨h1, h2⟩ := hw.present
  exact h.elim h1 h2

/-- The histograms of the current structure are empty. -/
structure DistributionState.Empty (D : DistributionSetup) (st : DistributionState) : Prop where
  rhist : ∀ e ∈ elementPairs D.elements, ∀ n < D.bins, st.rhist e n = 0
  ahist : ∀ i < D.elements, ∀ e ∈ elementPairs D.elements, ∀ n < D.bins, st.ahist i e n = 0

/-- What is known of a structure. -/
structure Countable' (D : DistributionSetup) (u : Structure) : Prop where
  element : ∀ a ∈ u.atoms, a.element < D.elements
  counts : u.numAtomsPerElement = (List.range D.elements).map u.elementCount
  volume : u.isPeriodic = true → u.volume = |Matrix.det (Matrix.of u.box)|

/-- The sums grow by what belongs to the structure. -/
structure Grows (D : DistributionSetup) (st : DistributionState) (us : List Structure) (st' : DistributionState) : Prop where
  rdf : ∀ e ∈ elementPairs D.elements, ∀ n : ℕ, n < D.bins → st'.rdf e n = st.rdf e n +
    (us.map fun u => pairDistribution u e.1 e.2 (n * D.dr) ((n + 1) * D.dr)).sum
  adf : D.angles = true → ∀ i < D.elements, ∀ e ∈ elementPairs D.elements, ∀ n < D.bins, st'.adf i e n = st.adf i e n +
    (us.map fun u => angleDistribution u D.cutoff D.bins i e.1 e.2 n).sum
  count : st'.count = st.count + us.length
  periodic : st'.periodic = st.periodic + us.countP fun u => u.isPeriodic
  density : ∀ i < D.elements, st'.density i = st.density i +
    (us.map fun u => if u.isPeriodic = true then (u.elementCount i : ℝ) / |Matrix.det (Matrix.of u.box)| else 0).sum
  cells : st'.cells = st.cells ++ (us.zipIdx st.count).flatMap fun p =>
    if p.1.isPeriodic then [(p.2, len (p.1.box 0), len (p.1.box 1), len (p.1.box 2))] else []

theorem elementOf_mem {p : ℕ} (hp : p < u.atoms.length) (h : ∀ a ∈ u.atoms, a.element < D.elements) : u.elementOf p < D.elements := by
  have hg := List.getElem?_eq_getElem hp
  simpa [Structure.elementOf, hg] using h _ (List.getElem_mem hp)

theorem fun_sum_apply {α : Type} (F : α → ℕ → PairTable) (l : List α) (i : ℕ) :
    (l.map F).sum i = (l.map fun a => F a i).sum := by
  induction l with
  | nil => rfl
  | cons y l ih =>
    rw [List.map_cons, List.sum_cons, List.map_cons, List.sum_cons, ← ih]
    rfl

theorem len_ne_zero {w : Vec3} (hw : w ≠ 0) : len w ≠ 0 := by
  intro h0
  apply hw
  funext t
  rw [len, Real.sqrt_eq_zero (by positivity), Fin.sum_univ_three] at h0
  have := sq_nonneg (w 0)
  have := sq_nonneg (w 1)
  have := sq_nonneg (w 2)
  have q0 : w 0 ^ 2 = 0 := by linarith
  have q1 : w 1 ^ 2 = 0 := by linarith
  have q2 : w 2 ^ 2 = 0 := by linarith
  fin_cases t
  · exact pow_eq_zero_iff (two_ne_zero) |>.1 q0
  · exact pow_eq_zero_iff (two_ne_zero) |>.1 q1
  · exact pow_eq_zero_iff (two_ne_zero) |>.1 q2

theorem atoms_countable (h : HasLists D.cutoff u v) (hc : Countable' D u) (hb : 0 < D.bins) (hrc : 0 < D.cutoff)
    (hat : NoneAtCutoff u D.cutoff) (hap : D.angles = true → AllApart u) : ∀ a ∈ v.atoms, AtomCountable D a := by
  intro a ha
  obtain ⟨p, hp, rfl⟩ := List.getElem_of_mem ha
  have hg := List.getElem?_eq_getElem hp
  obtain ⟨h1, imgs, -, h3, h4⟩ := h.atom p _ hg
  rw [h.size] at hp
  have key : ∀ nb ∈ v.atoms[p].neighbors, ∃ x, IsImage u D.cutoff p x ∧
      nb.element = u.elementOf x.1 ∧ nb.dr = u.bond (p, x) ∧ nb.d = len (u.bond (p, x)) := by
    intro nb hnb
    obtain ⟨k, hk, rfl⟩ := List.getElem_of_mem hnb
    have hk' : k < imgs.length := h4.length_eq ▸ hk
    have := (List.forall₂_iff_get.1 h4).2 k hk hk'
    exact ⟨imgs[k], (h3 _).1 (List.getElem_mem hk'), this⟩
  have hbr : (0 : ℝ) < D.bins := by exact_mod_cast hb
  refine ⟨by rw [h1]; exact elementOf_mem hp hc.element, ?_, ?_⟩
  · intro nb hnb
    obtain ⟨x, k1, k2, k3, k4⟩ := key nb hnb
    obtain ⟨-, m2, -, -, m5⟩ := isImage_unfold.1 k1
    refine ⟨by rw [k2]; exact elementOf_mem m2 hc.element, ?_⟩
    have hlt : len (u.bond (p, x)) < D.cutoff :=
      lt_of_le_of_ne m5 (hat _ _ (p, x) _ (isBond_image.2 ⟨k1, rfl, rfl, rfl⟩).1)
    rw [k4]
    have hd : 0 < D.dr := div_pos hrc hbr
    rw [Nat.floor_lt (div_nonneg (len_nonneg _) hd.le), div_lt_iff₀ hd]
    unfold DistributionSetup.dr
    rwa [mul_div_cancel₀ _ hbr.ne']
  · intro ha nb hnb
    obtain ⟨x, k1, k2, k3, k4⟩ := key nb hnb
    refine ⟨by rw [k4, k3], ?_⟩
    rw [k4]
    exact len_ne_zero (hap ha _ _ (p, x) _ (isBond_image.2 ⟨k1, rfl, rfl, rfl⟩).1)

/-- One structure. -/
theorem countStructure_spec (h : HasLists D.cutoff u v) (hc : Countable' D u) (hb : 0 < D.bins) (hrc : 0 < D.cutoff)
    (hat : NoneAtCutoff u D.cutoff) (hap : D.angles = true → AllApart u) {st : DistributionState} (h0 : st.Empty D) :
    ∃ st', countStructure D st v = some st' ∧ st'.Empty D ∧ Grows D st [u] st' := by
  classical
  have hbr : (0 : ℝ) < D.bins := by exact_mod_cast hb
  have hd : 0 < D.dr := div_pos hrc hbr
  have hcounts : v.numAtomsPerElement = (List.range D.elements).map u.elementCount := h.counts.trans hc.counts
  have k1 := countAtoms_some hb v.atoms st (atoms_countable h hc hb hrc hat hap)
  set R := (v.atoms.map fun a => (a.neighbors.map (distanceTable D a.element)).sum).sum with hR
  set A := (v.atoms.map fun a i =>
        if D.angles = true ∧ a.element = i then couplesSum (angleTable D) a.neighbors else 0).sum with hA
  have hRn : ∀ e ∈ elementPairs D.elements, ∀ n < D.bins, (st.rhist + R) e n =
      ((bondsIn u e.1 e.2 (n * D.dr) ((n + 1) * D.dr)).ncard : ℝ) := by
    intro e he n hn
    obtain ⟨g1, g2⟩ := mem_elementPairs.1 he
    rw [Pi.add_apply, Pi.add_apply, h0.rhist e he n hn, zero_add]
    refine distances_counted h hd g1 ?_
    have : (n : ℝ) + 1 ≤ D.bins := by exact_mod_cast hn
    unfold DistributionSetup.dr
    calc ((n : ℝ) + 1) * (D.cutoff / D.bins) ≤ D.bins * (D.cutoff / D.bins) :=
          mul_le_mul_of_nonneg_right this hd.le
      _ = D.cutoff := mul_div_cancel₀ _ hbr.ne'
  have hAn : D.angles = true → ∀ i < D.elements, ∀ e ∈ elementPairs D.elements, ∀ n < D.bins,
      (if e.1 = e.2 then 2 else 1) * (st.ahist + A) i e n =
        ((anglesWith u D.cutoff i e.1 e.2 (InAngleBin D.bins n)).ncard : ℝ) := by
    intro ha i hi e he n hn
    obtain ⟨g1, g2⟩ := mem_elementPairs.1 he
    rw [Pi.add_apply, Pi.add_apply, Pi.add_apply, h0.ahist i hi e he n hn, zero_add, hA, fun_sum_apply]
    simp only [ha, true_and]
    refine angles_counted h hb ?_ g1 hn
    intro p x hx
    exact hap ha _ _ (p, x) _ (isBond_image.2 ⟨hx, rfl, rfl, rfl⟩).1
  obtain ⟨d', k2, k2'⟩ := addDensity_fold hcounts h.per h.volume (List.range D.elements) st.density List.nodup_range
    fun i hi => List.mem_range.1 hi
  obtain ⟨t', k3, k3', k3''⟩ := normalizePairs_some (D := D) hcounts h.per h.volume (elementPairs D.elements) (st.rhist + R, st.rdf)
    (nodup_elementPairs _) (fun e he => by
      obtain ⟨g1, g2⟩ := mem_elementPairs.1 he
      exact ⟨lt_of_le_of_lt g1 g2, g2⟩) (by
      intro e he n hn hz
      show (st.rhist + R) e n = 0
      rw [hRn e he n hn, bondsIn_absent hz]
      simp)
  have hnf : D.angles = true → ∀ i < D.elements, _ := fun ha i hi => normalizeAngles_fold (D := D) (elementPairs D.elements)
    ((st.ahist + A) i, st.adf i) (nodup_elementPairs _) (by
      intro e he n hn
      have := hAn ha i hi e he n hn
      have h2 : (0 : ℝ) < if e.1 = e.2 then 2 else 1 := by split_ifs <;> norm_num
      show 0 ≤ (st.ahist + A) i e n
      by_contra hneg
      have : (if e.1 = e.2 then (2 : ℝ) else 1) * (st.ahist + A) i e n < 0 := mul_neg_of_pos_of_neg h2 (not_le.1 hneg)
      have h3 : (0 : ℝ) ≤ ((anglesWith u D.cutoff i e.1 e.2 (InAngleBin D.bins n)).ncard : ℝ) := Nat.cast_nonneg _
      linarith)
  let a : ℕ → PairTable × PairTable := fun i => if D.angles = true ∧ i < D.elements then
    (elementPairs D.elements).foldl (normalizeAngles D) ((st.ahist + A) i, st.adf i) else ((st.ahist + A) i, st.adf i)
  refine ⟨⟨t'.1, t'.2, fun i => (a i).1, fun i => (a i).2, st.count + 1,
    if v.isPeriodic then st.periodic + 1 else st.periodic, d',
    if v.isPeriodic then st.cells ++ [(st.count, (v.box 0).norm, (v.box 1).norm, (v.box 2).norm)] else st.cells⟩, ?_, ?_, ?_⟩
  · unfold countStructure
    dsimp only
    rw [k1]
    refine (congrArg (Option.bind · _) k2).trans ?_
    refine (congrArg (Option.bind · _) k3).trans ?_
    rfl
  · refine ⟨?_, ?_⟩
    · intro e he n hn
      show t'.1 e n = 0
      rw [k3' e n hn, if_pos he]
    · intro i hi e he n hn
      by_cases ha : D.angles = true
      · show (ite _ _ _ : PairTable × PairTable).1 e n = 0
        rw [if_pos ⟨ha, hi⟩, (hnf ha i hi).1, if_pos he]
      · show (ite _ _ _ : PairTable × PairTable).1 e n = 0
        rw [if_neg fun h => ha h.1]
        show (st.ahist + A) i e n = 0
        rw [Pi.add_apply, Pi.add_apply, Pi.add_apply, h0.ahist i hi e he n hn, zero_add, hA, fun_sum_apply, sum_apply]
        simp [ha]
  · refine ⟨?_, ?_, rfl, ?_, ?_, ?_⟩
    · intro e he n hn
      show t'.2 e n = _
      rw [k3'' e n hn, if_pos he]
      show st.rdf e n + rdfShare D u e n ((st.rhist + R) e n) = _
      rw [hRn e he n hn, List.map_singleton, List.sum_singleton]
      congr 1
      unfold rdfShare pairDistribution
      have hden : 4 * Real.pi * (((n : ℝ) + 1 / 2) * D.dr) * (((n : ℝ) + 1 / 2) * D.dr) * D.dr =
          4 * Real.pi * (((n : ℝ) * D.dr + ((n : ℝ) + 1) * D.dr) / 2) ^ 2 * (((n : ℝ) + 1) * D.dr - (n : ℝ) * D.dr) := by ring
      rw [hden]
      congr 1
      by_cases hp : u.isPeriodic = true
      · rw [if_pos hp, if_pos hp, hc.volume hp]
        push_cast
        ring
      · rw [if_neg hp, if_neg hp, one_mul]
    · intro ha i hi e he n hn
      show (ite _ _ _ : PairTable × PairTable).2 e n = _
      rw [if_pos ⟨ha, hi⟩, (hnf ha i hi).2, if_pos he]
      show st.adf i e n + (st.ahist + A) i e n / (∑ m ∈ Finset.range D.bins, (st.ahist + A) i e m) / D.da = _
      rw [List.map_singleton, List.sum_singleton]
      congr 1
      unfold angleDistribution DistributionSetup.da
      rw [← angles_total h hb i e.1 e.2, ← hAn ha i hi e he n hn]
      have e1 : ∑ m ∈ Finset.range D.bins, ((anglesWith u D.cutoff i e.1 e.2 (InAngleBin D.bins m)).ncard : ℝ) =
          (if e.1 = e.2 then 2 else 1) * ∑ m ∈ Finset.range D.bins, (st.ahist + A) i e m := by
        rw [Finset.mul_sum]
        refine Finset.sum_congr rfl fun m hm => ?_
        exact (hAn ha i hi e he m (Finset.mem_range.1 hm)).symm
      have h2 : (if e.1 = e.2 then (2 : ℝ) else 1) ≠ 0 := by split_ifs <;> norm_num
      rw [e1, mul_div_mul_left _ _ h2]
    · show (if v.isPeriodic then st.periodic + 1 else st.periodic) = _
      rw [h.per]
      by_cases hp : u.isPeriodic = true
      · simp [hp]
      · simp [hp]
    · intro i hi
      show d' i = _
      rw [k2' i, List.map_singleton, List.sum_singleton]
      congr 1
      by_cases hp : u.isPeriodic = true
      · rw [if_pos ⟨List.mem_range.2 hi, hp⟩, if_pos hp, hc.volume hp]
      · rw [if_neg fun h => hp h.2, if_neg hp]
    · show (if v.isPeriodic then st.cells ++ [(st.count, (v.box 0).norm, (v.box 1).norm, (v.box 2).norm)] else st.cells) = _
      rw [h.per, h.box]
      by_cases hp : u.isPeriodic = true
      · simp [hp, norm_len]
      · simp [hp]

/-- A distance which is the cutoff radius. -/
theorem countStructure_stuck (h : HasLists D.cutoff u v) (hb : 0 < D.bins) (hrc : 0 < D.cutoff)
    {i j : ℕ} {p : BondIndex} {w : Vec3} (hbond : IsBond u i j p w) (hw : len w = D.cutoff) (st : DistributionState) :
    countStructure D st v = none := by
  have hbr : (0 : ℝ) < D.bins := by exact_mod_cast hb
  obtain ⟨p, x⟩ := p
  obtain ⟨k1, k2, k3, rfl⟩ := isBond_image.1 ⟨hbond, hw.le⟩
  have hp := (isImage_unfold.1 k1).1
  rw [← h.size] at hp
  have hg := List.getElem?_eq_getElem hp
  obtain ⟨h1, imgs, -, h3, h4⟩ := h.atom p _ hg
  obtain ⟨k, hk, hk2⟩ := List.getElem_of_mem ((h3 x).2 k1)
  have hk' : k < v.atoms[p].neighbors.length := h4.length_eq ▸ hk
  have := (List.forall₂_iff_get.1 h4).2 k hk' hk
  simp only [List.get_eq_getElem] at this
  obtain ⟨-, -, m3⟩ := this
  rw [hk2, hw] at m3
  have hstep : ∀ st, countAtom D st v.atoms[p] = none := by
    intro st
    unfold countAtom
    rw [foldlM_stuck v.atoms[p].neighbors (List.getElem_mem hk') (fun t => countDistance_none ?_ t)]
    · rfl
    · rw [m3]
      have : D.cutoff / D.dr = D.bins := by
        unfold DistributionSetup.dr
        field_simp
      rw [this, Nat.floor_natCast]
  unfold countStructure
  dsimp only
  rw [foldlM_stuck v.atoms (List.getElem_mem hp) hstep]
  rfl

/-! ### The loop -/

theorem Grows.trans {st st1 st2 : DistributionState} {us vs : List Structure} (h1 : Grows D st us st1) (h2 : Grows D st1 vs st2) :
    Grows D st (us ++ vs) st2 := by
  refine ⟨?_, ?_, ?_, ?_, ?_, ?_⟩
  · intro e he n hn
    rw [h2.rdf e he n hn, h1.rdf e he n hn, List.map_append, List.sum_append, add_assoc]
  · intro ha i hi e he n hn
    rw [h2.adf ha i hi e he n hn, h1.adf ha i hi e he n hn, List.map_append, List.sum_append, add_assoc]
  · rw [h2.count, h1.count, List.length_append, add_assoc]
  · rw [h2.periodic, h1.periodic, List.countP_append, add_assoc]
  · intro i hi
    rw [h2.density i hi, h1.density i hi, List.map_append, List.sum_append, add_assoc]
  · rw [h2.cells, h1.cells, h1.count, List.zipIdx_append, List.flatMap_append, List.append_assoc]

theorem Grows.refl (st : DistributionState) : Grows D st [] st := by
  refine ⟨?_, ?_, ?_, ?_, ?_, ?_⟩ <;> simp

/-- What is known of the structures in a file. -/
structure ReadOk (D : DistributionSetup) (u : Structure) : Prop where
  done : ReadDone D.elements u
  volume : u.isPeriodic = true → u.volume = |Matrix.det (Matrix.of u.box)|
  box : ProperBox u

theorem ReadOk.countable (h : ReadOk D u) : Countable' D u := by
  refine ⟨?_, h.done.counts, h.volume⟩
  intro a ha
  obtain ⟨i, hi, rfl⟩ := List.getElem_of_mem ha
  exact (h.done.atom i _ (List.getElem?_eq_getElem hi)).element

theorem distributionLoop_step {l : List Str} {L : List (List Str)} (hl : IsSection l)
    (h : (Structure.forReading m 0).readFromLines N m l = some u) (x : Structure) {rc : Structure}
    (hrc : (u.withPast x).calculateNeighborList srt D.cutoff false = some rc) (fuel : ℕ) (st : DistributionState) :
    distributionLoop N m srt D (fuel + 1) ((Structure.forReading m 0).withPast x) st (l :: L).flatten =
      (countStructure D st rc).bind fun st => distributionLoop N m srt D fuel ((Structure.forReading m 0).withPast rc) st L.flatten := by
  have hne : (l :: L).flatten ≠ [] := by
    obtain ⟨b, body, e, rfl, -⟩ := hl
    simp
  rw [distributionLoop, if_neg hne, List.flatten_cons, readFromFile_past, readFromFile_section hl, h]
  show ((u.withPast x).calculateNeighborList srt D.cutoff false).bind (fun v => (countStructure D st v).bind fun st =>
    distributionLoop N m srt D fuel (v.reset m.size) st L.flatten) = _
  rw [hrc]
  show (countStructure D st rc).bind _ = _
  rw [reset_start]

theorem distributionLoop_eq (hsrt : IsSort srt) (hb : 0 < D.bins) (hrc : 0 < D.cutoff) :
    ∀ (L : List (List Str)) (U : List Structure) (x : Structure) (st : DistributionState) (fuel : ℕ),
      L.flatten.length ≤ fuel → (∀ l ∈ L, IsSection l) → x.maxCutoffRadiusOverall = 0 →
      List.Forall₂ (fun l u => (Structure.forReading m 0).readFromLines N m l = some u) L U →
      (∀ u ∈ U, ReadOk D u) → (∀ u ∈ U, NoneAtCutoff u D.cutoff) → (D.angles = true → ∀ u ∈ U, AllApart u) → st.Empty D →
      ∃ st', distributionLoop N m srt D fuel ((Structure.forReading m 0).withPast x) st L.flatten = some st' ∧ Grows D st U st' := by
  intro L
  induction L with
  | nil =>
    intro U x st fuel _ _ _ hU _ _ _ _
    cases hU
    refine ⟨st, ?_, .refl st⟩
    cases fuel <;> rfl
  | cons l L ih =>
    intro U x st fuel hf hL hx hU hR hat hap h0
    cases hU with
    | cons h1 h2 =>
      rename_i u U
      have hlen : 1 ≤ l.length := by
        obtain ⟨b, body, e, rfl, -⟩ := hL l (by simp)
        simp
      rw [List.flatten_cons, List.length_append] at hf
      obtain ⟨fuel, rfl⟩ : ∃ k, fuel = k + 1 := ⟨fuel - 1, by omega⟩
      have hu := hR u List.mem_cons_self
      obtain ⟨v, k1, k2, k3⟩ := lists_of_read hsrt hu.done hu.box hx hrc.le
      obtain ⟨st1, c1, c2, c3⟩ := countStructure_spec k2 hu.countable hb hrc (hat u List.mem_cons_self)
        (fun ha => hap ha u List.mem_cons_self) h0
      obtain ⟨st2, d1, d2⟩ := ih U v st1 fuel (by omega) (fun l hl => hL l (by simp [hl])) k3 h2
        (fun u hu => hR u (by simp [hu])) (fun u hu => hat u (by simp [hu])) (fun ha u hu => hap ha u (by simp [hu])) c2
      refine ⟨st2, ?_, c3.trans d2⟩
      rw [distributionLoop_step (hL l (by simp)) h1 x k1, c1]
      exact d1

theorem distributionLoop_stuck (hsrt : IsSort srt) (hb : 0 < D.bins) (hrc : 0 < D.cutoff) :
    ∀ (L : List (List Str)) (U : List Structure) (x : Structure) (st : DistributionState) (fuel : ℕ),
      L.flatten.length ≤ fuel → (∀ l ∈ L, IsSection l) → x.maxCutoffRadiusOverall = 0 →
      List.Forall₂ (fun l u => (Structure.forReading m 0).readFromLines N m l = some u) L U →
      (∀ u ∈ U, ReadOk D u) → (∃ u ∈ U, ¬ NoneAtCutoff u D.cutoff) →
      distributionLoop N m srt D fuel ((Structure.forReading m 0).withPast x) st L.flatten = none := by
  intro L
  induction L with
  | nil =>
    intro U x st fuel _ _ _ hU _ hex
    cases hU
    obtain ⟨u, hu, -⟩ := hex
    cases hu
  | cons l L ih =>
    intro U x st fuel hf hL hx hU hR hex
    cases hU with
    | cons h1 h2 =>
      rename_i u U
      have hlen : 1 ≤ l.length := by
        obtain ⟨b, body, e, rfl, -⟩ := hL l (by simp)
        simp
      rw [List.flatten_cons, List.length_append] at hf
      obtain ⟨fuel, rfl⟩ : ∃ k, fuel = k + 1 := ⟨fuel - 1, by omega⟩
      have hu := hR u List.mem_cons_self
      obtain ⟨v, k1, k2, k3⟩ := lists_of_read hsrt hu.done hu.box hx hrc.le
      rw [distributionLoop_step (hL l (by simp)) h1 x k1]
      cases hc : countStructure D st v with
      | none => rfl
      | some st1 =>
        refine ih U v st1 fuel (by omega) (fun l hl => hL l (by simp [hl])) k3 h2 (fun u hu => hR u (by simp [hu])) ?_
        obtain ⟨w, hw, hn⟩ := hex
        rcases List.mem_cons.1 hw with rfl | hw
        · exfalso
          apply hn
          intro i j p y hy he
          rw [countStructure_stuck k2 hb hrc hy he] at hc
          cases hc
        · exact ⟨w, hw, hn⟩

end N2P2
