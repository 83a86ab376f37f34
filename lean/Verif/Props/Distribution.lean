import Verif.Lemma.DistributionLoop
import Verif.Props.Convert

/-! C107: distribution functions. -/

namespace N2P2

variable {N : NumberText} {m : EMap} {srt : List Neighbor → List Neighbor} {args : List Str} {L : List (List Str)}
  {U : List Structure} {rc : ℝ} {bins n : ℕ} {angles : Bool}

/-- What is given: names of elements, a cutoff radius and a number of intervals, and a file of structures. -/
structure DistributionInput (N : NumberText) (m : EMap) (args : List Str) (rc : ℝ) (bins : ℕ) (L : List (List Str))
    (U : List Structure) : Prop where
  names : GoodElements args
  map : ∃ n, EMap.empty.registerElements (joinWords args) = .ok (m, n)
  cutoff : 0 < rc
  bins : 0 < bins
  file : ∀ l ∈ L, IsSection l
  read : List.Forall₂ (fun l u => (Structure.forReading m 0).readFromLines N m l = some u) L U
  box : ∀ u ∈ U, ProperBox u

theorem DistributionInput.ok (h : DistributionInput N m args rc bins L U) :
    m.size = args.length ∧ ∀ u ∈ U, ReadOk ⟨rc, bins, angles, args.length⟩ u := by
  obtain ⟨n, hm⟩ := h.map
  obtain ⟨order, ho⟩ := ordered h.names hm
  refine ⟨ho.size, ?_⟩
  have hd := sections_done h.file h.read
  have hv : ∀ u ∈ U, u.isPeriodic = true → u.volume = |Matrix.det (Matrix.of u.box)| := by
    have := h.read
    clear hd h
    induction this with
    | nil => exact nofun
    | cons h1 _ ih =>
      intro u hu
      rcases List.mem_cons.1 hu with rfl | hu
      · exact readFromLines_volume h1
      · exact ih u hu
  intro u hu
  refine ⟨?_, hv u hu, h.box u hu⟩
  show ReadDone args.length u
  rw [← ho.size]
  exact hd u hu

theorem DistributionState.start_empty (D : DistributionSetup) : DistributionState.start.Empty D := ⟨fun _ _ _ _ => rfl, fun _ _ _ _ _ _ => rfl⟩

/-- What is written, in terms of the state after the loop. -/
theorem distribution_eq (hsrt : IsSort srt) (h : DistributionInput N m args rc bins L U) (hat : ∀ u ∈ U, NoneAtCutoff u rc)
    (hap : angles = true → ∀ u ∈ U, AllApart u) :
    ∃ st, Grows ⟨rc, bins, angles, args.length⟩ .start U st ∧
      distribution N srt rc bins angles args L.flatten = some
        ⟨(elementPairs args.length).map fun e => ("rdf_".toList ++ m.symbolOf e.1 ++ "_".toList ++ m.symbolOf e.2 ++ ".out".toList,
            rdfRows ⟨rc, bins, angles, args.length⟩ st e),
          (if angles then (List.range args.length).flatMap fun i => (elementPairs args.length).map fun e => (i, e)
            else []).map fun p => ("adf_".toList ++ m.symbolOf p.1 ++ "_".toList ++ m.symbolOf p.2.1 ++ "_".toList ++
              m.symbolOf p.2.2 ++ ".out".toList, adfRows ⟨rc, bins, angles, args.length⟩ st p.1 p.2),
          st.cells.map fun c => (c.1 + 1, c.2)⟩ := by
  obtain ⟨n, hm⟩ := h.map
  obtain ⟨hsize, hok⟩ := h.ok (angles := angles)
  obtain ⟨order, ho⟩ := ordered h.names hm
  set D : DistributionSetup := ⟨rc, bins, angles, args.length⟩ with hD
  obtain ⟨st, h1, h2⟩ := distributionLoop_eq (D := D) (N := N) (m := m) hsrt h.bins h.cutoff L U (Structure.forReading m 0) .start
    L.flatten.length le_rfl h.file rfl h.read hok hat hap (DistributionState.start_empty D)
  refine ⟨st, h2, ?_⟩
  have hsym : ∀ i < args.length, (m.symbol i).toOption = some (m.symbolOf i) := by
    intro i hi
    rw [← hsize] at hi
    obtain ⟨w, -, h5, -⟩ := ho.sane i hi
    unfold EMap.symbolOf
    rw [h5]
    rfl
  unfold distribution
  rw [if_neg h.names.1, hm]
  have hstart : (Structure.init.setElementMap m) = (Structure.forReading m 0).withPast (Structure.forReading m 0) := rfl
  show (distributionLoop N m srt D L.flatten.length (Structure.init.setElementMap m) .start L.flatten).bind _ = _
  rw [hstart, h1]
  show Option.bind (List.mapM _ _) _ = _
  rw [mapM_eq_map (g := fun e : ℕ × ℕ => ("rdf_".toList ++ m.symbolOf e.1 ++ "_".toList ++ m.symbolOf e.2 ++ ".out".toList,
            rdfRows D st e)) ?_]
  · show Option.bind (List.mapM _ _) _ = _
    rw [mapM_eq_map (g := fun p : ℕ × ℕ × ℕ => ("adf_".toList ++ m.symbolOf p.1 ++ "_".toList ++ m.symbolOf p.2.1 ++ "_".toList ++
              m.symbolOf p.2.2 ++ ".out".toList, adfRows D st p.1 p.2)) ?_]
    · rfl
    · intro p hp
      have hp' : p.1 < args.length ∧ p.2 ∈ elementPairs args.length := by
        by_cases ha : angles = true
        · rw [if_pos ha] at hp
          obtain ⟨i, hi, hp⟩ := List.mem_flatMap.1 hp
          obtain ⟨e, he, rfl⟩ := List.mem_map.1 hp
          exact ⟨List.mem_range.1 hi, he⟩
        · rw [if_neg ha] at hp
          cases hp
      obtain ⟨g0, he⟩ := hp'
      obtain ⟨g1, g2⟩ := mem_elementPairs.1 he
      unfold adfName
      rw [hsym p.1 g0, hsym p.2.1 (lt_of_le_of_lt g1 g2), hsym p.2.2 g2]
      simp
      rfl
  · intro e he
    obtain ⟨g1, g2⟩ := mem_elementPairs.1 he
    unfold rdfName
    rw [hsym e.1 (lt_of_le_of_lt g1 g2), hsym e.2 g2]
    simp
    rfl

theorem largest_spec (v : ℕ → ℝ) (n : ℕ) : (∃ k ≤ n, largest v n = v k) ∧ ∀ k ≤ n, v k ≤ largest v n := by
  induction n with
  | zero => exact ⟨⟨0, le_rfl, rfl⟩, fun k hk => by rw [Nat.le_zero.1 hk]; exact le_rfl⟩
  | succ n ih =>
    obtain ⟨⟨k, hk, e⟩, hle⟩ := ih
    refine ⟨?_, ?_⟩
    · rcases le_total (largest v n) (v (n + 1)) with h | h
      · exact ⟨n + 1, le_rfl, max_eq_right h⟩
      · exact ⟨k, by omega, (max_eq_left h).trans e⟩
    · intro j hj
      rcases Nat.lt_or_ge j (n + 1) with h | h
      · exact (hle j (by omega)).trans (le_max_left _ _)
      · obtain rfl : j = n + 1 := by omega
        exact le_max_right _ _

/-- The lines, from the sums `v`. -/
theorem isDistribution_rows {v : ℕ → ℝ} {c : ℕ} {width : ℝ} {cn : ℕ → Option ℝ} {f : ℕ → ℝ → ℝ → ℝ} (hb : 0 < bins) (hc : 0 < c)
    (hv : ∀ n < bins, v n / c = f n ((n : ℝ) * (width / bins)) (((n : ℝ) + 1) * (width / bins))) :
    IsDistribution ((List.range bins).map fun n : ℕ => (⟨(n : ℝ) * (width / bins), ((n : ℝ) + 1) * (width / bins), v n / c,
      valueOfMaximum v bins n, cn n⟩ : DistributionRow)) width bins f := by
  have hcr : (0 : ℝ) < c := by exact_mod_cast hc
  refine ⟨by simp, ?_, ?_⟩
  · intro n r hr
    rw [List.getElem?_map] at hr
    obtain ⟨k, hk, rfl⟩ := Option.map_eq_some_iff.1 hr
    obtain ⟨h1, h2⟩ := List.getElem?_eq_some_iff.1 hk
    rw [List.getElem_range] at h2
    subst h2
    exact ⟨rfl, rfl, hv n (by simpa using h1)⟩
  · rintro M hM ⟨r0, h1, h2⟩ h3 r hr
    obtain ⟨k0, hk0, rfl⟩ := List.mem_map.1 h1
    obtain ⟨k, hk, rfl⟩ := List.mem_map.1 hr
    dsimp only at h2 ⊢
    obtain ⟨⟨q, hq, e⟩, hle⟩ := largest_spec v (bins - 1)
    have hk0' := List.mem_range.1 hk0
    have h4 : largest v (bins - 1) / c = M := by
      apply le_antisymm
      · rw [e]
        exact h3 _ (List.mem_map.2 ⟨q, List.mem_range.2 (by omega), rfl⟩)
      · rw [← h2]
        exact div_le_div_of_nonneg_right (hle k0 (by omega)) hcr.le
    have h5 : largest v (bins - 1) ≠ 0 := by
      intro h0
      rw [h0, zero_div] at h4
      exact hM h4.symm
    unfold valueOfMaximum
    rw [if_neg h5, ← h4]
    congr 1
    field_simp

theorem mem_symbol (h : DistributionInput N m args rc bins L U) {i : ℕ} (hi : i < args.length) :
    m.symbol i = .ok (m.symbolOf i) := by
  obtain ⟨n, hm⟩ := h.map
  obtain ⟨order, ho⟩ := ordered h.names hm
  rw [← ho.size] at hi
  obtain ⟨w, -, h5, -⟩ := ho.sane i hi
  unfold EMap.symbolOf
  rw [h5]
  rfl

/-- C107: `nnp-dist` writes one file for each pair of elements, with the radial distribution function: for each interval of
distances the mean over all structures of the number of pairs of atoms (periodic images included), divided by the volume of the
shell and, for periodic structures, by the number for independent atoms. Partial: no distance may be equal to the cutoff radius
(`C107_crash`). -/
theorem C107_rdf_partial (hsrt : IsSort srt) (h : DistributionInput N m args rc bins L U) (hU : U ≠ [])
    (hat : ∀ u ∈ U, NoneAtCutoff u rc) (hap : angles = true → ∀ u ∈ U, AllApart u) :
    ∃ files, distribution N srt rc bins angles args L.flatten = some files ∧
      (∀ i j, i ≤ j → j < args.length → ∃ f ∈ files.rdf, IsRdfFile m U rc bins i j f) ∧
      (∀ f ∈ files.rdf, ∃ i j, i ≤ j ∧ j < args.length ∧ IsRdfFile m U rc bins i j f) ∧
      2 * files.rdf.length = args.length * (args.length + 1) := by
  obtain ⟨st, hg, e⟩ := distribution_eq (N := N) hsrt h hat hap
  have hfile : ∀ i j, i ≤ j → j < args.length → IsRdfFile m U rc bins i j
      ("rdf_".toList ++ m.symbolOf i ++ "_".toList ++ m.symbolOf j ++ ".out".toList,
        rdfRows ⟨rc, bins, angles, args.length⟩ st (i, j)) := by
    intro i j hij hj
    refine ⟨⟨_, _, mem_symbol h (lt_of_le_of_lt hij hj), mem_symbol h hj, rfl⟩, ?_⟩
    have hc : st.count = U.length := by rw [hg.count]; exact Nat.zero_add _
    refine isDistribution_rows h.bins (hc ▸ List.length_pos_iff.2 hU) ?_
    intro n hn
    rw [hg.rdf (i, j) (mem_elementPairs.2 ⟨hij, hj⟩) n hn, hc]
    show (0 + _) / _ = _
    rw [zero_add]
    rfl
  refine ⟨_, e, ?_, ?_, ?_⟩
  · intro i j hij hj
    exact ⟨_, List.mem_map.2 ⟨(i, j), mem_elementPairs.2 ⟨hij, hj⟩, rfl⟩, hfile i j hij hj⟩
  · intro f hf
    obtain ⟨⟨i, j⟩, he, rfl⟩ := List.mem_map.1 hf
    obtain ⟨g1, g2⟩ := mem_elementPairs.1 he
    exact ⟨i, j, g1, g2, hfile i j g1 g2⟩
  · rw [List.length_map, length_elementPairs]

/-- C107: with the third argument, `nnp-dist` also writes one file for each element in the middle and each pair of other elements, with
the distribution function of the angles: for each interval of angles the mean over all structures of the fraction of angles in it,
divided by the length of the interval. Partial as above; and no two atoms may be at the same place. -/
theorem C107_adf_partial (hsrt : IsSort srt) (h : DistributionInput N m args rc bins L U) (hU : U ≠ [])
    (hat : ∀ u ∈ U, NoneAtCutoff u rc) (hap : ∀ u ∈ U, AllApart u) :
    ∃ files, distribution N srt rc bins true args L.flatten = some files ∧
      (∀ i j k, i < args.length → j ≤ k → k < args.length → ∃ f ∈ files.adf, IsAdfFile m U rc bins i j k f) ∧
      (∀ f ∈ files.adf, ∃ i j k, i < args.length ∧ j ≤ k ∧ k < args.length ∧ IsAdfFile m U rc bins i j k f) ∧
      2 * files.adf.length = args.length * (args.length * (args.length + 1)) := by
  obtain ⟨st, hg, e⟩ := distribution_eq (N := N) (angles := true) hsrt h hat fun _ => hap
  have hfile : ∀ i j k, i < args.length → j ≤ k → k < args.length → IsAdfFile m U rc bins i j k
      ("adf_".toList ++ m.symbolOf i ++ "_".toList ++ m.symbolOf j ++ "_".toList ++ m.symbolOf k ++ ".out".toList,
        adfRows ⟨rc, bins, true, args.length⟩ st i (j, k)) := by
    intro i j k hi hjk hk
    refine ⟨⟨_, _, _, mem_symbol h hi, mem_symbol h (lt_of_le_of_lt hjk hk), mem_symbol h hk, rfl⟩, ?_⟩
    have hc : st.count = U.length := by rw [hg.count]; exact Nat.zero_add _
    refine isDistribution_rows (width := 180) h.bins (hc ▸ List.length_pos_iff.2 hU) ?_
    intro n hn
    rw [hg.adf rfl i hi (j, k) (mem_elementPairs.2 ⟨hjk, hk⟩) n hn, hc]
    show (0 + _) / _ = _
    rw [zero_add]
    rfl
  refine ⟨_, e, ?_, ?_, ?_⟩
  · intro i j k hi hjk hk
    refine ⟨_, List.mem_map.2 ⟨(i, j, k), ?_, rfl⟩, hfile i j k hi hjk hk⟩
    rw [if_pos rfl]
    exact List.mem_flatMap.2 ⟨i, List.mem_range.2 hi, List.mem_map.2 ⟨(j, k), mem_elementPairs.2 ⟨hjk, hk⟩, rfl⟩⟩
  · intro f hf
    obtain ⟨⟨i, j, k⟩, he, rfl⟩ := List.mem_map.1 hf
    rw [if_pos rfl] at he
    obtain ⟨i', hi, he⟩ := List.mem_flatMap.1 he
    obtain ⟨e', he', he⟩ := List.mem_map.1 he
    cases he
    obtain ⟨g1, g2⟩ := mem_elementPairs.1 he'
    exact ⟨i, j, k, List.mem_range.1 hi, g1, g2, hfile i j k (List.mem_range.1 hi) g1 g2⟩
  · rw [List.length_map, if_pos rfl, List.length_flatMap]
    simp only [List.length_map, List.map_const', List.sum_replicate, List.length_range, smul_eq_mul]
    rw [← length_elementPairs]
    ring

/-- C107: a distance equal to the cutoff radius, in any structure: the neighbour list contains the pair, there is no interval for it,
and the program ends without files. -/
theorem C107_crash (hsrt : IsSort srt) (h : DistributionInput N m args rc bins L U) (angles : Bool) {u : Structure} (hu : u ∈ U)
    {i j : ℕ} {p : ℕ × ℕ × (Fin 3 → ℤ)} {v : Vec3} (hb : IsBond u i j p v) (hv : len v = rc) :
    distribution N srt rc bins angles args L.flatten = none := by
  obtain ⟨n, hm⟩ := h.map
  obtain ⟨hsize, hok⟩ := h.ok (angles := angles)
  unfold distribution
  rw [if_neg h.names.1, hm]
  have hstart : (Structure.init.setElementMap m) = (Structure.forReading m 0).withPast (Structure.forReading m 0) := rfl
  show (distributionLoop N m srt ⟨rc, bins, angles, args.length⟩ L.flatten.length (Structure.init.setElementMap m) .start
    L.flatten).bind _ = _
  rw [hstart, distributionLoop_stuck hsrt h.bins h.cutoff L U _ .start L.flatten.length le_rfl h.file rfl h.read hok
    ⟨u, hu, fun hn => hn i j p v hb hv⟩]
  rfl

/-- C107: the file with lengths of box vectors has one line for each periodic structure, with its number in the data set. -/
theorem C107_cells (hsrt : IsSort srt) (h : DistributionInput N m args rc bins L U) (hat : ∀ u ∈ U, NoneAtCutoff u rc)
    (hap : angles = true → ∀ u ∈ U, AllApart u) :
    ∃ files, distribution N srt rc bins angles args L.flatten = some files ∧
      files.cells = (U.zipIdx 1).filterMap fun p =>
        if p.1.isPeriodic then some (p.2, len (p.1.box 0), len (p.1.box 1), len (p.1.box 2)) else none := by
  obtain ⟨st, hg, e⟩ := distribution_eq (N := N) hsrt h hat hap
  refine ⟨_, e, ?_⟩
  show st.cells.map _ = _
  rw [hg.cells]
  show List.map _ ([] ++ (U.zipIdx 0).flatMap _) = _
  rw [List.nil_append, show (1 : ℕ) = 0 + 1 from rfl, List.zipIdx_succ]
  generalize U.zipIdx 0 = T
  induction T with
  | nil => rfl
  | cons t T ih =>
    rw [List.flatMap_cons, List.map_append, ih, List.map_cons, List.filterMap_cons]
    by_cases hp : t.1.isPeriodic = true
    · simp [hp]
    · simp [hp]

/-- C107: what is counted is finite. -/
theorem C107_finite {l : List Str} (hl : IsSection l) {u : Structure} (hu : (Structure.forReading m 0).readFromLines N m l = some u)
    (hbox : ProperBox u) (rc : ℝ) (i j k : ℕ) (lo : ℝ) (P : ℝ → Prop) :
    (bondsIn u i j lo rc).Finite ∧ (anglesWith u rc i j k P).Finite := by
  obtain ⟨srt, hsrt⟩ := exists_isSort
  obtain ⟨v, -, h2, -⟩ := lists_of_read hsrt (section_done hl hu) hbox (x := Structure.forReading m 0) rfl (le_max_right rc 0)
  obtain ⟨imgs, hnd, hmem, -⟩ := h2.sums
  constructor
  · refine Set.Finite.subset (List.finite_toSet ((List.range u.atoms.length).flatMap fun p => (imgs p).map fun x => (p, x))) ?_
    rintro ⟨p, x⟩ ⟨w, h1, -, h3⟩
    obtain ⟨k1, k2, k3, rfl⟩ := isBond_image.1 ⟨h1, h3.le.trans (le_max_left rc 0)⟩
    have hp := (isImage_unfold.1 k1).1
    exact List.mem_flatMap.2 ⟨p, List.mem_range.2 hp, List.mem_map.2 ⟨x, (hmem p hp x).2 k1, rfl⟩⟩
  · have hsub : anglesWith u rc i j k P ⊆ anglesWith u (max rc 0) i j k P := by
      rintro t ⟨h1, v, w, g1, g2, g3, g4, g5⟩
      exact ⟨h1, v, w, g1, g2, g3.trans (le_max_left rc 0), g4.trans (le_max_left rc 0), g5⟩
    refine Set.Finite.subset ?_ hsub
    rw [← angleList_set hmem]
    exact Set.Finite.subset (List.finite_toSet (angleList u.atoms.length imgs)) fun t ht => ht.1

open Classical in
/-- C107: the sum over the lines of a file with angles of value times length of interval is the fraction of the structures which have
such angles (the header promises 1). -/
theorem C107_adf_integral (h : DistributionInput N m args rc bins L U) (i j k : ℕ) (f : Str × List DistributionRow)
    (hf : IsAdfFile m U rc bins i j k f) :
    (f.2.map fun r => r.value * (r.high - r.low)).sum =
      ((U.countP fun u => (anglesWith u rc i j k fun _ => True).Nonempty) : ℝ) / U.length := by
  obtain ⟨srt, hsrt⟩ := exists_isSort
  obtain ⟨-, hok⟩ := h.ok (angles := true)
  have hbr : (0 : ℝ) < bins := by exact_mod_cast h.bins
  have hb180 : (180 / bins : ℝ) ≠ 0 := by positivity
  have hone : ∀ u ∈ U, ∑ n ∈ Finset.range bins, angleDistribution u rc bins i j k n * (180 / bins) =
      if (anglesWith u rc i j k fun _ => True).Nonempty then 1 else 0 := by
    intro u hu
    obtain ⟨v, -, h2, -⟩ := lists_of_read hsrt (hok u hu).done (hok u hu).box (x := Structure.forReading m 0) rfl h.cutoff.le
    have hfin : (anglesWith u rc i j k fun _ => True).Finite := by
      obtain ⟨imgs, hnd, hmem, -⟩ := h2.sums
      rw [← angleList_set hmem]
      exact Set.Finite.subset (List.finite_toSet (angleList u.atoms.length imgs)) fun t ht => ht.1
    have hterm : ∀ n, angleDistribution u rc bins i j k n * (180 / bins) =
        ((anglesWith u rc i j k (InAngleBin bins n)).ncard : ℝ) / (anglesWith u rc i j k fun _ => True).ncard := by
      intro n
      unfold angleDistribution
      rw [div_mul_cancel₀ _ hb180]
    rw [Finset.sum_congr rfl fun n _ => hterm n, ← Finset.sum_div, angles_total h2 h.bins]
    by_cases hne : (anglesWith u rc i j k fun _ => True).Nonempty
    · rw [if_pos hne, div_self]
      exact_mod_cast ((Set.ncard_pos hfin).2 hne).ne'
    · rw [if_neg hne, Set.not_nonempty_iff_eq_empty.1 hne]
      simp
  have hrows : f.2.map (fun r => r.value * (r.high - r.low)) =
      (List.range bins).map fun n => meanOver U fun u => angleDistribution u rc bins i j k n * (180 / bins) := by
    apply List.ext_getElem?
    intro n
    rw [List.getElem?_map, List.getElem?_map]
    by_cases hn : n < bins
    · have hn' : n < f.2.length := by rw [hf.2.length]; exact hn
      obtain ⟨h1, h2, h3⟩ := hf.2.row n _ (List.getElem?_eq_getElem hn')
      rw [List.getElem?_eq_getElem hn', List.getElem?_range hn, Option.map_some, Option.map_some, h3, h1, h2]
      congr 1
      unfold meanOver
      rw [List.sum_map_mul_right]
      ring
    · rw [List.getElem?_eq_none (by rw [hf.2.length]; omega), List.getElem?_eq_none (by simp; omega)]
      rfl
  rw [hrows]
  have hsum : ∀ g : ℕ → ℝ, ((List.range bins).map g).sum = ∑ n ∈ Finset.range bins, g n := by
    intro g
    clear * -
    induction bins with
    | zero => rfl
    | succ b ih => rw [List.range_succ, List.map_append, List.sum_append, ih, Finset.sum_range_succ, List.map_singleton, List.sum_singleton]
  rw [hsum]
  unfold meanOver
  rw [← Finset.sum_div]
  congr 1
  clear hrows hsum hf hok
  replace h := h.cutoff
  induction U with
  | nil => simp
  | cons u U ih =>
    simp only [List.map_cons, List.sum_cons, Finset.sum_add_distrib]
    rw [ih fun w hw => hone w (List.mem_cons_of_mem _ hw), hone u List.mem_cons_self, List.countP_cons]
    split_ifs with h1 h2 h2
    · push_cast; ring
    · exact absurd (decide_eq_true h1) h2
    · exact absurd (of_decide_eq_true h2) h1
    · push_cast; ring

/-- The coordination number of line `n` (only written if all structures are periodic): a sum over the intervals, with mean density and
mean distribution function. -/
noncomputable def tabulatedNeighbors (U : List Structure) (d : ℝ) (i j n : ℕ) : ℝ :=
  ∑ q ∈ Finset.range n, 4 * Real.pi * ((((q : ℝ) + 1) + 1 / 2) * d) ^ 2 * d * meanOver U (numberDensity j) *
    ((meanOver U (fun u => pairDistribution u i j (q * d) ((q + 1) * d)) +
      meanOver U (fun u => pairDistribution u i j ((q + 1) * d) ((q + 1 + 1) * d))) / 2)

/-- C107: coordination numbers. -/
theorem C107_coordination (hsrt : IsSort srt) (h : DistributionInput N m args rc bins L U) (hU : U ≠ [])
    (hat : ∀ u ∈ U, NoneAtCutoff u rc) (hap : angles = true → ∀ u ∈ U, AllApart u) :
    ∃ files, distribution N srt rc bins angles args L.flatten = some files ∧
      ∀ i j, i ≤ j → j < args.length → ∃ f ∈ files.rdf, IsRdfFile m U rc bins i j f ∧
        ∀ (n : ℕ) (r : DistributionRow), f.2[n]? = some r →
          r.cn = if ∀ u ∈ U, u.isPeriodic = true then some (tabulatedNeighbors U (rc / bins) i j n) else none := by
  obtain ⟨st, hg, e⟩ := distribution_eq (N := N) hsrt h hat hap
  have hc : st.count = U.length := by rw [hg.count]; exact Nat.zero_add _
  have hper : st.periodic = U.countP fun u => u.isPeriodic := by rw [hg.periodic]; exact Nat.zero_add _
  have hlen : (0 : ℝ) < U.length := by exact_mod_cast List.length_pos_iff.2 hU
  obtain ⟨files, e', h1, -, -⟩ := C107_rdf_partial hsrt h hU hat hap
  rw [e] at e'
  cases e'
  refine ⟨_, e, ?_⟩
  intro i j hij hj
  have hv : ∀ n < bins, st.rdf (i, j) n = (U.map fun u => pairDistribution u i j (n * (rc / bins)) ((n + 1) * (rc / bins))).sum := by
    intro n hn
    rw [hg.rdf (i, j) (mem_elementPairs.2 ⟨hij, hj⟩) n hn]
    exact zero_add _
  refine ⟨("rdf_".toList ++ m.symbolOf i ++ "_".toList ++ m.symbolOf j ++ ".out".toList,
        rdfRows ⟨rc, bins, angles, args.length⟩ st (i, j)), List.mem_map.2 ⟨(i, j), mem_elementPairs.2 ⟨hij, hj⟩, rfl⟩, ?_, ?_⟩
  · refine ⟨⟨_, _, mem_symbol h (lt_of_le_of_lt hij hj), mem_symbol h hj, rfl⟩, ?_⟩
    refine isDistribution_rows h.bins (hc ▸ List.length_pos_iff.2 hU) ?_
    intro n hn
    rw [hv n hn, hc]
    rfl
  · intro n r hr
    replace hr : ((List.range bins).map _)[n]? = some r := hr
    rw [List.getElem?_map] at hr
    obtain ⟨k, hk, rfl⟩ := Option.map_eq_some_iff.1 hr
    obtain ⟨g1, g2⟩ := List.getElem?_eq_some_iff.1 hk
    rw [List.getElem_range] at g2
    subst g2
    have hn : n < bins := by simpa using g1
    show (if st.count = st.periodic then some (coordination ⟨rc, bins, angles, args.length⟩ st.count (st.density j) (st.rdf (i, j)) n)
      else none) = _
    have hiff : st.count = st.periodic ↔ ∀ u ∈ U, u.isPeriodic = true := by
      rw [hc, hper, eq_comm, List.countP_eq_length]
    by_cases hall : ∀ u ∈ U, u.isPeriodic = true
    · rw [if_pos (hiff.2 hall), if_pos hall]
      congr 1
      have hdens : st.density j = (U.map (numberDensity j)).sum := by
        rw [hg.density j hj]
        show 0 + _ = _
        rw [zero_add]
        congr 1
        apply List.map_congr_left
        intro u hu
        rw [if_pos (hall u hu)]
        rfl
      clear hk g1 hr
      induction n with
      | zero => rfl
      | succ n ih =>
        rw [coordination, ih (by omega), tabulatedNeighbors, tabulatedNeighbors, Finset.sum_range_succ]
        congr 1
        rw [hdens, hv n (by omega), hv (n + 1) hn, hc]
        unfold meanOver DistributionSetup.dr
        dsimp only
        push_cast
        field_simp
    · rw [if_neg fun hh => hall (hiff.1 hh), if_neg hall]

/-- C107: for one periodic structure the coordination number in line `n` is made from the numbers `b q` of pairs in the intervals as
`∑ (b (q + 1) + b q * (r (q + 1) / r q)²) / 2`, where `r` are the centres, divided by the number of atoms. -/
theorem C107_coordination_counts {u : Structure} (hp : u.isPeriodic = true) (hbox : ProperBox u) {i j : ℕ} (hi : u.elementCount i ≠ 0)
    (hj : u.elementCount j ≠ 0) {d : ℝ} (hd : 0 < d) (n : ℕ) :
    tabulatedNeighbors [u] d i j n = (∑ q ∈ Finset.range n,
      (((bondsIn u i j ((q + 1) * d) ((q + 1 + 1) * d)).ncard : ℝ) + (bondsIn u i j (q * d) ((q + 1) * d)).ncard *
        (((q + 1) + 1 / 2) / ((q : ℝ) + 1 / 2)) ^ 2) / 2) / u.elementCount i := by
  have hV : |Matrix.det (Matrix.of u.box)| ≠ 0 := by
    rw [abs_ne_zero]
    rw [det_eq]
    exact (nonSingular_iff _).1 (hbox hp)
  have h1 : (u.elementCount i : ℝ) ≠ 0 := by exact_mod_cast hi
  have h2 : (u.elementCount j : ℝ) ≠ 0 := by exact_mod_cast hj
  have h3 := Real.pi_ne_zero
  unfold tabulatedNeighbors meanOver
  rw [Finset.sum_div]
  refine Finset.sum_congr rfl fun q _ => ?_
  have hq : (0 : ℝ) ≤ q := Nat.cast_nonneg q
  simp only [List.map_singleton, List.sum_singleton, List.length_singleton, Nat.cast_one, div_one]
  unfold pairDistribution numberDensity
  rw [if_pos hp]
  generalize ((bondsIn u i j (((q : ℝ) + 1) * d) ((q + 1 + 1) * d)).ncard : ℝ) = b1
  generalize ((bondsIn u i j ((q : ℝ) * d) ((q + 1) * d)).ncard : ℝ) = b0
  generalize |Matrix.det (Matrix.of u.box)| = V at hV ⊢
  have e0 : ((q : ℝ) * d + (q + 1) * d) / 2 = (q + 1 / 2) * d := by ring
  have e1 : (((q : ℝ) + 1) * d + (q + 1 + 1) * d) / 2 = (q + 1 + 1 / 2) * d := by ring
  have e2 : ((q : ℝ) + 1) * d - q * d = d := by ring
  have e3 : ((q : ℝ) + 1 + 1) * d - (q + 1) * d = d := by ring
  rw [e0, e1, e2, e3]
  have p0 : (q : ℝ) + 1 / 2 ≠ 0 := by positivity
  have p1 : (q : ℝ) + 1 + 1 / 2 ≠ 0 := by positivity
  generalize (q : ℝ) + 1 / 2 = r0 at p0 ⊢
  generalize (q : ℝ) + 1 + 1 / 2 = r1 at p1 ⊢
  have hd' := hd.ne'
  field_simp
  ring

/-! ### Example -/

/-- Positions in the file. -/
def exSite : ℕ → Fin 3 → ℤ
  | 0 => ![1, 2, 3]
  | 1 => ![2, 2, 3]
  | _ => ![9, 2, 3]

theorem exFiled_site (pbc : Bool) (p : ℕ) (hp : p < 3) : ∃ a, (exFiled pbc 0).atoms[p]? = some a ∧ a.element = (if p = 0 then 1 else 0) ∧
    ∀ t, exText.roundedVec a.r t = exSite p t := by
  have num : ∀ k : ℕ, k ≤ 9 → exText.rounded (k : ℝ) = k := fun k hk => exText_rounded k hk
  have n1 := num 1 (by norm_num)
  have n2 := num 2 (by norm_num)
  have n3 := num 3 (by norm_num)
  have n9 := num 9 (by norm_num)
  push_cast at n1 n2 n3 n9
  match p, hp with
  | 0, _ =>
    refine ⟨_, rfl, rfl, fun t => ?_⟩
    fin_cases t
    · exact n1.trans (by simp [exSite])
    · exact n2.trans (by simp [exSite])
    · exact n3.trans (by simp [exSite])
  | 1, _ =>
    refine ⟨_, rfl, rfl, fun t => ?_⟩
    fin_cases t
    · exact n2.trans (by simp [exSite])
    · exact n2.trans (by simp [exSite])
    · exact n3.trans (by simp [exSite])
  | 2, _ =>
    refine ⟨_, rfl, rfl, fun t => ?_⟩
    fin_cases t
    · exact n9.trans (by simp [exSite])
    · exact n2.trans (by simp [exSite])
    · exact n3.trans (by simp [exSite])

theorem small_squares {a b d : ℤ} (h : a ^ 2 + b ^ 2 + d ^ 2 < 2) : (-1 ≤ a ∧ a ≤ 1) ∧ (-1 ≤ b ∧ b ≤ 1) ∧ (-1 ≤ d ∧ d ≤ 1) := by
  have h1 := sq_nonneg a
  have h2 := sq_nonneg b
  have h3 := sq_nonneg d
  exact ⟨abs_le.1 ((sq_le_one_iff_abs_le_one a).1 (by omega)), abs_le.1 ((sq_le_one_iff_abs_le_one b).1 (by omega)),
    abs_le.1 ((sq_le_one_iff_abs_le_one d).1 (by omega))⟩

theorem one_of_sq {x : ℝ} (h0 : 0 ≤ x) (h : x ^ 2 = 1) : x = 1 := by
  rcases (sq_eq_sq_iff_eq_or_eq_neg (a := x) (b := 1)).1 (by rw [h, one_pow]) with h | h
  · exact h
  · linarith

/-- A file with a box of water or a molecule, and what is read from it. -/
theorem exDistribution (pbc : Bool) {rc : ℝ} (hrc : 0 < rc) {bins : ℕ} (hbins : 0 < bins) :
    ∃ (m : EMap) (l : List Str) (u : Structure) (c : ℕ → Fin 3 → ℤ),
    DistributionInput exText m ["O".toList, "H".toList] rc bins [l] [u] ∧ u.isPeriodic = pbc ∧
      u.atoms.length = 3 ∧ u.elementOf 0 = 1 ∧ u.elementOf 1 = 0 ∧ u.elementOf 2 = 0 ∧ (pbc = false → c = 0) ∧
      ∀ p < 3, ∀ q < 3, ∀ s, (pbc = true ∨ s = 0) →
        ∀ t, u.bond (p, q, s) t = exSite p t - exSite q t + 8 * (c p t - c q t + s t) := by
  obtain ⟨m, h1, h2, h3⟩ := exArgs_map
  obtain ⟨order, ho⟩ := ordered exArgs h1
  have hfil : (exFiled pbc 0).Filable exText m true := by
    cases pbc
    · exact h2 0
    · exact h3
  obtain ⟨l, g1, g2, g3, g4⟩ := written_lines exText_sane ho.sane (exFiled pbc 0) true hfil
  obtain ⟨u, e1, e2⟩ := g4 0
  have hbox : pbc = true → u.box = cube 8 := fun hp => (e2.box hp).trans (exFiled_box _ _)
  have hlen : u.atoms.length = 3 := e2.length
  have hat : ∀ p < 3, ∃ n : Fin 3 → ℤ, u.elementOf p = (if p = 0 then 1 else 0) ∧ (pbc = false → n = 0) ∧
      ∀ t, u.position p t = exSite p t + 8 * n t := by
    intro p hp
    obtain ⟨a, ha, hel, hr⟩ := exFiled_site pbc p hp
    have hg := List.getElem?_eq_getElem (l := u.atoms) (by omega : p < u.atoms.length)
    have hc := e2.atom p _ _ ha hg
    have hele : u.elementOf p = (if p = 0 then 1 else 0) := by
      simp only [Structure.elementOf, hg]
      exact hc.element.trans hel
    by_cases hpbc : pbc = true
    · obtain ⟨-, n, hn⟩ := hc.wrapped hpbc
      refine ⟨n, hele, fun h => absurd (h.symm.trans hpbc) (by decide), ?_⟩
      intro t
      simp only [Structure.position, hg]
      refine (congrFun hn t).trans ?_
      rw [Pi.add_apply, hr, exFiled_box]
      congr 1
      fin_cases t <;> simp [shift, cube, Fin.sum_univ_three] <;> ring
    · have hn := hc.free (Bool.not_eq_true _ ▸ hpbc)
      refine ⟨0, hele, fun _ => rfl, ?_⟩
      intro t
      simp only [Structure.position, hg]
      refine (congrFun hn t).trans ?_
      rw [hr]
      simp
  choose! c hc1 hc0 hc2 using hat
  refine ⟨m, l, u, fun p => if p < 3 then c p else 0, ⟨exArgs, ⟨2, h1⟩, hrc, hbins, ?_, .cons e1 .nil, ?_⟩, e2.periodic, hlen,
    hc1 0 (by norm_num), hc1 1 (by norm_num), hc1 2 (by norm_num), ?_, ?_⟩
  · intro x hx
    rw [List.mem_singleton.1 hx]
    exact g3
  · intro x hx hper
    rw [List.mem_singleton.1 hx] at hper ⊢
    rw [hbox (e2.periodic.symm.trans hper)]
    exact nonSingular_cube (by norm_num)
  · intro hpbc
    funext p
    show (if p < 3 then c p else 0) = 0
    split_ifs with hp
    · exact hc0 p hp hpbc
    · rfl
  · intro p hp q hq s hs t
    unfold Structure.bond
    rw [Pi.add_apply, Pi.sub_apply, hc2 p hp, hc2 q hq]
    have : shift u.box s t = 8 * s t := by
      rcases hs with hs | rfl
      · rw [hbox hs]
        fin_cases t <;> simp [shift, cube, Fin.sum_univ_three] <;> ring
      · simp [shift]
    dsimp only
    rw [this, if_pos hp, if_pos hq]
    ring

/-- Squares of distances are integers. -/
theorem exDistance {u : Structure} {c : ℕ → Fin 3 → ℤ} {p q : ℕ} {s : Fin 3 → ℤ}
    (h : ∀ t, u.bond (p, q, s) t = exSite p t - exSite q t + 8 * (c p t - c q t + s t)) :
    len (u.bond (p, q, s)) ^ 2 = ((∑ t, (exSite p t - exSite q t + 8 * (c p t - c q t + s t)) ^ 2 : ℤ) : ℝ) := by
  unfold len
  rw [Real.sq_sqrt (by positivity)]
  push_cast
  exact Finset.sum_congr rfl fun t _ => by rw [h t]

theorem exNoneAt {u : Structure} {c : ℕ → Fin 3 → ℤ} {pbc : Bool} (hper : u.isPeriodic = pbc) (hlen : u.atoms.length = 3)
    (h : ∀ p < 3, ∀ q < 3, ∀ s, (pbc = true ∨ s = 0) →
      ∀ t, u.bond (p, q, s) t = exSite p t - exSite q t + 8 * (c p t - c q t + s t)) {x : ℝ} (hx : ∀ z : ℤ, x ^ 2 ≠ z) :
    NoneAtCutoff u x := by
  rintro i j ⟨p, q, s⟩ v hb hv
  obtain ⟨h1, h2, -, -, h5, -, rfl⟩ := isBond_iff.1 hb
  have := exDistance (h p (hlen ▸ h1) q (hlen ▸ h2) s (hper ▸ h5))
  rw [hv] at this
  exact hx _ this

theorem not_int {x : ℝ} (a b : ℕ) (hb : 1 < b) (hc : a.Coprime b) (h : x * b = a) (z : ℤ) : x ≠ z := by
  rintro rfl
  have h1 : z * b = a := by exact_mod_cast h
  have h2 : (b : ℤ) ∣ a := ⟨z, by rw [← h1]; ring⟩
  have h3 := Int.natCast_dvd_natCast.1 h2
  have := Nat.Coprime.eq_one_of_dvd hc.symm h3
  omega

/-- The close pairs of hydrogen atoms. -/
theorem exBonds {u : Structure} {c : ℕ → Fin 3 → ℤ} (hper : u.isPeriodic = true) (hlen : u.atoms.length = 3) (h0 : u.elementOf 0 = 1)
    (h1 : u.elementOf 1 = 0) (h2 : u.elementOf 2 = 0)
    (h : ∀ p < 3, ∀ q < 3, ∀ s t, u.bond (p, q, s) t = exSite p t - exSite q t + 8 * (c p t - c q t + s t)) (lo : ℝ) {hi : ℝ}
    (hhi : hi ≤ 6 / 5) : (bondsIn u 0 0 lo hi).ncard = if lo ≤ 1 ∧ 1 < hi then 2 else 0 := by
  have key : ∀ p q s, p < 3 → q < 3 → u.elementOf p = 0 → u.elementOf q = 0 → (q, s) ≠ (p, (0 : Fin 3 → ℤ)) →
      len (u.bond (p, q, s)) < 6 / 5 → (len (u.bond (p, q, s)) = 1 ∧ ((p = 1 ∧ q = 2 ∧ s = ![1, 0, 0] - c 1 + c 2) ∨
        (p = 2 ∧ q = 1 ∧ s = -(![1, 0, 0] - c 1 + c 2)))) := by
    intro p q s hp hq ep eq hne hlt
    have hd := exDistance (h p hp q hq s)
    have hsq : len (u.bond (p, q, s)) ^ 2 < 2 := by nlinarith [len_nonneg (u.bond (p, q, s))]
    have hz : (∑ t, (exSite p t - exSite q t + 8 * (c p t - c q t + s t)) ^ 2 : ℤ) < 2 := by
      rw [hd] at hsq
      exact_mod_cast hsq
    rw [Fin.sum_univ_three] at hz hd
    obtain ⟨a1, a2, a3⟩ := small_squares hz
    have hlen1 : len (u.bond (p, q, s)) ^ 2 = 1 → len (u.bond (p, q, s)) = 1 := one_of_sq (len_nonneg _)
    have hp0 : p ≠ 0 := by
      rintro rfl
      rw [h0] at ep
      cases ep
    have hq0 : q ≠ 0 := by
      rintro rfl
      rw [h0] at eq
      cases eq
    match p, hp, hp0, q, hq, hq0 with
    | 1, _, _, 1, _, _ =>
      exfalso
      apply hne
      simp only [exSite, Matrix.cons_val_zero, Matrix.cons_val_one, Matrix.cons_val] at a1 a2 a3
      have : s = 0 := by
        funext t
        fin_cases t
        · show s 0 = 0; omega
        · show s 1 = 0; omega
        · show s 2 = 0; omega
      rw [this]
    | 2, _, _, 2, _, _ =>
      exfalso
      apply hne
      simp only [exSite, Matrix.cons_val_zero, Matrix.cons_val_one, Matrix.cons_val] at a1 a2 a3
      have : s = 0 := by
        funext t
        fin_cases t
        · show s 0 = 0; omega
        · show s 1 = 0; omega
        · show s 2 = 0; omega
      rw [this]
    | 1, _, _, 2, _, _ =>
      simp only [exSite, Matrix.cons_val_zero, Matrix.cons_val_one, Matrix.cons_val] at a1 a2 a3 hd
      have b0 : s 0 = 1 - c 1 0 + c 2 0 := by omega
      have b1 : s 1 = 0 - c 1 1 + c 2 1 := by omega
      have b2 : s 2 = 0 - c 1 2 + c 2 2 := by omega
      refine ⟨hlen1 ?_, .inl ⟨rfl, rfl, ?_⟩⟩
      · rw [hd, b0, b1, b2]
        push_cast
        ring
      · funext t
        fin_cases t
        · exact b0
        · exact b1
        · exact b2
    | 2, _, _, 1, _, _ =>
      simp only [exSite, Matrix.cons_val_zero, Matrix.cons_val_one, Matrix.cons_val] at a1 a2 a3 hd
      have b0 : s 0 = -(1 - c 1 0 + c 2 0) := by omega
      have b1 : s 1 = -(0 - c 1 1 + c 2 1) := by omega
      have b2 : s 2 = -(0 - c 1 2 + c 2 2) := by omega
      refine ⟨hlen1 ?_, .inr ⟨rfl, rfl, ?_⟩⟩
      · rw [hd, b0, b1, b2]
        push_cast
        ring
      · funext t
        fin_cases t
        · exact b0
        · exact b1
        · exact b2
  by_cases hc : lo ≤ 1 ∧ 1 < hi
  · rw [if_pos hc]
    have hset : bondsIn u 0 0 lo hi = {(1, 2, ![1, 0, 0] - c 1 + c 2), (2, 1, -(![1, 0, 0] - c 1 + c 2))} := by
      have hl1 : len (u.bond (1, 2, ![1, 0, 0] - c 1 + c 2)) = 1 := by
        have hd := exDistance (h 1 (by norm_num) 2 (by norm_num) (![1, 0, 0] - c 1 + c 2))
        rw [Fin.sum_univ_three] at hd
        simp only [exSite, Matrix.cons_val_zero, Matrix.cons_val_one, Matrix.cons_val, Pi.add_apply, Pi.sub_apply] at hd
        have : len (u.bond (1, 2, ![1, 0, 0] - c 1 + c 2)) ^ 2 = 1 := by
          rw [hd]
          push_cast
          ring
        exact one_of_sq (len_nonneg _) this
      ext ⟨p, q, s⟩
      constructor
      · rintro ⟨v, hb, g1, g2⟩
        obtain ⟨k1, k2, k3, k4, -, k6, rfl⟩ := isBond_iff.1 hb
        obtain ⟨-, ⟨rfl, rfl, rfl⟩ | ⟨rfl, rfl, rfl⟩⟩ := key p q s (hlen ▸ k1) (hlen ▸ k2) k3 k4 k6 (g2.trans_le hhi)
        · exact .inl rfl
        · exact .inr rfl
      · rintro (e | e)
        · cases e
          refine ⟨_, isBond_iff.2 ⟨by rw [hlen]; norm_num, by rw [hlen]; norm_num, h1, h2, .inl hper, ?_, rfl⟩, ?_, ?_⟩
          · intro e
            exact absurd (Prod.mk.inj e).1 (by norm_num)
          · rw [hl1]
            exact hc.1
          · rw [hl1]
            exact hc.2
        · cases e
          refine ⟨_, isBond_iff.2 ⟨by rw [hlen]; norm_num, by rw [hlen]; norm_num, h2, h1, .inl hper, ?_, rfl⟩, ?_, ?_⟩
          · intro e
            exact absurd (Prod.mk.inj e).1 (by norm_num)
          · rw [bond_reverse, len_neg, hl1]
            exact hc.1
          · rw [bond_reverse, len_neg, hl1]
            exact hc.2
    rw [hset, Set.ncard_pair]
    intro e
    exact absurd (Prod.mk.inj e).1 (by norm_num)
  · have hset : bondsIn u 0 0 lo hi = ∅ := by
      rw [Set.eq_empty_iff_forall_notMem]
      rintro ⟨p, q, s⟩ ⟨v, hb, g1, g2⟩
      obtain ⟨k1, k2, k3, k4, -, k6, rfl⟩ := isBond_iff.1 hb
      obtain ⟨k7, -⟩ := key p q s (hlen ▸ k1) (hlen ▸ k2) k3 k4 k6 (g2.trans_le hhi)
      rw [k7] at g1 g2
      exact hc ⟨g1, g2⟩
    rw [if_neg hc, hset, Set.ncard_empty]

/-- C107: the coordination number is not the mean number of neighbours: two hydrogen atoms in a box, one Å apart, have one neighbour
each up to 1.2 Å, and the last line of the file (up to 1.2 Å) says 1/2. -/
theorem C107_coordination_wrong (hsrt : IsSort srt) : ∃ (m : EMap) (l : List Str) (u : Structure) (files : DistributionFiles)
    (f : Str × List DistributionRow) (r : DistributionRow),
    DistributionInput exText m ["O".toList, "H".toList] (6 / 5) 3 [l] [u] ∧
      distribution exText srt (6 / 5) 3 false ["O".toList, "H".toList] l = some files ∧ f ∈ files.rdf ∧
      IsRdfFile m [u] (6 / 5) 3 0 0 f ∧ f.2[2]? = some r ∧ r.high = 6 / 5 ∧ meanNeighbors u 0 0 r.high = 1 ∧ r.cn = some (1 / 2) := by
  obtain ⟨m, l, u, c, h, hper, hlen, h0, h1, h2, -, hb⟩ := exDistribution true (rc := 6 / 5) (by norm_num) (bins := 3) (by norm_num)
  have hat : ∀ w ∈ [u], NoneAtCutoff w (6 / 5) := fun w hw => (List.mem_singleton.1 hw) ▸ exNoneAt hper hlen hb (not_int 36 25 (by norm_num) (by norm_num) (by norm_num))
  obtain ⟨files, e1, e2⟩ := C107_coordination (angles := false) hsrt h (by simp) hat nofun
  obtain ⟨f, hf1, hf2, hf3⟩ := e2 0 0 le_rfl (by norm_num)
  have hlt : 2 < f.2.length := by rw [hf2.2.length]; norm_num
  have hg : f.2[2]? = some f.2[2] := List.getElem?_eq_getElem hlt
  have hcn := hf3 2 _ hg
  obtain ⟨-, hhigh, -⟩ := hf2.2.row 2 _ hg
  have hhigh' : f.2[2].high = 6 / 5 := by
    rw [hhigh]
    norm_num
  have hcount : u.elementCount 0 = 2 := by
    match hu : u.atoms, hlen with
    | [a0, a1, a2], _ =>
      simp only [Structure.elementOf, hu] at h0 h1 h2
      simp only [Structure.elementCount, hu]
      simp at h0 h1 h2
      simp [h0, h1, h2]
  have hbonds := exBonds hper hlen h0 h1 h2 fun p hp q hq s t => hb p hp q hq s (.inl rfl) t
  refine ⟨m, l, u, files, f, f.2[2], h, ?_, hf1, hf2, hg, hhigh', ?_, ?_⟩
  · rw [← e1]
    simp
  · rw [hhigh']
    unfold meanNeighbors
    rw [hbonds 0 le_rfl, hcount, if_pos (by norm_num)]
    norm_num
  · rw [hcn, if_pos (by intro w hw; rw [List.mem_singleton.1 hw]; exact hper),
      C107_coordination_counts hper (h.box u (by simp)) (by rw [hcount]; norm_num) (by rw [hcount]; norm_num) (by norm_num),
      Finset.sum_range_succ, Finset.sum_range_succ, Finset.sum_range_zero, hcount]
    norm_num
    rw [hbonds _ (by norm_num), hbonds _ (by norm_num), hbonds _ (by norm_num)]
    norm_num

/-- The file of the box of water: three files, with 9 lines each. -/
example (hsrt : IsSort srt) : ∃ (m : EMap) (l : List Str) (u : Structure) (files : DistributionFiles),
    distribution exText srt (5 / 2) 9 false ["O".toList, "H".toList] l = some files ∧ files.rdf.length = 3 ∧
      (∃ f ∈ files.rdf, IsRdfFile m [u] (5 / 2) 9 0 1 f ∧ f.2.length = 9) ∧ u.atoms.length = 3 := by
  obtain ⟨m, l, u, c, h, hper, hlen, h0, h1, h2, -, hb⟩ := exDistribution true (rc := 5 / 2) (by norm_num) (bins := 9) (by norm_num)
  have hat : ∀ w ∈ [u], NoneAtCutoff w (5 / 2) := fun w hw =>
    (List.mem_singleton.1 hw) ▸ exNoneAt hper hlen hb (not_int 25 4 (by norm_num) (by norm_num) (by norm_num))
  obtain ⟨files, e1, e2, -, e4⟩ := C107_rdf_partial (angles := false) hsrt h (by simp) hat nofun
  obtain ⟨f, f1, f2⟩ := e2 0 1 (by norm_num) (by norm_num)
  refine ⟨m, l, u, files, by rw [← e1]; simp, ?_, ⟨f, f1, f2, f2.2.length⟩, hlen⟩
  have : 2 * files.rdf.length = 2 * (2 + 1) := e4
  omega

/-- With cutoff radius 1, nothing is written. -/
example (hsrt : IsSort srt) : ∃ l : List Str, distribution exText srt 1 9 false ["O".toList, "H".toList] l = none ∧
    ∃ files, distribution exText srt (5 / 2) 9 false ["O".toList, "H".toList] l = some files := by
  obtain ⟨m, l, u, c, h, hper, hlen, h0, h1, h2, hc, hb⟩ := exDistribution false (rc := 5 / 2) (by norm_num) (bins := 9) (by norm_num)
  have hat : ∀ w ∈ [u], NoneAtCutoff w (5 / 2) := fun w hw =>
    (List.mem_singleton.1 hw) ▸ exNoneAt hper hlen hb (not_int 25 4 (by norm_num) (by norm_num) (by norm_num))
  obtain ⟨files, e1, -⟩ := C107_rdf_partial (angles := false) hsrt h (by simp) hat nofun
  have h' : DistributionInput exText m ["O".toList, "H".toList] 1 9 [l] [u] :=
    ⟨h.names, h.map, by norm_num, h.bins, h.file, h.read, h.box⟩
  refine ⟨l, ?_, files, by rw [← e1]; simp⟩
  have hbond : IsBond u 1 0 (0, 1, 0) (u.bond (0, 1, 0)) :=
    isBond_iff.2 ⟨by rw [hlen]; norm_num, by rw [hlen]; norm_num, h0, h1, .inr rfl, by simp, rfl⟩
  have hd := exDistance (hb 0 (by norm_num) 1 (by norm_num) 0 (.inr rfl))
  rw [hc rfl, Fin.sum_univ_three] at hd
  simp only [exSite] at hd
  have := C107_crash (srt := srt) hsrt h' false (by simp) hbond (one_of_sq (len_nonneg _) (hd.trans (by simp)))
  rw [← this]
  simp

/-- C107: the integral of a distribution function of angles is not always 1: the molecule has no angle between three hydrogen atoms; that
file has integral 0, the file of angles at the oxygen atom has integral 1. -/
theorem C107_adf_integral_wrong (hsrt : IsSort srt) : ∃ (m : EMap) (l : List Str) (u : Structure) (files : DistributionFiles)
    (f g : Str × List DistributionRow),
    DistributionInput exText m ["O".toList, "H".toList] (21 / 2) 2 [l] [u] ∧
      distribution exText srt (21 / 2) 2 true ["O".toList, "H".toList] l = some files ∧ files.adf.length = 6 ∧
      f ∈ files.adf ∧ IsAdfFile m [u] (21 / 2) 2 0 0 0 f ∧ (f.2.map fun r => r.value * (r.high - r.low)).sum = 0 ∧
      g ∈ files.adf ∧ IsAdfFile m [u] (21 / 2) 2 1 0 0 g ∧ (g.2.map fun r => r.value * (r.high - r.low)).sum = 1 := by
  classical
  obtain ⟨m, l, u, c, h, hper, hlen, h0, h1, h2, hc, hb⟩ := exDistribution false (rc := 21 / 2) (by norm_num) (bins := 2) (by norm_num)
  have hat : ∀ w ∈ [u], NoneAtCutoff w (21 / 2) := fun w hw =>
    (List.mem_singleton.1 hw) ▸ exNoneAt hper hlen hb (not_int 441 4 (by norm_num) (by norm_num) (by norm_num))
  have hap : ∀ w ∈ [u], AllApart w := by
    intro w hw
    rw [List.mem_singleton.1 hw]
    rintro i j ⟨p, q, s⟩ v hbond hv
    obtain ⟨k1, k2, -, -, k5, k6, rfl⟩ := isBond_iff.1 hbond
    rw [hlen] at k1 k2
    have hs : s = 0 := k5.resolve_left (by rw [hper]; decide)
    subst hs
    have hne : q ≠ p := fun e => k6 (by rw [e])
    have := congrFun hv 0
    rw [hb p k1 q k2 0 (.inr rfl) 0, hc rfl] at this
    dsimp only at k1 k2
    have h3 : exSite p 0 - exSite q 0 = 0 := by
      have : ((exSite p 0 - exSite q 0 : ℤ) : ℝ) = ((0 : ℤ) : ℝ) := by
        push_cast
        simpa using this
      exact_mod_cast this
    interval_cases p <;> interval_cases q <;> simp [exSite] at h3 hne
  obtain ⟨files, e1, e2, -, e4⟩ := C107_adf_partial hsrt h (by simp) hat hap
  obtain ⟨f, f1, f2⟩ := e2 0 0 0 (by norm_num) le_rfl (by norm_num)
  obtain ⟨g, g1, g2⟩ := e2 1 0 0 (by norm_num) le_rfl (by norm_num)
  refine ⟨m, l, u, files, f, g, h, by rw [← e1]; simp, ?_, f1, f2, ?_, g1, g2, ?_⟩
  · have : 2 * files.adf.length = 2 * (2 * (2 + 1)) := e4
    omega
  · rw [C107_adf_integral h 0 0 0 f f2]
    have hno : ¬ (anglesWith u (21 / 2) 0 0 0 fun _ => True).Nonempty := by
      rintro ⟨⟨p, ⟨q, s⟩, ⟨r, t⟩⟩, hne, v, w, b1, b2, -⟩
      obtain ⟨k1, k2, k3, k4, k5, k6, -⟩ := isBond_iff.1 b1
      obtain ⟨-, l2, -, l4, l5, l6, -⟩ := isBond_iff.1 b2
      have hs : s = 0 := k5.resolve_left (by rw [hper]; decide)
      have ht : t = 0 := l5.resolve_left (by rw [hper]; decide)
      subst hs ht
      dsimp only at k1 k2 k3 k4 l2 l4 k6 l6 hne
      rw [hlen] at k1 k2 l2
      have n1 : q ≠ p := fun e => k6 (by rw [e])
      have n2 : r ≠ p := fun e => l6 (by rw [e])
      have n3 : q ≠ r := fun e => hne (by rw [e])
      have z : ∀ a, u.elementOf a = 0 → a ≠ 0 := by
        rintro a ha rfl
        rw [h0] at ha
        cases ha
      have := z _ k3
      have := z _ k4
      have := z _ l4
      omega
    simp [hno]
  · rw [C107_adf_integral h 1 0 0 g g2]
    have hyes : (anglesWith u (21 / 2) 1 0 0 fun _ => True).Nonempty := by
      have hd1 := exDistance (hb 0 (by norm_num) 1 (by norm_num) 0 (.inr rfl))
      have hd2 := exDistance (hb 0 (by norm_num) 2 (by norm_num) 0 (.inr rfl))
      rw [hc rfl, Fin.sum_univ_three] at hd1 hd2
      simp only [exSite] at hd1 hd2
      refine ⟨(0, (1, 0), (2, 0)), by simp, _, _,
        isBond_iff.2 ⟨by rw [hlen]; norm_num, by rw [hlen]; norm_num, h0, h1, .inr rfl, by simp, rfl⟩,
        isBond_iff.2 ⟨by rw [hlen]; norm_num, by rw [hlen]; norm_num, h0, h2, .inr rfl, by simp, rfl⟩, ?_, ?_, trivial⟩
      · refine abs_le_of_sq_le_sq' ?_ (by norm_num) |>.2
        rw [hd1]
        simp
        norm_num
      · refine abs_le_of_sq_le_sq' ?_ (by norm_num) |>.2
        rw [hd2]
        simp
        norm_num
    simp [hyes]

end N2P2
