import Verif.Lemma.DistributionAngles
import Verif.Lemma.Convert

/-! nnp-dist: one structure, and the loop over the file. -/

namespace N2P2

variable {N : NumberText} {m : EMap} {srt : List Neighbor → List Neighbor} {D : DistributionSetup} {u v : Structure}

/-! ### Volume -/

/-- The volume belongs to the box, and the box is complete. -/
def VolumeSet (n : ℕ) (s : Structure) : Prop := s.isPeriodic = true → n = 3 ∧ s.volume = |Matrix.det (Matrix.of s.box)|

theorem VolumeSet.begin' {n : ℕ} {s s' : Structure} {words : List Str} (h : VolumeSet n s) (e : readBegin s words = some s') :
    VolumeSet n s' := by
  unfold readBegin at e
  induction words generalizing s with
  | nil => cases e; exact h
  | cons w ws ih =>
    rw [List.foldlM_cons] at e
    obtain ⟨t, e1, e2⟩ := Option.bind_eq_some_iff.1 e
    refine ih ?_ e2
    split_ifs at e1
    · cases e1
      exact h
    · cases e1
      exact h

theorem VolumeSet.lattice {n : ℕ} {s : Structure} {words : List Str} {r : Structure × ℕ} (h : VolumeSet n s)
    (e : readLattice N s n words = some r) : VolumeSet r.2 r.1 := by
  unfold readLattice at e
  by_cases hn : n < 3
  · rw [dif_pos hn] at e
    obtain ⟨a, -, e⟩ := Option.bind_eq_some_iff.1 e
    obtain ⟨b, -, e⟩ := Option.bind_eq_some_iff.1 e
    obtain ⟨c, -, e⟩ := Option.bind_eq_some_iff.1 e
    cases e
    dsimp only
    by_cases h3 : n + 1 = 3
    · rw [if_pos h3]
      intro _
      refine ⟨h3, ?_⟩
      exact C23_volume _
    · rw [if_neg h3]
      intro hp
      have := (h hp).1
      omega
  · rw [dif_neg hn] at e
    cases e

theorem VolumeSet.readAtom {n : ℕ} {s s' : Structure} {words : List Str} (h : VolumeSet n s)
    (e : readAtom N m s words = some s') : VolumeSet n s' := by
  unfold N2P2.readAtom at e
  obtain ⟨a1, -, e⟩ := Option.bind_eq_some_iff.1 e
  obtain ⟨a2, -, e⟩ := Option.bind_eq_some_iff.1 e
  obtain ⟨a3, -, e⟩ := Option.bind_eq_some_iff.1 e
  obtain ⟨a4, -, e⟩ := Option.bind_eq_some_iff.1 e
  obtain ⟨el, -, e⟩ := Option.bind_eq_some_iff.1 e
  obtain ⟨a5, -, e⟩ := Option.bind_eq_some_iff.1 e
  obtain ⟨a7, -, e⟩ := Option.bind_eq_some_iff.1 e
  obtain ⟨a8, -, e⟩ := Option.bind_eq_some_iff.1 e
  obtain ⟨a9, -, e⟩ := Option.bind_eq_some_iff.1 e
  obtain ⟨c, -, e⟩ := Option.bind_eq_some_iff.1 e
  cases e
  exact h

theorem readLoop_volume (lines : List Str) {s s' : Structure} {n : ℕ} (h : VolumeSet n s)
    (e : readLoop N m lines s n = some s') : ∃ n', VolumeSet n' s' := by
  induction lines generalizing s n with
  | nil => cases e; exact ⟨n, h⟩
  | cons line lines ih =>
    cases hw : split (reduce line) with
    | nil => rw [readLoop_empty _ _ _ _ hw] at e; cases e
    | cons key ws =>
      rw [readLoop_cons _ _ _ _ _ _ _ _ hw] at e
      split_ifs at e
      · obtain ⟨t, e1, e2⟩ := Option.bind_eq_some_iff.1 e
        exact ih (h.begin' e1) e2
      · obtain ⟨t, e1, e2⟩ := Option.bind_eq_some_iff.1 e
        obtain ⟨pos, -, rfl⟩ := Option.map_eq_some_iff.1 e1
        refine ih ?_ e2
        exact h
      · obtain ⟨t, e1, e2⟩ := Option.bind_eq_some_iff.1 e
        exact ih (h.lattice e1) e2
      · obtain ⟨t, e1, e2⟩ := Option.bind_eq_some_iff.1 e
        exact ih (h.readAtom e1) e2
      · obtain ⟨t, e1, e2⟩ := Option.bind_eq_some_iff.1 e
        exact ih (s := { s with energyRef := N.atof t }) h e2
      · obtain ⟨t, e1, e2⟩ := Option.bind_eq_some_iff.1 e
        exact ih (s := { s with chargeRef := N.atof t }) h e2
      · unfold checkEnd at e
        split_ifs at e
        cases e
        exact ⟨n, h⟩

theorem VolumeSet.present {n : ℕ} {s s' : Structure} (h : VolumeSet n s) (e : s.countPresent = some s') : VolumeSet n s' := by
  unfold Structure.countPresent at e
  generalize List.range s.numElements = l at e
  induction l generalizing s with
  | nil => cases e; exact h
  | cons i l ih =>
    rw [List.foldlM_cons] at e
    obtain ⟨t, k1, k2⟩ := Option.bind_eq_some_iff.1 e
    obtain ⟨c, -, k1⟩ := Option.bind_eq_some_iff.1 k1
    cases k1
    refine ih ?_ k2
    split_ifs
    · exact h
    · exact h

theorem readFromLines_volume {l : List Str} (e : (Structure.forReading m 0).readFromLines N m l = some u)
    (hp : u.isPeriodic = true) : u.volume = |Matrix.det (Matrix.of u.box)| := by
  unfold Structure.readFromLines at e
  obtain ⟨_, -, e⟩ := Option.bind_eq_some_iff.1 e
  obtain ⟨_, -, e⟩ := Option.bind_eq_some_iff.1 e
  split_ifs at e
  obtain ⟨s1, e2, e⟩ := Option.bind_eq_some_iff.1 e
  obtain ⟨s2, e3, e4⟩ := Option.bind_eq_some_iff.1 e
  have h1 : VolumeSet 0 (Structure.forReading m 0) := nofun
  obtain ⟨n, hn⟩ := readLoop_volume _ h1 e2
  have h2 : VolumeSet n s2 := hn.present e3
  unfold Structure.remapIfPeriodic at e4
  by_cases hp2 : s2.isPeriodic = true
  · rw [if_pos hp2] at e4
    unfold Structure.remap at e4
    obtain ⟨l, -, rfl⟩ := Option.map_eq_some_iff.1 e4
    exact (h2 hp2).2
  · rw [if_neg hp2] at e4
    cases e4
    exact absurd hp hp2

/-! ### Counting -/

theorem countDistance_some {ei : ℕ} {nj : Neighbor} (h1 : ei < D.elements) (h2 : nj.element < D.elements)
    (h3 : ⌊nj.d / D.dr⌋₊ < D.bins) (t : PairTable) : countDistance D ei t nj = some (t + distanceTable D ei nj) := by
  unfold countDistance
  rw [pairKey_some h1 h2]
  exact add_some _ _ _ h3

theorem countDistance_none {ei : ℕ} {nj : Neighbor} (h3 : D.bins ≤ ⌊nj.d / D.dr⌋₊) (t : PairTable) :
    countDistance D ei t nj = none := by
  unfold countDistance
  cases pairKey D.elements ei nj.element with
  | none => rfl
  | some e => exact add_none _ _ _ h3

theorem countAngles_some (hb : 0 < D.bins) : ∀ (l : List Neighbor) (t : PairTable),
    (∀ nb ∈ l, nb.element < D.elements ∧ nb.d = len nb.dr ∧ nb.d ≠ 0) →
      countAngles D t l = some (t + couplesSum (angleTable D) l)
  | [], t, _ => by
    show some t = some (t + 0)
    rw [add_zero]
  | nj :: ns, t, h => by
    obtain ⟨a1, a2, a3⟩ := h nj List.mem_cons_self
    have h1 : ∀ nk ∈ ns, ∀ t, countAngle D nj t nk = some (t + angleTable D nj nk) := by
      intro nk hk t
      obtain ⟨b1, b2, b3⟩ := h nk (List.mem_cons_of_mem _ hk)
      obtain ⟨n, g1, g2, -⟩ := angleBin_spec hb a2 b2 a3 b3
      unfold countAngle angleTable
      rw [pairKey_some a1 b1, g2]
      exact add_some _ _ _ g1
    unfold countAngles
    rw [foldlM_adds ns h1]
    refine (countAngles_some hb ns _ fun nb hnb => h nb (List.mem_cons_of_mem _ hnb)).trans ?_
    show some (t + (ns.map (angleTable D nj)).sum + _) = some (t + ((ns.map (angleTable D nj)).sum + _))
    rw [add_assoc]

/-- Neighbours which can be counted. -/
structure AtomCountable (D : DistributionSetup) (a : Atom) : Prop where
  element : a.element < D.elements
  neighbor : ∀ nb ∈ a.neighbors, nb.element < D.elements ∧ ⌊nb.d / D.dr⌋₊ < D.bins
  angle : D.angles = true → ∀ nb ∈ a.neighbors, nb.d = len nb.dr ∧ nb.d ≠ 0

open Classical in
theorem countAtom_some (hb : 0 < D.bins) {a : Atom} (h : AtomCountable D a) (st : DistributionState) :
    countAtom D st a = some { st with
      rhist := st.rhist + (a.neighbors.map (distanceTable D a.element)).sum
      ahist := st.ahist + fun i => if D.angles = true ∧ a.element = i then couplesSum (angleTable D) a.neighbors else 0 } := by
  unfold countAtom
  rw [foldlM_adds a.neighbors (F := distanceTable D a.element)
    fun nb hnb t => countDistance_some h.element (h.neighbor nb hnb).1 (h.neighbor nb hnb).2 t]
  show (if D.angles = true then _ else _) = _
  by_cases ha : D.angles = true
  · rw [if_pos ha, countAngles_some hb a.neighbors _ fun nb hnb => ⟨(h.neighbor nb hnb).1, h.angle ha nb hnb⟩]
    show some _ = some _
    congr 2
    funext i
    by_cases hi : i = a.element
    · subst hi
      rw [Function.update_self, Pi.add_apply, if_pos ⟨ha, rfl⟩]
    · rw [Function.update_of_ne hi, Pi.add_apply, if_neg fun h => hi h.2.symm, add_zero]
  · rw [if_neg ha]
    congr 2
    funext i
    rw [Pi.add_apply, if_neg fun h => ha h.1, add_zero]

open Classical in
theorem countAtoms_some (hb : 0 < D.bins) : ∀ (l : List Atom) (st : DistributionState), (∀ a ∈ l, AtomCountable D a) →
    l.foldlM (countAtom D) st = some { st with
      rhist := st.rhist + (l.map fun a => (a.neighbors.map (distanceTable D a.element)).sum).sum
      ahist := st.ahist + (l.map fun a i =>
        if D.angles = true ∧ a.element = i then couplesSum (angleTable D) a.neighbors else 0).sum }
  | [], st, _ => by
    show some _ = some _
    simp
  | a :: l, st, h => by
    rw [List.foldlM_cons, countAtom_some hb (h a List.mem_cons_self)]
    refine (countAtoms_some hb l _ fun b hb' => h b (List.mem_cons_of_mem _ hb')).trans ?_
    simp only [List.map_cons, List.sum_cons, add_assoc]

/-! ### Normalization -/

/-- What a pair of elements adds to the distribution function. -/
noncomputable def rdfShare (D : DistributionSetup) (u : Structure) (e : ℕ × ℕ) (n : ℕ) (x : ℝ) : ℝ :=
  (if u.isPeriodic then x * (u.volume / ((u.elementCount e.1 * u.elementCount e.2 : ℕ) : ℝ)) else x) /
    (4 * Real.pi * (((n : ℝ) + 1 / 2) * D.dr) * (((n : ℝ) + 1 / 2) * D.dr) * D.dr)

theorem normalizePairs_some {k : ℕ} (hc : v.numAtomsPerElement = (List.range k).map u.elementCount)
    (hp : v.isPeriodic = u.isPeriodic) (hv : v.volume = u.volume) : ∀ (l : List (ℕ × ℕ)) (t : PairTable × PairTable), l.Nodup →
    (∀ e ∈ l, e.1 < k ∧ e.2 < k) → (∀ e ∈ l, ∀ n < D.bins, u.elementCount e.1 = 0 ∨ u.elementCount e.2 = 0 → t.1 e n = 0) →
    ∃ t', l.foldlM (normalizePair D v) t = some t' ∧ (∀ e, ∀ n < D.bins, t'.1 e n = if e ∈ l then 0 else t.1 e n) ∧
      ∀ e, ∀ n < D.bins, t'.2 e n = t.2 e n + if e ∈ l then rdfShare D u e n (t.1 e n) else 0
  | [], t, _, _, _ => ⟨t, rfl, by simp, by simp⟩
  | e :: l, t, hnd, hl, h0 => by
    obtain ⟨h1, h2⟩ := hl e List.mem_cons_self
    obtain ⟨n1, n2⟩ := List.nodup_cons.1 hnd
    have g1 : v.numAtomsPerElement[e.1]? = some (u.elementCount e.1) := by
      rw [hc, List.getElem?_map, List.getElem?_range h1]
      rfl
    have g2 : v.numAtomsPerElement[e.2]? = some (u.elementCount e.2) := by
      rw [hc, List.getElem?_map, List.getElem?_range h2]
      rfl
    have step : ∃ t1, normalizePair D v t e = some t1 ∧ (∀ e', ∀ n < D.bins, t1.1 e' n = if e' = e then 0 else t.1 e' n) ∧
        ∀ e', ∀ n < D.bins, t1.2 e' n = t.2 e' n + if e' = e then rdfShare D u e' n (t.1 e' n) else 0 := by
      unfold normalizePair
      rw [g1, g2]
      by_cases ha : u.elementCount e.1 = 0 ∨ u.elementCount e.2 = 0
      · refine ⟨t, if_pos ha, ?_, ?_⟩
        · intro e' n hn
          by_cases he : e' = e
          · rw [if_pos he, he, h0 e List.mem_cons_self n hn ha]
          · rw [if_neg he]
        · intro e' n hn
          by_cases he : e' = e
          · rw [if_pos he, he, h0 e List.mem_cons_self n hn ha]
            unfold rdfShare
            split_ifs <;> simp
          · rw [if_neg he, add_zero]
      · refine ⟨_, if_neg ha, ?_, ?_⟩
        · intro e' n hn
          by_cases he : e' = e
          · rw [if_pos he, he]
            dsimp only
            rw [Function.update_self]
            rfl
          · rw [if_neg he]
            dsimp only
            rw [Function.update_of_ne he]
        · intro e' n hn
          by_cases he : e' = e
          · rw [if_pos he, he]
            dsimp only
            rw [Function.update_self, hp, hv]
            rfl
          · rw [if_neg he, add_zero]
            dsimp only
            rw [Function.update_of_ne he]
    obtain ⟨t1, s1, s2, s3⟩ := step
    obtain ⟨t', r1, r2, r3⟩ := normalizePairs_some hc hp hv l t1 n2 (fun e' he' => hl e' (List.mem_cons_of_mem _ he')) (by
      intro e' he' n hn ha
      rw [s2 _ _ hn]
      split_ifs
      · rfl
      · exact h0 e' (List.mem_cons_of_mem _ he') n hn ha)
    refine ⟨t', ?_, ?_, ?_⟩
    · rw [List.foldlM_cons, s1]
      exact r1
    · intro e' n hn
      rw [r2 _ _ hn, s2 _ _ hn]
      by_cases he : e' = e
      · simp [he]
      · simp [he]
    · intro e' n hn
      rw [r3 _ _ hn, s2 _ _ hn, s3 _ _ hn]
      by_cases he : e' = e
      · simp [he, n1]
      · simp [he]

theorem normalizeAngles_fold : ∀ (l : List (ℕ × ℕ)) (t : PairTable × PairTable), l.Nodup → (∀ e ∈ l, ∀ n < D.bins, 0 ≤ t.1 e n) →
    (∀ e n, (l.foldl (normalizeAngles D) t).1 e n = if e ∈ l then 0 else t.1 e n) ∧
      ∀ e n, (l.foldl (normalizeAngles D) t).2 e n =
        t.2 e n + if e ∈ l then t.1 e n / (∑ m ∈ Finset.range D.bins, t.1 e m) / D.da else 0
  | [], t, _, _ => ⟨by simp, by simp⟩
  | e :: l, t, hnd, h0 => by
    obtain ⟨n1, n2⟩ := List.nodup_cons.1 hnd
    have s2 : ∀ e' n, (normalizeAngles D t e).1 e' n = if e' = e then 0 else t.1 e' n := by
      intro e' n
      show Function.update t.1 e 0 e' n = _
      by_cases he : e' = e
      · rw [he, Function.update_self, if_pos rfl]
        rfl
      · rw [Function.update_of_ne he, if_neg he]
    have s3 : ∀ e' n, (normalizeAngles D t e).2 e' n =
        t.2 e' n + if e' = e then t.1 e' n / (∑ m ∈ Finset.range D.bins, t.1 e' m) / D.da else 0 := by
      intro e' n
      unfold normalizeAngles
      dsimp only
      by_cases hs : ∑ m ∈ Finset.range D.bins, t.1 e m > 0
      · rw [if_pos hs]
        by_cases he : e' = e
        · rw [he, Function.update_self, if_pos rfl]
        · rw [Function.update_of_ne he, if_neg he, add_zero]
      · rw [if_neg hs]
        have hz : ∑ m ∈ Finset.range D.bins, t.1 e m = 0 :=
          le_antisymm (not_lt.1 hs) (Finset.sum_nonneg fun m hm => h0 e List.mem_cons_self m (Finset.mem_range.1 hm))
        by_cases he : e' = e
        · rw [he, if_pos rfl, hz]
          simp
        · rw [if_neg he, add_zero]
    obtain ⟨r2, r3⟩ := normalizeAngles_fold l (normalizeAngles D t e) n2 (by
      intro e' he' n hn
      rw [s2]
      split_ifs
      · exact le_rfl
      · exact h0 e' (List.mem_cons_of_mem _ he') n hn)
    refine ⟨?_, ?_⟩
    · intro e' n
      rw [List.foldl_cons, r2, s2]
      by_cases he : e' = e
      · simp [he]
      · simp [he]
    · intro e' n
      rw [List.foldl_cons, r3, s3]
      by_cases he : e' = e
      · simp [he, n1]
      · simp only [s2, he, if_false, add_zero, List.mem_cons, false_or]

theorem addDensity_fold {k : ℕ} (hc : v.numAtomsPerElement = (List.range k).map u.elementCount)
    (hp : v.isPeriodic = u.isPeriodic) (hv : v.volume = u.volume) : ∀ (l : List ℕ) (d : ℕ → ℝ), l.Nodup → (∀ i ∈ l, i < k) →
    ∃ d', l.foldlM (addDensity v) d = some d' ∧
      ∀ i, d' i = d i + if i ∈ l ∧ u.isPeriodic = true then (u.elementCount i : ℝ) / u.volume else 0
  | [], d, _, _ => ⟨d, rfl, by simp⟩
  | i :: l, d, hnd, hl => by
    obtain ⟨n1, n2⟩ := List.nodup_cons.1 hnd
    have g1 : v.numAtomsPerElement[i]? = some (u.elementCount i) := by
      rw [hc, List.getElem?_map, List.getElem?_range (hl i List.mem_cons_self)]
      rfl
    have step : addDensity v d i = some (fun j => d j + if j = i ∧ u.isPeriodic = true then (u.elementCount j : ℝ) / u.volume else 0) := by
      unfold addDensity
      rw [g1]
      show some _ = some _
      congr 1
      funext j
      rw [hp, hv]
      by_cases hper : u.isPeriodic = true
      · rw [if_pos hper]
        by_cases hj : j = i
        · rw [hj, Function.update_self, if_pos ⟨rfl, hper⟩]
        · rw [Function.update_of_ne hj, if_neg fun h => hj h.1, add_zero]
      · rw [if_neg hper, if_neg fun h => hper h.2, add_zero]
    obtain ⟨d', r1, r2⟩ := addDensity_fold hc hp hv l _ n2 fun j hj => hl j (List.mem_cons_of_mem _ hj)
    refine ⟨d', ?_, ?_⟩
    · rw [List.foldlM_cons, step]
      exact r1
    · intro j
      rw [r2]
      by_cases hj : j = i
      · simp [hj, n1]
      · simp [hj]

end N2P2
