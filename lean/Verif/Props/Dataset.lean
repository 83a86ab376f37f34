import Verif.Lemma.Dataset
import Mathlib.Tactic.NormNum

/-! Properties C41 (distribution of structures), C42 (numeric forces), C43 (parallel statistics
and error metrics). -/

namespace N2P2

/-! ### C41 -/

/-- Facts shared by both loops. -/
private theorem dist_result (N P : Nat) (hP : 0 < P) (randomize excl : Bool) (draws : List Nat)
    (hd : ∀ p ∈ draws, p < P) (s : DistState)
    (h : distributeStructures N P randomize excl draws = .ok (some s)) :
    ∃ quota, structuresPerProc N P excl = .ok quota ∧ DistInv P quota s ∧ s.count = N ∧
      ∀ p < P, s.perProc p = quota p := by
  unfold distributeStructures at h
  cases hq : structuresPerProc N P excl with
  | error e => rw [hq] at h; cases h
  | ok quota =>
    rw [hq] at h
    simp only [Except.ok.injEq] at h
    have hsum := sum_quota N P excl quota hq hP
    refine ⟨quota, rfl, ?_⟩
    cases randomize with
    | true =>
      simp only [if_true] at h
      obtain ⟨h1, h2⟩ := random_inv N P quota draws hd _ s (DistInv.init P quota) h (Nat.zero_le _)
      exact ⟨h1, h2, h1.full (by omega)⟩
    | false =>
      simp only [Bool.false_eq_true, if_false, Option.some.injEq] at h
      obtain ⟨h1, h2⟩ := ordered_inv P quota
      rw [h] at h1 h2
      refine ⟨h1, ?_, h2⟩
      have h3 := h1.count_eq
      rw [← h3, ← hsum]
      exact Finset.sum_congr rfl (fun p hp => h2 p (by simpa using hp))

/-- C41: every structure of the file ends up on exactly one process, exactly once. -/
theorem C41_each_structure_once (N P : Nat) (hP : 0 < P) (randomize excl : Bool)
    (draws : List Nat) (hd : ∀ p ∈ draws, p < P) (s : DistState)
    (h : distributeStructures N P randomize excl draws = .ok (some s)) :
    ((List.range P).flatMap s.held).Perm (List.range N) := by
  obtain ⟨quota, -, h1, h2, -⟩ := dist_result N P hP randomize excl draws hd s h
  rw [← h2]; exact h1.perm

/-- C41: the shares of any two receiving processes differ by at most one; an excluded root gets
nothing. -/
theorem C41_even_shares (N P : Nat) (hP : 0 < P) (randomize excl : Bool)
    (draws : List Nat) (hd : ∀ p ∈ draws, p < P) (s : DistState)
    (h : distributeStructures N P randomize excl draws = .ok (some s)) :
    (∀ p q, p < P → q < P → (excl = true → p ≠ 0 ∧ q ≠ 0) →
      (s.held p).length ≤ (s.held q).length + 1) ∧
    (excl = true → s.held 0 = []) := by
  obtain ⟨quota, hq, h1, h2, h3⟩ := dist_result N P hP randomize excl draws hd s h
  unfold structuresPerProc at hq
  by_cases hx : (excl && P == 1) = true
  · rw [if_pos hx] at hq; cases hq
  rw [if_neg hx] at hq
  simp only at hq
  generalize (if excl = true then P - 1 else P) = R at hq
  by_cases hNR : N < R
  · rw [if_pos hNR] at hq; cases hq
  rw [if_neg hNR] at hq
  injection hq with hq
  refine ⟨?_, ?_⟩
  · intro p q hp hq' he
    have key : ∀ i < P, (excl = true → i ≠ 0) → N / R ≤ quota i ∧ quota i ≤ N / R + 1 := by
      intro i hi hie
      have hie' : i ≠ 0 ∨ excl = false := by
        cases excl with
        | false => exact Or.inr rfl
        | true => exact Or.inl (hie rfl)
      subst hq
      simp only
      rw [if_pos hi, if_pos hie']
      split
      · exact ⟨Nat.le_succ _, le_rfl⟩
      · exact ⟨le_rfl, Nat.le_succ _⟩
    rw [h1.len, h1.len, h3 p hp, h3 q hq']
    have k1 := key p hp (fun e => (he e).1)
    have k2 := key q hq' (fun e => (he e).2)
    exact k1.2.trans (Nat.add_le_add_right k2.1 1)
  · intro he
    have : (s.held 0).length = 0 := by
      rw [h1.len, h3 0 hP]
      subst hq he
      simp
    exact List.length_eq_zero_iff.1 this

/-- C41: an error is raised exactly if the root is excluded and alone, or if there are fewer
structures than receiving processes. -/
theorem C41_error_iff (N P : Nat) (randomize excl : Bool) (draws : List Nat) :
    (∃ e, distributeStructures N P randomize excl draws = .error e) ↔
      (excl = true ∧ P = 1) ∨ N < (if excl then P - 1 else P) := by
  have hb : (excl && P == 1) = true ↔ (excl = true ∧ P = 1) := by
    rw [Bool.and_eq_true, beq_iff_eq]
  have key : (∃ e, structuresPerProc N P excl = .error e) ↔
      (excl = true ∧ P = 1) ∨ N < (if excl then P - 1 else P) := by
    unfold structuresPerProc
    by_cases hx : (excl && P == 1) = true
    · rw [if_pos hx]
      exact ⟨fun _ => Or.inl (hb.1 hx), fun _ => ⟨_, rfl⟩⟩
    · rw [if_neg hx]
      simp only
      generalize (if excl = true then P - 1 else P) = R
      by_cases hN : N < R
      · rw [if_pos hN]; exact ⟨fun _ => Or.inr hN, fun _ => ⟨_, rfl⟩⟩
      · rw [if_neg hN]
        constructor
        · rintro ⟨e, he⟩; cases he
        · rintro (h | h)
          · exact absurd (hb.2 h) hx
          · exact absurd h hN
  rw [← key]
  unfold distributeStructures
  cases structuresPerProc N P excl with
  | error e => simp
  | ok q => simp

/-- C41: the random loop ends as soon as every process has been drawn as often as its share. In
particular it ends with any fair sequence of draws. -/
theorem C41_random_finishes (N P : Nat) (hP : 0 < P) (excl : Bool) (draws : List Nat)
    (hd : ∀ p ∈ draws, p < P) (hmany : ∀ p < P, N ≤ draws.count p)
    (hok : N ≥ (if excl then P - 1 else P)) (hx : ¬ (excl = true ∧ P = 1)) :
    ∃ s, distributeStructures N P true excl draws = .ok (some s) := by
  have hne : ¬ ∃ e, distributeStructures N P true excl draws = .error e := by
    rw [C41_error_iff]
    rintro (h | h)
    · exact hx h
    · omega
  unfold distributeStructures at hne ⊢
  cases hq : structuresPerProc N P excl with
  | error e => rw [hq] at hne; exact absurd ⟨e, rfl⟩ hne
  | ok quota =>
    simp only [if_true, Except.ok.injEq]
    have hsum := sum_quota N P excl quota hq hP
    rw [← Option.isSome_iff_exists]
    refine random_terminates N P quota hsum draws hd _ (DistInv.init P quota) ?_
    intro p hp
    have h1 : quota p ≤ ∑ i ∈ Finset.range P, quota i :=
      Finset.single_le_sum (f := quota) (fun _ _ => Nat.zero_le _) (Finset.mem_range.2 hp)
    have := hmany p hp
    omega

/-- Seven structures, three processes, random draws. -/
example : ∃ s, distributeStructures 7 3 true false [2, 2, 0, 1, 2, 2, 1, 0, 1, 1] = .ok (some s) ∧
    s.held 0 = [2, 5] ∧ s.held 1 = [3, 4, 6] ∧ s.held 2 = [0, 1] := ⟨_, rfl, rfl, rfl, rfl⟩

example : (∃ s, distributeStructures 7 3 false true [] = .ok (some s) ∧
    s.held 0 = [] ∧ s.held 1 = [0, 1, 2, 3] ∧ s.held 2 = [4, 5, 6]) :=
  ⟨_, rfl, rfl, rfl, rfl⟩

/-! ### C42 -/

/-- C42: over all processes the undisplaced structure and the 6N displacements are created exactly
once each: the jobs of all ranks form a list without repetition, consisting of the original and of
all displacements of existing atoms along the three axes in both directions. -/
theorem C42_every_displacement_once (N P : Nat) (hP : 0 < P) :
    let jobs := (List.range P).flatMap (numericJobs N P)
    jobs.Nodup ∧ jobs.length = 1 + 6 * N ∧
    (∀ p < P, (numericJobs N P p).length = numericPerProc (1 + 6 * N) P p) ∧
    ∀ j, j ∈ jobs ↔ j = .original ∨
      ∃ a k s, j = .displaced a k s ∧ a < N ∧ k < 3 ∧ (s = 1 ∨ s = -1) := by
  have hM : 0 < 1 + 6 * N := by omega
  have hc : numericCount (1 + 6 * N) P P = 6 * N := by
    have h1 := numericCount_eq (1 + 6 * N) P hP hM P hP
    rw [sum_numericPerProc _ _ hP] at h1
    omega
  simp only
  rw [numericJobs_flat N P P hP, hc]
  refine ⟨?_, ?_, ?_, ?_⟩
  · rw [List.nodup_cons]
    refine ⟨?_, List.nodup_range.map numericJob_inj⟩
    rw [List.mem_map]
    rintro ⟨c, -, h⟩
    cases h
  · simp; omega
  · intro p hp
    simp only [numericJobs, List.length_append, List.length_map, List.length_range]
    by_cases h : p = 0
    · subst h
      have := numericPerProc_zero_pos (1 + 6 * N) P hP hM
      simp; omega
    · simp [h]
  · intro j
    rw [List.mem_cons, List.mem_map]
    constructor
    · rintro (h | ⟨c, hcm, rfl⟩)
      · exact Or.inl h
      · refine Or.inr ⟨_, _, _, rfl, ?_, ?_, ?_⟩
        · have := List.mem_range.1 hcm; omega
        · omega
        · omega
    · rintro (h | ⟨a, k, s, rfl, ha, hk, hs⟩)
      · exact Or.inl h
      · right
        rcases hs with rfl | rfl
        · refine ⟨6 * a + 3 + k, List.mem_range.2 (by omega), ?_⟩
          unfold numericJob
          simp only [NumericJob.displaced.injEq]
          omega
        · refine ⟨6 * a + k, List.mem_range.2 (by omega), ?_⟩
          unfold numericJob
          simp only [NumericJob.displaced.injEq]
          omega

/-- One atom on three ranks. -/
example : numericJobs 1 3 0 = [.original, .displaced 0 0 (-1), .displaced 0 1 (-1)] ∧
    numericJobs 1 3 1 = [.displaced 0 2 (-1), .displaced 0 0 1] ∧
    numericJobs 1 3 2 = [.displaced 0 1 1, .displaced 0 2 1] := by decide

/-! ### C43 -/

/-- C43: the combined statistics of the values processed on all ranks are those of all values
together, whatever the distribution over ranks and the order. -/
theorem C43_statistics (dblMax : ℝ) (parts : List (List ℝ)) (hparts : parts ≠ [])
    (own : StatContainer) (vs : List ℝ) (hperm : parts.flatten.Perm vs) :
    let c := collectStatistics (parts.map (localStatistics dblMax)) own
    c.count = vs.length ∧ c.sum = vs.sum ∧ c.sum2 = (vs.map (fun x => x ^ 2)).sum ∧
    (vs ≠ [] → (∀ v ∈ vs, |v| ≤ dblMax) →
      (c.min ∈ vs ∧ ∀ v ∈ vs, c.min ≤ v) ∧ (c.max ∈ vs ∧ ∀ v ∈ vs, v ≤ c.max)) := by
  have hl : ∀ p, Absorbed (StatContainer.init dblMax) (localStatistics dblMax p) p [] :=
    localStatistics_absorbed dblMax
  simp only [collectStatistics, List.map_map]
  refine ⟨?_, ?_, ?_, ?_⟩
  · have : ((·.count) ∘ localStatistics dblMax) = List.length := by
      funext p; simpa [StatContainer.init] using (hl p).count
    rw [this, ← List.length_flatten, hperm.length_eq]
  · have : ((·.sum) ∘ localStatistics dblMax) = List.sum := by
      funext p; simpa [StatContainer.init] using (hl p).sum
    rw [this, ← List.sum_flatten, hperm.sum_eq]
  · have : ((·.sum2) ∘ localStatistics dblMax) = fun p => (p.map (fun x => x ^ 2)).sum := by
      funext p; simpa [StatContainer.init, pow_two] using (hl p).sum2
    rw [this, sum_map_flatten, (hperm.map _).sum_eq]
  · intro hne hb
    have e1 : ((·.min) ∘ localStatistics dblMax) = fun p => p.foldl Min.min dblMax := by
      funext p; simpa [StatContainer.init] using (hl p).min
    have e2 : ((·.max) ∘ localStatistics dblMax) = fun p => p.foldl Max.max (-dblMax) := by
      funext p; simpa [StatContainer.init] using (hl p).max
    rw [e1, e2, allMin_parts _ _ hparts, allMax_parts _ _ hparts]
    obtain ⟨w, hw⟩ := List.exists_mem_of_ne_nil vs hne
    have hm : ∀ v, v ∈ parts.flatten ↔ v ∈ vs := fun v => hperm.mem_iff
    obtain ⟨-, a2, a3⟩ := foldl_min_le parts.flatten dblMax
    obtain ⟨-, b2, b3⟩ := le_foldl_max parts.flatten (-dblMax)
    refine ⟨⟨?_, fun v hv => a2 v ((hm v).2 hv)⟩, ?_, fun v hv => b2 v ((hm v).2 hv)⟩
    · rcases a3 with h | h
      · have h5 := a2 w ((hm w).2 hw)
        have h6 := (abs_le.1 (hb w hw)).2
        have : parts.flatten.foldl Min.min dblMax = w := by linarith
        rw [this]; exact hw
      · exact (hm _).1 h
    · rcases b3 with h | h
      · have h5 := b2 w ((hm w).2 hw)
        have h6 := (abs_le.1 (hb w hw)).1
        have : parts.flatten.foldl Max.max (-dblMax) = w := by linarith
        rw [this]; exact hw
      · exact (hm _).1 h

/-- C43: the mean and sigma written to the scaling file are the arithmetic mean and the sample
standard deviation of all values. -/
theorem C43_mean_sigma (dblMax : ℝ) (parts : List (List ℝ)) (own : StatContainer) (vs : List ℝ)
    (hperm : parts.flatten.Perm vs) (hn : 2 ≤ vs.length) :
    let line := scalingFileLine (collectStatistics (parts.map (localStatistics dblMax)) own)
    let mean := vs.sum / vs.length
    line.2.2.1 = mean ∧
    line.2.2.2 = Real.sqrt ((vs.map (fun x => (x - mean) ^ 2)).sum / ((vs.length : ℝ) - 1)) := by
  have hne : vs ≠ [] := by rintro rfl; simp at hn
  have hparts : parts ≠ [] := by
    rintro rfl
    have := hperm.length_eq
    simp at this; omega
  obtain ⟨h1, h2, h3, -⟩ := C43_statistics dblMax parts hparts own vs hperm
  simp only [scalingFileLine]
  rw [h1, h2, h3]
  refine ⟨rfl, ?_⟩
  congr 2
  rw [← variance_formula vs hne]
  simp only [pow_two]

/-- C43: energy errors of the whole data set. -/
theorem C43_energy_error (parts : List (List Structure)) (ss : List Structure)
    (hperm : parts.flatten.Perm ss) :
    collectError (parts.map (fun p => p.foldl updateErrorEnergy ErrAcc.zero)) =
      { count := ss.length
        RMSEpa := Real.sqrt ((ss.map (fun s =>
          ((s.energyRef - s.energy) / (s.numAtoms : ℝ)) ^ 2)).sum / ss.length)
        RMSE := Real.sqrt ((ss.map (fun s => (s.energyRef - s.energy) ^ 2)).sum / ss.length)
        MAEpa := (ss.map (fun s => |s.energyRef - s.energy| / (s.numAtoms : ℝ))).sum / ss.length
        MAE := (ss.map (fun s => |s.energyRef - s.energy|)).sum / ss.length } := by
  have hcount : (parts.map (fun p => p.length)).sum = ss.length := by
    rw [← hperm.length_eq, List.length_flatten]
  simp only [collectError, List.map_map, Function.comp_def, foldl_updateErrorEnergy, ErrAcc.zero,
    zero_add, sum_map_flatten, hcount, (hperm.map _).sum_eq]

/-- C43: force errors: three components for each atom of each structure. -/
theorem C43_force_error (parts : List (List Structure)) (ss : List Structure)
    (hperm : parts.flatten.Perm ss) (atoms : List Atom) (hatoms : atoms = ss.flatMap (·.atoms)) :
    let r := collectError (parts.map (fun p => p.foldl updateErrorForce ErrAcc.zero))
    r.count = 3 * atoms.length ∧
    r.RMSE = Real.sqrt ((atoms.map (fun a =>
      ∑ k : Fin 3, (a.fRef k - a.f k) ^ 2)).sum / ((3 * atoms.length : Nat) : ℝ)) ∧
    r.MAE = (atoms.map (fun a =>
      ∑ k : Fin 3, |a.fRef k - a.f k|)).sum / ((3 * atoms.length : Nat) : ℝ) := by
  have hp2 : (parts.flatten.flatMap (·.atoms)).Perm atoms := by
    rw [hatoms]; exact hperm.flatMap_right _
  have hfl : parts.flatten.flatMap (·.atoms) = (parts.map (·.flatMap (·.atoms))).flatten := by
    simp [List.flatMap_def, List.map_flatten, List.flatten_flatten, Function.comp_def]
  have hcount : (parts.map (fun p => 3 * (p.flatMap (·.atoms)).length)).sum = 3 * atoms.length := by
    rw [← hp2.length_eq, hfl, List.length_flatten, List.map_map, List.sum_map_mul_left]
    rfl
  have hsum : ∀ f : Atom → ℝ, (parts.map (fun p => ((p.flatMap (·.atoms)).map f).sum)).sum =
      (atoms.map f).sum := by
    intro f
    rw [← (hp2.map f).sum_eq, hfl, ← sum_map_flatten, List.map_map]
    rfl
  simp only [collectError, List.map_map, Function.comp_def, foldl_updateErrorForce, ErrAcc.zero,
    zero_add, hcount, hsum, Fin.sum_univ_three, and_self]

/-- C43: charge errors: one value for each atom of each structure. -/
theorem C43_charge_error (parts : List (List Structure)) (ss : List Structure)
    (hperm : parts.flatten.Perm ss) (atoms : List Atom) (hatoms : atoms = ss.flatMap (·.atoms)) :
    let r := collectError (parts.map (fun p => p.foldl updateErrorCharge ErrAcc.zero))
    r.count = atoms.length ∧
    r.RMSE = Real.sqrt ((atoms.map (fun a => (a.chargeRef - a.charge) ^ 2)).sum / atoms.length) ∧
    r.MAE = (atoms.map (fun a => |a.chargeRef - a.charge|)).sum / atoms.length := by
  have hp2 : (parts.flatten.flatMap (·.atoms)).Perm atoms := by
    rw [hatoms]; exact hperm.flatMap_right _
  have hfl : parts.flatten.flatMap (·.atoms) = (parts.map (·.flatMap (·.atoms))).flatten := by
    simp [List.flatMap_def, List.map_flatten, List.flatten_flatten, Function.comp_def]
  have hcount : (parts.map (fun p => (p.flatMap (·.atoms)).length)).sum = atoms.length := by
    rw [← hp2.length_eq, hfl, List.length_flatten, List.map_map]
    rfl
  have hsum : ∀ f : Atom → ℝ, (parts.map (fun p => ((p.flatMap (·.atoms)).map f).sum)).sum =
      (atoms.map f).sum := by
    intro f
    rw [← (hp2.map f).sum_eq, hfl, ← sum_map_flatten, List.map_map]
    rfl
  simp only [collectError, List.map_map, Function.comp_def, foldl_updateErrorCharge, ErrAcc.zero,
    zero_add, hcount, hsum, and_self]

/-- Three ranks, one of them without values. -/
example : ([[1, 3], [], [2]] : List (List ℝ)).flatten.Perm [1, 2, 3] := by
  have : (([[1, 3], [], [2]] : List (List ℝ)).flatten) = [1, 3, 2] := rfl
  rw [this]
  exact List.Perm.cons _ (List.Perm.swap _ _ _)

end N2P2
