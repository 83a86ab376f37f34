import Verif.Lemma.Training
import Verif.Lemma.TrainingSelect
import Mathlib.Data.Nat.Find
import Mathlib.Tactic.NormNum
import Mathlib.Tactic.IntervalCases

/-! Properties C47-C50: training and test sets, epoch schedule, choice of update candidates. -/

namespace N2P2

open Training

/-! ### C47 -/

/-- C47: after the selection each structure whose set was not determined beforehand is in the test
set if its random number is below the desired fraction and in the training set otherwise; the others
keep their set. Nothing else about the structures changes. -/
theorem C47_partition (nnp : NNPType) (fraction : ℝ) (rnd : ℕ → ℝ) (l : List Struct)
    (p : PropertyMap) :
    (selectSets nnp fraction rnd l p).1.length = l.length ∧
    (∀ (i : ℕ) (s : Struct), l[i]? = some s → (selectSets nnp fraction rnd l p).1[i]?
      = some { s with sampleType := expectedType fraction rnd l i s }) ∧
    ((∀ s ∈ l, s.sampleType ≠ .validation) → ∀ s ∈ (selectSets nnp fraction rnd l p).1,
      s.sampleType = .training ∨ s.sampleType = .test) := by
  have h := selectLoop_types nnp fraction rnd l 0 0 p
  simp only [zero_add] at h
  refine ⟨?_, fun i s hs => ?_, fun hv s hs => ?_⟩
  · have h1 : ∀ j : ℕ, (selectSets nnp fraction rnd l p).1[j]? = none ↔ l[j]? = none := by
      intro j; unfold selectSets; rw [h]; simp
    simp only [List.getElem?_eq_none_iff] at h1
    have h2 := (h1 l.length).mpr le_rfl
    have h3 := (h1 (selectSets nnp fraction rnd l p).1.length).mp le_rfl
    omega
  · unfold selectSets; rw [h, hs]; rfl
  · obtain ⟨j, hj⟩ := List.mem_iff_getElem?.mp hs
    unfold selectSets at hj
    rw [h] at hj
    obtain ⟨t, ht, rfl⟩ := Option.map_eq_some_iff.mp hj
    have := hv t (List.mem_of_getElem? ht)
    simp only [expectedType]
    by_cases h4 : t.sampleType = .unknown
    · simp only [h4, if_true]
      split_ifs <;> simp
    · simp only [h4, if_false]
      cases h5 : t.sampleType <;> simp_all

/-- C47: starting from fresh properties, the update candidates of each trained property are those of
the training structures, in the order of the structures; properties not trained are left out. -/
theorem C47_candidates (nnp : NNPType) (fraction : ℝ) (rnd : ℕ → ℝ) (l : List Struct)
    (p : PropertyMap) (k : Key) :
    (p k = none → (selectSets nnp fraction rnd l p).2 k = none) ∧
    (p k = some Property.init → ∃ q, (selectSets nnp fraction rnd l p).2 k = some q ∧
      q.updateCandidates = (selectSets nnp fraction rnd l p).1.zipIdx.flatMap
        fun x => candidatesOf nnp k x.2 x.1) := by
  refine ⟨fun h => selectLoop_none nnp fraction rnd k l 0 0 p h, fun h => ?_⟩
  obtain ⟨q, h1, h2, _⟩ := selectLoop_props nnp fraction rnd k l 0 0 p _ h
  exact ⟨q, h1, by simpa [Property.init, selectSets] using h2⟩

/-- C47: without charge equilibration (not HDNNP-4G), each force component of each atom of a training
structure is a candidate exactly once, and nothing else is. -/
theorem C47_force_once (nnp : NNPType) (h4 : nnp ≠ .HDNNP_4G) (fraction : ℝ) (rnd : ℕ → ℝ)
    (l : List Struct) (hl : ∀ s ∈ l, s.WellFormed) (p : PropertyMap)
    (hp : p .force = some Property.init) :
    ∃ q, (selectSets nnp fraction rnd l p).2 .force = some q ∧
      (∀ u ∈ q.updateCandidates, ∃ i a c, u = ⟨i, 0, [⟨a, c⟩]⟩) ∧
      ∀ i a c, q.updateCandidates.count ⟨i, 0, [⟨a, c⟩]⟩ =
        if (∃ s, (selectSets nnp fraction rnd l p).1[i]? = some s ∧ s.sampleType = .training ∧
          a < s.numAtoms) ∧ c < 3 then 1 else 0 := by
  obtain ⟨q, h1, h2⟩ := (C47_candidates nnp fraction rnd l p .force).2 hp
  have hw : ∀ s ∈ (selectSets nnp fraction rnd l p).1, s.WellFormed := by
    intro s hs
    obtain ⟨j, hj⟩ := List.mem_iff_getElem?.mp hs
    have h := selectLoop_types nnp fraction rnd l 0 0 p j
    unfold selectSets at hj
    rw [hj] at h
    obtain ⟨t, ht, rfl⟩ := Option.map_eq_some_iff.mp h.symm
    exact hl t (List.mem_of_getElem? ht)
  refine ⟨q, h1, ?_, fun i a c => ?_⟩
  · intro u hu
    rw [h2, List.mem_flatMap] at hu
    obtain ⟨x, _, hx⟩ := hu
    unfold candidatesOf at hx
    split_ifs at hx
    · simp only [List.mem_flatMap, List.mem_cons, List.not_mem_nil, or_false] at hx
      obtain ⟨a, _, rfl | rfl | rfl⟩ := hx <;> exact ⟨_, _, _, rfl⟩
    · simp at hx
  · rw [h2]
    generalize (selectSets nnp fraction rnd l p).1 = after at hw
    -- Count in one structure.
    have hrange : ∀ n i' : ℕ, ((List.range n).flatMap fun a => [(⟨i', 0, [⟨a, 0⟩]⟩ : UpdateCandidate),
        ⟨i', 0, [⟨a, 1⟩]⟩, ⟨i', 0, [⟨a, 2⟩]⟩]).count ⟨i, 0, [⟨a, c⟩]⟩
          = if i' = i ∧ a < n ∧ c < 3 then 1 else 0 := by
      intro n i'
      induction n with
      | zero => simp
      | succ n ih =>
        rw [List.range_succ, List.flatMap_append, List.count_append, ih]
        simp only [List.flatMap_cons, List.flatMap_nil, List.append_nil, List.count_cons,
          List.count_nil, beq_iff_eq, UpdateCandidate.mk.injEq, List.cons.injEq, and_true,
          SubCandidate.mk.injEq, true_and, zero_add]
        by_cases hi : i' = i
        · by_cases ha : a < n
          · have h5 : ¬ n = a := by omega
            have h6 : a < n + 1 := by omega
            simp [hi, ha, h5, h6]
          · by_cases hn : n = a
            · subst hn
              have h6 : n < n + 1 := by omega
              simp only [hi, h6, true_and, lt_irrefl, false_and, and_false, if_false]
              by_cases hc : c < 3
              · interval_cases c <;> simp
              · have h7 : ¬ 0 = c := by omega
                have h8 : ¬ 1 = c := by omega
                have h9 : ¬ 2 = c := by omega
                simp [hc, h7, h8, h9]
            · have h6 : ¬ a < n + 1 := by omega
              simp [hn, ha, h6]
        · simp [hi]
    -- Count over all structures.
    have hall : ∀ (l : List Struct) (n : ℕ), (∀ s ∈ l, s.WellFormed) →
        ((l.zipIdx n).flatMap fun x => candidatesOf nnp .force x.2 x.1).count ⟨i, 0, [⟨a, c⟩]⟩
          = if (n ≤ i ∧ ∃ s, l[i - n]? = some s ∧ s.sampleType = .training ∧ a < s.numAtoms) ∧ c < 3
            then 1 else 0 := by
      intro l
      induction l with
      | nil => intro n _; simp
      | cons s rest ih =>
        intro n hw
        rw [List.zipIdx_cons, List.flatMap_cons, List.count_append,
          ih (n + 1) (fun t ht => hw t (by simp [ht]))]
        have h5 : (candidatesOf nnp .force n s).count ⟨i, 0, [⟨a, c⟩]⟩
            = if s.sampleType = .training ∧ n = i ∧ a < s.numAtoms ∧ c < 3 then 1 else 0 := by
          unfold candidatesOf
          by_cases ht : s.sampleType = .training
          · simp only [ht, if_true, if_neg h4]
            rw [show s.atoms = List.range s.numAtoms from hw s (by simp), hrange]
            simp
          · simp [ht]
        simp only [h5]
        by_cases hn : n = i
        · subst hn
          have h6 : ¬ n + 1 ≤ n := by omega
          simp only [h6, false_and, if_false, add_zero, le_refl, true_and, Nat.sub_self,
            List.getElem?_cons_zero, Option.some.injEq, exists_eq_left']
          simp only [and_assoc]
        · by_cases hlt : n ≤ i
          · have h6 : n + 1 ≤ i := by omega
            obtain ⟨m, hm⟩ : ∃ m, i - n = m + 1 := ⟨i - n - 1, by omega⟩
            have hm' : i - (n + 1) = m := by omega
            simp only [hn, hlt, h6, hm, hm', false_and, and_false, if_false, zero_add, true_and,
              List.getElem?_cons_succ]
          · have h6 : ¬ n + 1 ≤ i := by omega
            simp [hn, hlt, h6]
    have := hall after 0 hw
    simpa using this

/-- C47: the reported numbers of training and test patterns are the totals over all processes of the
patterns of the training and test structures. -/
theorem C47_patterns (nnp : NNPType) (fraction : ℝ) (ranks : List ((ℕ → ℝ) × List Struct))
    (p : PropertyMap) (k : Key) (hp : p k = some Property.init) :
    allreducePatterns (ranks.map fun r => (selectSets nnp fraction r.1 r.2 p).2) k =
      ((ranks.map fun r => (((selectSets nnp fraction r.1 r.2 p).1.filter
          fun s => decide (s.sampleType = .training)).map (patternsOf nnp k)).sum).sum,
       (ranks.map fun r => (((selectSets nnp fraction r.1 r.2 p).1.filter
          fun s => decide (s.sampleType = .test)).map (patternsOf nnp k)).sum).sum) := by
  unfold allreducePatterns
  simp only [List.map_map]
  congr 2
  · refine List.map_congr_left fun r _ => ?_
    obtain ⟨q, h1, _, h3, _⟩ := selectLoop_props nnp fraction r.1 k r.2 0 0 p _ hp
    simp only [Function.comp, selectSets, h1, Option.map_some, Option.getD_some, h3]
    simp [Property.init]
  · refine List.map_congr_left fun r _ => ?_
    obtain ⟨q, h1, _, _, h4⟩ := selectLoop_props nnp fraction r.1 k r.2 0 0 p _ hp
    simp only [Function.comp, selectSets, h1, Option.map_some, Option.getD_some, h4]
    simp [Property.init]

/-- Three structures: one predetermined as test, two drawn. -/
example : ∃ l : List Struct, ∃ rnd : ℕ → ℝ, (∀ s ∈ l, s.WellFormed) ∧
    (selectSets .HDNNP_2G (1 / 10) rnd l fun _ => some Property.init).1.map (·.sampleType)
      = [.test, .training, .test] := by
  refine ⟨[⟨.test, 2, [0, 1]⟩, ⟨.unknown, 1, [0]⟩, ⟨.unknown, 3, [0, 1, 2]⟩],
    fun n => if n = 0 then 1 / 2 else 1 / 20, ?_, ?_⟩
  · intro s hs
    simp only [List.mem_cons, List.not_mem_nil, or_false] at hs
    rcases hs with rfl | rfl | rfl <;> simp [Struct.WellFormed] <;> decide
  · simp [selectSets, selectLoop, assign]
    norm_num

/-! ### C48 -/

/-- C48: whatever the shuffle, the schedule holds property number `i` exactly as often as updates are
planned for it and nothing else; running through it leaves each update counter at the planned
number. -/
theorem C48_schedule (numUpdates sched : List ℕ) (h : SetEpochSchedule numUpdates sched) (i : ℕ) :
    (∀ hi : i < numUpdates.length, sched.count i = numUpdates[i] ∧
      epochCounts sched i = numUpdates[i]) ∧
    (numUpdates.length ≤ i → i ∉ sched) ∧ sched.length = numUpdates.sum := by
  have hperm : sched.Perm (buildSchedule numUpdates) := by
    unfold SetEpochSchedule at h
    split_ifs at h
    · rw [h]
    · exact h
  have hc : sched.count i = numUpdates.getD i 0 := by
    rw [hperm.count_eq, count_buildSchedule]
  refine ⟨fun hi => ?_, fun hi => ?_, ?_⟩
  · have h1 : numUpdates.getD i 0 = numUpdates[i] := by
      simp [List.getD_eq_getElem?_getD, List.getElem?_eq_getElem hi]
    refine ⟨hc.trans h1, ?_⟩
    unfold epochCounts
    rw [foldl_counts, zero_add, hc, h1]
  · rw [← List.count_eq_zero, hc, List.getD_eq_getElem?_getD, List.getElem?_eq_none hi]
    rfl
  · rw [hperm.length_eq]
    unfold buildSchedule
    have hlen : ∀ (l : List ℕ) (acc : List ℕ) (g : ℕ → ℕ),
        (l.foldl (fun s i => s ++ List.replicate (g i) i) acc).length
          = acc.length + (l.map g).sum := by
      intro l
      induction l with
      | nil => intro acc g; simp
      | cons a l ih => intro acc g; rw [List.foldl_cons, ih]; simp [add_assoc]
    rw [hlen, List.map_reverse, List.sum_reverse]
    simp only [List.length_nil, zero_add]
    congr 1
    apply List.ext_getElem
    · simp
    · intro n h1 h2
      simp [List.getD_eq_getElem?_getD, List.getElem?_eq_getElem h2]

example : SetEpochSchedule [2, 3] [1, 0, 1, 1, 0] := by
  unfold SetEpochSchedule
  rw [if_neg (by decide)]
  decide +kernel

/-! ### C49 -/

/-- C49: in an epoch every pass over the (shuffled or sorted) candidate list uses the candidates from
the front of the list, one after the other: a complete pass uses every candidate exactly once, and
within an incomplete one none is used twice. `batches` are the batch sizes of the updates. -/
theorem C49_cycle {α : Type} (before cands : List α) (hs : Shuffled before cands)
    (hne : before ≠ []) (batches : List ℕ) :
    ∃ used, chooseEpoch cands batches = .ok used ∧ used.length = batches.sum ∧
      ∀ pass, ((used.drop (pass * before.length)).take before.length
          = cands.take (used.length - pass * before.length)) ∧
        ((used.drop (pass * before.length)).take before.length).Subperm before ∧
        ((pass + 1) * before.length ≤ used.length →
          ((used.drop (pass * before.length)).take before.length).Perm before) := by
  have hp : cands.Perm before := hs
  have hne' : cands ≠ [] := by
    rintro rfl; exact hne (List.nil_perm.mp hp)
  have hl : 0 < cands.length := List.length_pos_iff.mpr hne'
  rw [← hp.length_eq]
  have hlen : ((List.range batches.sum).filterMap
      fun j => cands[cyclic cands.length 0 j]?).length = batches.sum := by
    rw [length_filterMap_some _ _ (fun x _ => by simp [cyclic_lt hl]), List.length_range]
  refine ⟨_, chooseEpochFrom_eq hne' batches 0, hlen, fun pass => ?_⟩
  rw [epoch_pass hne', hlen]
  refine ⟨rfl, (List.take_sublist _ _).subperm.trans hp.subperm, fun h => ?_⟩
  rw [List.take_of_length_le (by rw [Nat.add_mul, one_mul] at h; omega)]
  exact hp

example : chooseEpoch [20, 10, 30] [2, 2] = .ok [20, 10, 30, 20] := by
  unfold chooseEpoch
  rw [chooseEpochFrom_eq (by simp)]
  decide +kernel

/-- C49, limit of the property: the position returns to the front in each epoch, so passes do not
continue from one epoch to the next. If an epoch uses fewer candidates than there are, a candidate
can stay unused in any number of epochs, whatever the shuffles of the others are. -/
theorem C49_epochs_restart (batches : List ℕ) (before : List ℕ) (x : ℕ) (hx : before.count x = 1)
    (hlt : batches.sum < before.length) :
    ∃ cands, Shuffled before cands ∧ ∃ used, chooseEpoch cands batches = .ok used ∧ x ∉ used := by
  have hmem : x ∈ before := List.count_pos_iff.mp (by omega)
  refine ⟨before.erase x ++ [x], ?_, ?_⟩
  · exact (List.perm_append_comm.trans (List.perm_cons_erase hmem).symm)
  · refine ⟨_, chooseEpochFrom_eq (by simp) batches 0, ?_⟩
    intro h
    rw [List.mem_filterMap] at h
    obtain ⟨j, hj, hx'⟩ := h
    rw [List.mem_range] at hj
    have hl : (before.erase x ++ [x]).length = before.length := by
      rw [List.length_append, List.length_erase_of_mem hmem]
      have := List.length_pos_of_mem hmem
      simp; omega
    have hc : cyclic (before.erase x ++ [x]).length 0 j = j := by
      unfold cyclic
      rw [hl]
      split_ifs <;> rw [zero_add, Nat.mod_eq_of_lt (by omega)]
    rw [hc, List.getElem?_append_left (by rw [List.length_erase_of_mem hmem]; omega)] at hx'
    have h1 : x ∈ before.erase x := List.mem_of_getElem? hx'
    have h2 := List.count_pos_iff.mpr h1
    rw [List.count_erase_self, hx] at h2
    omega

example : (List.count 7 [5, 7] = 1) ∧ [1].sum < [5, 7].length := by decide

/-- C49 for grouped force candidates (HDNNP-4G): the sub-candidates used of each candidate are its
first, second, third, ... in list order, starting again at the first after the last one, however the
updates are distributed over candidates and whatever the group sizes are. -/
theorem C49_grouped (size : ℕ) (nsub groupSize : ℕ → ℕ) (hsize : 0 < size)
    (hn : ∀ c < size, 0 < nsub c) (batches : List ℕ) (pos count numGrouped : ℕ) :
    ∃ used g', groupEpochFrom size nsub groupSize batches ⟨pos, fun _ => 0, count, numGrouped⟩
        = .ok (used, g') ∧
      used.length = batches.sum ∧ (∀ x ∈ used, x.1 < size ∧ x.2 < nsub x.1) ∧
      ∀ c < size, ∃ m, (used.filter fun x => decide (x.1 = c)).map Prod.snd
        = (List.range m).map (· % nsub c) := by
  obtain ⟨⟨used, g'⟩, h⟩ := groupEpochFrom_ok groupSize batches ⟨pos, fun _ => 0, count, numGrouped⟩
    hsize hn
  have h0 : GroupInv nsub [] (fun _ => 0) := by
    intro c hc
    refine ⟨0, rfl, fun j => ?_⟩
    unfold cyclic
    split_ifs <;> rfl
  obtain ⟨h1, h2, h3⟩ := groupEpochFrom_inv batches (picks := []) h0 h
  refine ⟨used, g', h, h2, h3, fun c hc => ?_⟩
  obtain ⟨m, hm, _⟩ := h1 c (hn c hc)
  exact ⟨m, by simpa using hm⟩

example : ∃ g', groupEpochFrom 2 (fun _ => 3) (fun _ => 2) [1, 1, 1, 1, 1] ⟨0, fun _ => 0, 0, 0⟩
    = .ok ([(0, 0), (0, 1), (1, 0), (1, 1), (0, 2)], g') := ⟨_, rfl⟩

/-! ### C50 -/

/-- C50, first half: if a candidate above the threshold is met within the allowed trials, the first
such candidate is used and logged. -/
theorem C50_above (size : ℕ) (hs : 0 < size) (rmse : ℕ → ℝ) (threshold : ℝ) (trials pos : ℕ)
    (h : ∃ j < trials, threshold < rmse (cyclic size pos j)) :
    ∃ c j, choose .threshold size rmse threshold trials pos = .ok c ∧ j < trials ∧
      c.used = cyclic size pos j ∧ c.logged = c.used ∧ c.loopCount = j ∧
      threshold < rmse c.used ∧ ∀ i < j, rmse (cyclic size pos i) ≤ threshold := by
  classical
  obtain ⟨h1, h2⟩ := Nat.find_spec h
  have h3 : ∀ i < Nat.find h, rmse (cyclic size pos i) ≤ threshold := by
    intro i hi
    by_contra hc
    exact Nat.find_min h hi ⟨by omega, not_le.mp hc⟩
  obtain ⟨t, e, h4, h5, h6, h7⟩ := trialLoop_found hs rmse threshold trials (Nat.find h)
    ⟨pos, none, 0, 0, 0, 0⟩ h1 h3 h2
  simp only at h4 h5 h6 h7
  refine ⟨⟨cyclic size pos (Nat.find h), cyclic size pos (Nat.find h), Nat.find h,
      cyclic size pos (Nat.find h) + 1⟩, Nat.find h,
    ?_, h1, rfl, rfl, rfl, h2, h3⟩
  unfold choose
  simp only [if_true, e]
  rw [h5]
  simp only [true_and]
  rw [if_neg (by omega), h4, h6, h7, zero_add]

/-- C50, second half, partial. Full statement: if no candidate above the threshold is met, the
candidate with the largest error among those tried is used and logged. What holds: it is logged
(provided some error is positive), but the candidate used is the last one tried, see
`C50_used_is_not_worst`. Missing: `c.used = c.logged`. -/
theorem C50_none_above_partial (size : ℕ) (hs : 0 < size) (rmse : ℕ → ℝ) (threshold : ℝ)
    (trials pos : ℕ) (ht : 0 < trials)
    (h : ∀ j < trials, rmse (cyclic size pos j) ≤ threshold) :
    ∃ c, choose .threshold size rmse threshold trials pos = .ok c ∧
      c.used = cyclic size pos (trials - 1) ∧ c.loopCount = trials ∧
      ((∃ j < trials, 0 < rmse (cyclic size pos j)) →
        (∃ j < trials, c.logged = cyclic size pos j) ∧
        ∀ j < trials, rmse (cyclic size pos j) ≤ rmse c.logged) ∧
      ((∀ j < trials, rmse (cyclic size pos j) ≤ 0) → c.logged = 0) ∧
      (trials = 1 → 0 < rmse (cyclic size pos 0) → c.logged = c.used) := by
  obtain ⟨t, e, h1, h2, h3, h4, h5⟩ := trialLoop_none hs rmse threshold trials
    ⟨pos, none, 0, 0, 0, 0⟩ h
  simp only [zero_add] at h1 h2 h3 h4 h5
  rw [if_neg ht.ne'] at h2
  have hcase : (∃ j < trials, 0 < rmse (cyclic size pos j)) →
      ∃ j < trials, t.indexBest = cyclic size pos j ∧ rmse t.indexBest = t.best := by
    rintro ⟨j, hj, hpos⟩
    rcases h5 with ⟨h6, _⟩ | ⟨_, h7⟩
    · have := h4 j hj; linarith
    · exact h7
  refine ⟨⟨cyclic size pos (trials - 1), t.indexBest, trials, t.pos⟩, ?_, rfl, rfl, fun hpos => ?_,
    fun hneg => ?_, fun h1t hpos => ?_⟩
  · unfold choose
    simp only [if_true, e]
    rw [h2]
    simp only [true_and]
    rw [if_pos h1, h1]
  · obtain ⟨j, hj, h6, h7⟩ := hcase hpos
    refine ⟨⟨j, hj, h6⟩, fun i hi => ?_⟩
    change rmse (cyclic size pos i) ≤ rmse t.indexBest
    rw [h7]; exact h4 i hi
  · rcases h5 with ⟨_, h7⟩ | ⟨h6, j, hj, h7, h8⟩
    · exact h7
    · have := hneg j hj
      rw [← h7, h8] at this
      linarith
  · subst h1t
    obtain ⟨j, hj, h6, _⟩ := hcase ⟨0, by omega, hpos⟩
    have : j = 0 := by omega
    subst this
    exact h6

/-- C50 does not hold in full: with two candidates of error fractions 2 and 1, threshold 3 and two
trials, the update uses the second candidate although the first has the larger error, and the
training log names the first. -/
theorem C50_used_is_not_worst : ∃ (size : ℕ) (rmse : ℕ → ℝ) (threshold : ℝ) (trials pos : ℕ)
    (c : Choice), choose .threshold size rmse threshold trials pos = .ok c ∧ c.used ≠ c.logged ∧
      (∃ j < trials, rmse c.used < rmse (cyclic size pos j)) ∧ rmse c.used ≤ threshold := by
  obtain ⟨c, h1, h2, _, h4, _⟩ := C50_none_above_partial 2 (by norm_num)
    (fun i => if i = 0 then 2 else 1) 3 2 0 (by norm_num) (fun j hj => by split_ifs <;> norm_num)
  have hu : c.used = 1 := by rw [h2]; decide
  obtain ⟨⟨j, hj, hl⟩, hmax⟩ := h4 ⟨0, by norm_num, by split_ifs <;> norm_num⟩
  have h0 := hmax 0 (by norm_num)
  have hl0 : c.logged = 0 := by
    by_contra hc
    rw [if_neg hc, if_pos (by decide)] at h0
    norm_num at h0
  refine ⟨2, _, 3, 2, 0, c, h1, by rw [hu, hl0]; decide, ⟨0, by norm_num, ?_⟩, ?_⟩
  · rw [hu, if_neg (by decide), if_pos (by decide)]; norm_num
  · rw [hu, if_neg (by decide)]; norm_num

/-- C50 does not hold in full: with the default of zero trials (the keyword `rmse_threshold_trials`
missing) threshold selection dereferences a null pointer. -/
theorem C50_zero_trials (size : ℕ) (rmse : ℕ → ℝ) (threshold : ℝ) (pos : ℕ) :
    choose .threshold size rmse threshold 0 pos = .error .nullPointer := by
  simp [choose, trialLoop]

/-- C50 does not hold in full: for force updates without sub-candidate grouping the training log
always names atom 0 and component 0, whichever force component was used. -/
theorem C50_log_force (cands : List UpdateCandidate) (pos index i a c : ℕ)
    (h : cands[index]? = some ⟨i, 0, [⟨a, c⟩]⟩) :
    logEntry false cands pos index = some (i, 0, 0) := by
  simp [logEntry, h]

example : logEntry false [⟨4, 0, [⟨6, 2⟩]⟩] 0 0 = some (4, 0, 0) := by decide

/-- C50: with sub-candidates the log names the structure, atom and component that were used; without
them it names the structure that was used. -/
theorem C50_log_used (cands : List UpdateCandidate) (pos index : ℕ) (c : UpdateCandidate) :
    (∀ sc, cands[pos]? = some c → c.subCandidates[index]? = some sc →
      logEntry true cands pos index = some (c.s, sc.a, sc.c)) ∧
    (cands[index]? = some c → ∃ a k, logEntry false cands pos index = some (c.s, a, k)) := by
  constructor
  · intro sc h1 h2
    simp [logEntry, h1, h2]
  · intro h
    exact ⟨0, 0, by simp [logEntry, h]⟩

example : logEntry true [⟨3, 0, []⟩, ⟨4, 0, [⟨6, 2⟩, ⟨7, 1⟩]⟩] 1 1 = some (4, 7, 1) := by decide

example : ∃ j < 3, (1 : ℝ) < (fun i : ℕ => (i : ℝ)) (cyclic 5 1 j) := ⟨1, by norm_num, by
  have : cyclic 5 1 1 = 2 := by decide
  simp [this]⟩

end N2P2
