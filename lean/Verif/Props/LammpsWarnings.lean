import Verif.Lemma.LammpsWarnings
import Verif.Props.Message
import Mathlib.Tactic.IntervalCases

/-! C92: extrapolation warnings in LAMMPS runs. -/

namespace N2P2

/-! ### Example -/

/-- Hydrogen with range [1, 3] and oxygen with range [0, 2]. -/
noncomputable def exWarnElements : List StatElement :=
  [⟨0, "H".toList, [⟨0, 0, 2, .none, 0, 0, 1, 3, 2, 1, 1⟩], ⟨false, true, false⟩⟩,
   ⟨1, "O".toList, [⟨1, 0, 3, .none, 0, 0, 0, 2, 1, 1, 1⟩], ⟨false, true, false⟩⟩]

/-- Warnings and a summary every 100 time steps. -/
def exWarnSettings : EWSettings := ⟨true, 100, 10, false⟩

/-- Atom 1 on process 0, atoms 2 and 3 on process 1; atoms 1 and 3 are outside. -/
noncomputable def exWarnStep : EWStep :=
  ⟨100, [[⟨0, 1, 7, 1, [5]⟩], [⟨1, 1, 7, 2, [1]⟩, ⟨0, 1, 7, 3, [0]⟩]]⟩

theorem exWarn_setUp {S : EWSettings} (hS : S.active = true) : S.SetUp exWarnElements where
  index := by
    intro k h
    have h : k < 2 := h
    interval_cases k <;> rfl
  flags := by
    intro el h
    unfold EWSettings.flags
    rw [hS]
    fin_cases h <;> rfl
  numbers := by
    intro el h
    fin_cases h <;> simp
  symbol := by
    intro el h
    fin_cases h <;> decide

theorem exWarn_ready : exWarnStep.Ready exWarnElements 2 := by
  refine ⟨rfl, ?_⟩
  intro as has a ha
  fin_cases has
  · rw [List.mem_singleton.1 ha]
    exact ⟨_, rfl, rfl, rfl⟩
  · rcases List.mem_cons.1 ha with rfl | ha
    · exact ⟨_, rfl, rfl, rfl⟩
    · rw [List.mem_singleton.1 ha]
      exact ⟨_, rfl, rfl, rfl⟩

open Classical in
theorem warnings_one (eps : ℝ) (a : StatAtom) (el : StatElement) (sf : SymFncScaling) (g : ℝ)
    (h1 : el.symmetryFunctions = [sf]) (h2 : a.G = [g]) : a.warnings eps el =
      if Outside eps (sf, g) then [⟨a.indexStructure, a.tag, el.symbol, sf.index + 1, sf.type,
        sf.unscale g, sf.Gmin, sf.Gmax⟩] else [] := by
  unfold StatAtom.warnings
  rw [h1, h2, List.zip_cons_cons, List.zip_nil_right]
  by_cases h : Outside eps (sf, g)
  · rw [List.filter_cons_of_pos (by simpa using h), if_pos h]
    rfl
  · rw [List.filter_cons_of_neg (by simpa using h), if_neg h]
    rfl

theorem exWarn_first : warningsOf (1 / 100) exWarnElements [⟨0, 1, 7, 1, [5]⟩] =
    [⟨7, 1, "H".toList, 1, 2, 5, 1, 3⟩] := by
  have h : Outside (1 / 100) (⟨0, 0, 2, .none, 0, 0, 1, 3, 2, 1, 1⟩, 5) := by
    rw [outside_iff]
    right
    simp only [SymFncScaling.unscale]
    norm_num
  have e := warnings_one (1 / 100) ⟨0, 1, 7, 1, [5]⟩
    ⟨0, "H".toList, [⟨0, 0, 2, .none, 0, 0, 1, 3, 2, 1, 1⟩], ⟨false, true, false⟩⟩ _ _ rfl rfl
  rw [if_pos h] at e
  show StatAtom.warnings (1 / 100) _ _ ++ [] = _
  rw [List.append_nil]
  exact e

theorem exWarn_second : warningsOf (1 / 100) exWarnElements [⟨1, 1, 7, 2, [1]⟩, ⟨0, 1, 7, 3, [0]⟩] =
    [⟨7, 3, "H".toList, 1, 2, 0, 1, 3⟩] := by
  have h : Outside (1 / 100) (⟨0, 0, 2, .none, 0, 0, 1, 3, 2, 1, 1⟩, 0) := by
    rw [outside_iff]
    left
    simp only [SymFncScaling.unscale]
    norm_num
  have h' : ¬ Outside (1 / 100) (⟨1, 0, 3, .none, 0, 0, 0, 2, 1, 1, 1⟩, 1) := by
    rw [outside_iff]
    simp only [SymFncScaling.unscale]
    norm_num
  have e := warnings_one (1 / 100) ⟨0, 1, 7, 3, [0]⟩
    ⟨0, "H".toList, [⟨0, 0, 2, .none, 0, 0, 1, 3, 2, 1, 1⟩], ⟨false, true, false⟩⟩ _ _ rfl rfl
  rw [if_pos h] at e
  have e' := warnings_one (1 / 100) ⟨1, 1, 7, 2, [1]⟩
    ⟨1, "O".toList, [⟨1, 0, 3, .none, 0, 0, 0, 2, 1, 1, 1⟩], ⟨false, true, false⟩⟩ _ _ rfl rfl
  rw [if_neg h'] at e'
  show StatAtom.warnings (1 / 100) ⟨1, "O".toList, [⟨1, 0, 3, .none, 0, 0, 0, 2, 1, 1, 1⟩],
    ⟨false, true, false⟩⟩ _ ++ (StatAtom.warnings (1 / 100) _ _ ++ []) = _
  rw [List.append_nil, e', List.nil_append]
  exact e

theorem exWarn_short : exWarnStep.Short exFormat (1 / 100) exWarnElements := by
  intro as has
  fin_cases has
  · rw [exWarn_first]
    simp [ewBytes, exFormat, exWarnElements]
  · rw [exWarn_second]
    simp [ewBytes, exFormat, exWarnElements]

theorem exWarn_warnings : exWarnStep.warnings (1 / 100) exWarnElements =
    [⟨7, 1, "H".toList, 1, 2, 5, 1, 3⟩, ⟨7, 3, "H".toList, 1, 2, 0, 1, 3⟩] := by
  unfold EWStep.warnings
  rw [warningsOf_flatten]
  simp only [exWarnStep, List.flatMap_cons, List.flatMap_nil, exWarn_first, exWarn_second]
  rfl

/-! ### C92 -/

/-- C92: in a run of any length, on any number of processes, the log gets at each time step exactly
the warnings of all atoms, each once, if they are to be shown; summaries count the warnings of all
processes since the last summary; the run is stopped as soon as a process exceeds the limit, and only
then. Messages are assumed to stay below 2 GiB (`C92_too_long`). -/
theorem C92_run {Byte : Type} (F : MpiFormat Byte) (S : EWSettings)
    (hS : S.showew = true ∨ 0 < S.showewsum ∨ 0 ≤ S.maxew) (els : List StatElement)
    (hE : S.SetUp els) (dblMax eps : ℝ) (n : ℕ) (ts : List EWStep)
    (ht : ∀ t ∈ ts, t.Ready els n ∧ t.Short F eps els) :
    ∃ os, ewRun F S dblMax eps els (ewStart n els.length) ts = some os ∧
      S.TellsRun eps els [] ts os := by
  have hA : S.active = true := by
    unfold EWSettings.active
    simpa [or_assoc] using hS
  exact ewRun_tells F hA hE dblMax eps ts [] _ (ewInv_start S eps els n)
    (fun u hu => by cases hu) ht

/-- Non-vacuity: two warnings from two processes, in the log and in the summary; no stop. -/
example : ∃ o, ewRun exFormat exWarnSettings 100 (1 / 100) exWarnElements (ewStart 2 2)
      [exWarnStep] = some [o] ∧
    o.lines.Perm [⟨7, 1, "H".toList, 1, 2, 5, 1, 3⟩, ⟨7, 3, "H".toList, 1, 2, 0, 1, 3⟩] ∧
    o.summary = some (2, 2 / 100) ∧ o.stopped = false := by
  obtain ⟨os, h1, o, rest, rfl, h2, h3⟩ := C92_run exFormat exWarnSettings (Or.inl rfl)
    exWarnElements (exWarn_setUp rfl) 100 (1 / 100) 2 [exWarnStep]
    (fun t h => by rw [List.mem_singleton.1 h]; exact ⟨exWarn_ready, exWarn_short⟩)
  have hr : rest = [] := by
    split at h3
    · exact h3
    · exact h3
  subst hr
  refine ⟨o, h1, ?_, ?_, ?_⟩
  · have := h2.lines
    rw [exWarn_warnings] at this
    exact this
  · rw [h2.summary, if_pos (by decide)]
    have e : ((sinceSummary exWarnSettings.showewsum [] ++ [exWarnStep]).map fun u : EWStep =>
        ((u.warnings (1 / 100) exWarnElements).length : ℤ)) = [2] := by
      show [((exWarnStep.warnings (1 / 100) exWarnElements).length : ℤ)] = [2]
      rw [exWarn_warnings]
      rfl
    dsimp only
    rw [e]
    norm_num [exWarnSettings]
  · rw [← Bool.not_eq_true, h2.stopped]
    rintro ⟨p, hp, h⟩
    have hp : p < 2 := hp
    rw [if_neg (by decide)] at h
    have hw : exWarnStep.warningsAt (1 / 100) exWarnElements p = 1 := by
      unfold EWStep.warningsAt
      interval_cases p
      · exact congrArg (fun l : List EWLine => (l.length : ℤ)) exWarn_first
      · exact congrArg (fun l : List EWLine => (l.length : ℤ)) exWarn_second
    rw [List.nil_append, List.map_singleton, List.sum_singleton, hw] at h
    exact absurd h (by decide)

/-- C92: with all three switched off nothing is told and nothing stops the run. -/
theorem C92_off {Byte : Type} (F : MpiFormat Byte) (S : EWSettings) (h1 : S.showew = false)
    (h2 : S.showewsum ≤ 0) (h3 : S.maxew < 0) (els : List StatElement) (dblMax eps : ℝ)
    (ps : List EWProcess) (ts : List EWStep) :
    ewRun F S dblMax eps els ps ts = some (ts.map fun _ => ⟨[], none, false⟩) := by
  have hA : ¬ S.active = true := by
    unfold EWSettings.active
    simp [h1, not_lt.2 h2, not_le.2 h3]
  induction ts with
  | nil => rfl
  | cons t ts ih =>
    unfold ewRun ewCompute
    rw [if_neg hA]
    simp only [Option.bind_eq_bind, Option.bind_some]
    rw [if_neg (by simp), ih]
    rfl

example : ewRun exFormat ⟨false, 0, -1, false⟩ 100 (1 / 100) exWarnElements (ewStart 2 2)
    [exWarnStep] = some [⟨[], none, false⟩] :=
  C92_off exFormat _ rfl (by decide) (by decide) _ _ _ _ _

/-- C92: a negative limit does not switch the limit off if warnings or summaries are wanted: every run
stops at its first time step, without a single warning. -/
theorem C92_negative_limit {Byte : Type} (F : MpiFormat Byte) (S : EWSettings)
    (hS : S.showew = true ∨ 0 < S.showewsum) (hm : S.maxew < 0) (els : List StatElement)
    (hE : S.SetUp els) (dblMax eps : ℝ) (n : ℕ) (hn : 0 < n) (t : EWStep) (ts : List EWStep)
    (ht : t.Ready els n ∧ t.Short F eps els) :
    ∃ o, ewRun F S dblMax eps els (ewStart n els.length) (t :: ts) = some [o] ∧ o.stopped = true := by
  have hA : S.active = true := by
    unfold EWSettings.active
    rcases hS with h | h <;> simp [h]
  obtain ⟨o, ps', r1, r2, -⟩ := ewCompute_tells F hA hE dblMax eps (ewInv_start S eps els n) ht.1 ht.2
    (fun u hu => by cases hu)
  have hs : o.stopped = true := by
    rw [r2.stopped]
    refine ⟨0, by rw [ht.1.1]; exact hn, lt_of_lt_of_le hm ?_⟩
    split
    · exact Int.natCast_nonneg _
    · simp only [List.nil_append, List.map_cons, List.map_nil, List.sum_cons, List.sum_nil, add_zero]
      exact Int.natCast_nonneg _
  refine ⟨o, ?_, hs⟩
  unfold ewRun
  rw [r1]
  exact if_pos hs

/-- Non-vacuity: a time step without atoms. -/
example : ∃ o, ewRun exFormat ⟨true, 0, -1, false⟩ 100 (1 / 100) exWarnElements (ewStart 1 2)
    [⟨0, [[]]⟩] = some [o] ∧ o.stopped = true :=
  C92_negative_limit exFormat _ (Or.inl rfl) (by decide) exWarnElements (exWarn_setUp rfl) _ _ 1
    one_pos _ _ ⟨⟨rfl, by simp⟩, by
      intro as has
      rw [List.mem_singleton.1 has]
      simp [warningsOf, ewBytes, exFormat, exWarnElements]⟩

/-- C92: with the default limit 0 the log says that there is no limit, but a single warning stops the
run. -/
theorem C92_default_limit {Byte : Type} (F : MpiFormat Byte) (S : EWSettings) (hm : S.maxew = 0)
    (els : List StatElement) (hE : S.SetUp els) (dblMax eps : ℝ) (n : ℕ) (t : EWStep)
    (ts : List EWStep) (ht : t.Ready els n ∧ t.Short F eps els) (hw : t.warnings eps els ≠ []) :
    S.limitMessage = "No extrapolation warning limit set.\n".toList ∧
    ∃ o, ewRun F S dblMax eps els (ewStart n els.length) (t :: ts) = some [o] ∧ o.stopped = true := by
  have hA : S.active = true := by
    unfold EWSettings.active
    simp [hm]
  obtain ⟨o, ps', r1, r2, -⟩ := ewCompute_tells F hA hE dblMax eps (ewInv_start S eps els n) ht.1 ht.2
    (fun u hu => by cases hu)
  have hs : o.stopped = true := by
    rw [r2.stopped]
    by_contra hc
    push Not at hc
    apply hw
    have hl := warnings_length (eps := eps) ht.1
    have hz : ∀ p ∈ List.range n, t.warningsAt eps els p = 0 := by
      intro p hp
      have := hc p (by rw [ht.1.1]; exact List.mem_range.1 hp)
      simp only [List.nil_append, List.map_cons, List.map_nil, List.sum_cons, List.sum_nil, add_zero,
        ite_self, hm] at this
      exact le_antisymm this (Int.natCast_nonneg _)
    rw [List.map_congr_left hz] at hl
    simpa using hl
  refine ⟨by simp [EWSettings.limitMessage, hm], o, ?_, hs⟩
  unfold ewRun
  rw [r1]
  exact if_pos hs

example : ∃ o, ewRun exFormat ⟨true, 0, 0, false⟩ 100 (1 / 100) exWarnElements (ewStart 2 2)
    [exWarnStep] = some [o] ∧ o.stopped = true :=
  (C92_default_limit exFormat _ rfl exWarnElements (exWarn_setUp rfl) _ _ 2 exWarnStep []
    ⟨exWarn_ready, exWarn_short⟩ (by rw [exWarn_warnings]; simp)).2

/-- C92: a process other than the first cannot report warnings of 2 GiB or more; the size is computed
as `long`, but passed on as `int`. -/
theorem C92_too_long {Byte : Type} (F : MpiFormat Byte) (S : EWSettings) (hS : S.showew = true)
    (els : List StatElement) (hE : S.SetUp els) (dblMax eps : ℝ) (n : ℕ) (t : EWStep)
    (ts : List EWStep) (ht : t.Ready els n) (p : ℕ) (h0 : 0 < p) (hp : p < n)
    (hl : 2 ^ 31 ≤ (warningsOf eps els (t.atoms.getD p [])).length *
      (2 * F.size .sizeT + F.size .double)) :
    ewRun F S dblMax eps els (ewStart n els.length) (t :: ts) = none := by
  have hA : S.active = true := by
    unfold EWSettings.active
    simp [hS]
  unfold ewRun
  rw [ewCompute_none F hA hS hE dblMax eps (ewInv_start S eps els n) ht h0 hp hl]
  rfl

/-- Non-vacuity: a hundred million warnings on process 1. -/
example : ewRun exFormat ⟨true, 0, 0, false⟩ 100 (1 / 100) exWarnElements (ewStart 2 2)
    [⟨0, [[], List.replicate 100000000 ⟨0, 1, 7, 1, [5]⟩]⟩] = none := by
  refine C92_too_long exFormat _ rfl exWarnElements (exWarn_setUp rfl) _ _ 2 _ [] ⟨rfl, ?_⟩ 1
    one_pos one_lt_two ?_
  · intro as has a ha
    rcases List.mem_cons.1 has with rfl | has
    · cases ha
    · rw [List.mem_singleton.1 has] at ha
      rw [List.eq_of_mem_replicate ha]
      exact ⟨_, rfl, rfl, rfl⟩
  · have : ∀ m, (warningsOf (1 / 100) exWarnElements
        (List.replicate m ⟨0, 1, 7, 1, [5]⟩)).length = m := by
      intro m
      induction m with
      | zero => rfl
      | succ m ih =>
        rw [List.replicate_succ, ← List.singleton_append, warningsOf_append, exWarn_first,
          List.length_append, ih, List.length_singleton, Nat.add_comm]
    show 2 ^ 31 ≤ (warningsOf (1 / 100) exWarnElements (List.replicate 100000000 _)).length * _
    rw [this]
    simp only [exFormat]
    norm_num

end N2P2
