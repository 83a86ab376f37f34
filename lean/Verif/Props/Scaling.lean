import Verif.Lemma.Scaling
import Mathlib.Tactic.FieldSimp
import Mathlib.Tactic.NormNum
import Mathlib.Order.Monotone.Basic

/-! Properties C10, C11 (scaling) and C12 (extrapolation warnings and statistics). -/

namespace N2P2

/-! ### C10 -/

/-- C10: after scaling has been set up with usable statistics, `scale` and `unscale` are inverse. -/
theorem C10_scale_unscale_inverse (old : SymFncScaling) (t : ScalingType) (l : StatisticsLine)
    (Smin Smax : ℝ) (sf : SymFncScaling) (hset : setScalingType old t l Smin Smax = some sf)
    (hS : t = .scale ∨ t = .scaleCenter ∨ t = .scaleSigma → Smin < Smax)
    (hG : t = .scale ∨ t = .scaleCenter → l.gmin < l.gmax)
    (hsig : t = .scaleSigma → ∃ s, l.gsigma = some s ∧ 0 < s) (v : ℝ) :
    sf.unscale (sf.scale v) = v ∧ sf.scale (sf.unscale v) = v := by
  unfold setScalingType at hset
  split at hset
  · cases hset
  · injection hset with hset
    subst hset
    cases t with
    | none => exact ⟨rfl, rfl⟩
    | center => simp [SymFncScaling.unscale, SymFncScaling.scale]
    | scale =>
      have h1 : Smax - Smin ≠ 0 := by have := hS (Or.inl rfl); intro h; linarith
      have h2 : l.gmax - l.gmin ≠ 0 := by have := hG (Or.inl rfl); intro h; linarith
      simp only [SymFncScaling.unscale, SymFncScaling.scale]
      constructor <;> field_simp <;> ring
    | scaleCenter =>
      have h1 : Smax - Smin ≠ 0 := by have := hS (Or.inr (Or.inl rfl)); intro h; linarith
      have h2 : l.gmax - l.gmin ≠ 0 := by have := hG (Or.inr rfl); intro h; linarith
      simp only [SymFncScaling.unscale, SymFncScaling.scale]
      constructor <;> field_simp <;> ring
    | scaleSigma =>
      have h1 : Smax - Smin ≠ 0 := by have := hS (Or.inr (Or.inr rfl)); intro h; linarith
      obtain ⟨s, hs, hpos⟩ := hsig rfl
      have h2 : s ≠ 0 := ne_of_gt hpos
      simp only [SymFncScaling.unscale, SymFncScaling.scale, hs]
      constructor <;> field_simp <;> ring

/-- An initialised symmetry function and a statistics line for the examples. -/
noncomputable def exSF : SymFncScaling :=
  ⟨0, 0, 2, .none, 0, 0, 0, 0, 0, 0, 1⟩
noncomputable def exLine : StatisticsLine := ⟨1, 1, 1, 3, 2, some (1 / 2)⟩

example : exLine.gmin < exLine.gmax ∧
    (setScalingType exSF .scale exLine 0 1).map (fun sf => sf.scale 2) = some (1 / 2) := by
  unfold setScalingType
  rw [if_neg (by simp [exLine, exSF])]
  norm_num [SymFncScaling.scale, exLine]

example : (setScalingType exSF .scaleSigma exLine 0 1).map (fun sf => sf.scale 3) = some 2 := by
  unfold setScalingType
  rw [if_neg (by simp [exLine, exSF])]
  norm_num [SymFncScaling.scale, exLine]

/-! ### C11 -/

/-- C11: range scaling maps the training range increasingly onto the target interval. -/
theorem C11_scale_range (old : SymFncScaling) (l : StatisticsLine) (Smin Smax : ℝ)
    (sf : SymFncScaling) (hset : setScalingType old .scale l Smin Smax = some sf)
    (hS : Smin < Smax) (hG : l.gmin < l.gmax) :
    sf.scale l.gmin = Smin ∧ sf.scale l.gmax = Smax ∧ StrictMono sf.scale ∧
    ∀ v, v ∈ Set.Icc l.gmin l.gmax ↔ sf.scale v ∈ Set.Icc Smin Smax := by
  unfold setScalingType at hset
  split at hset
  · cases hset
  · injection hset with hset
    have h1 : 0 < Smax - Smin := by linarith
    have h2 : 0 < l.gmax - l.gmin := by linarith
    have h2' : l.gmax - l.gmin ≠ 0 := ne_of_gt h2
    have hf : 0 < (Smax - Smin) / (l.gmax - l.gmin) := div_pos h1 h2
    have a1 : sf.scale =
        fun v => Smin + (Smax - Smin) / (l.gmax - l.gmin) * (v - l.gmin) := by
      subst hset; rfl
    have hmono : StrictMono (fun v => Smin + (Smax - Smin) / (l.gmax - l.gmin) * (v - l.gmin)) := by
      intro a b hab
      have : (Smax - Smin) / (l.gmax - l.gmin) * (a - l.gmin) <
          (Smax - Smin) / (l.gmax - l.gmin) * (b - l.gmin) :=
        mul_lt_mul_of_pos_left (by linarith) hf
      simp only; linarith
    have e1 : (fun v => Smin + (Smax - Smin) / (l.gmax - l.gmin) * (v - l.gmin)) l.gmin = Smin := by
      simp
    have e2 : (fun v => Smin + (Smax - Smin) / (l.gmax - l.gmin) * (v - l.gmin)) l.gmax = Smax := by
      simp only; field_simp; ring
    rw [← a1] at hmono e1 e2
    refine ⟨e1, e2, hmono, fun v => ?_⟩
    rw [Set.mem_Icc, Set.mem_Icc]
    constructor
    · rintro ⟨p, q⟩
      exact ⟨by rw [← e1]; exact hmono.monotone p, by rw [← e2]; exact hmono.monotone q⟩
    · rintro ⟨p, q⟩
      rw [← e1] at p
      rw [← e2] at q
      exact ⟨hmono.le_iff_le.1 p, hmono.le_iff_le.1 q⟩

/-- C11: centering maps the mean to 0, the combined and sigma modes map it to `Smin`. -/
theorem C11_center_mean (old : SymFncScaling) (t : ScalingType) (l : StatisticsLine)
    (Smin Smax : ℝ) (sf : SymFncScaling) (hset : setScalingType old t l Smin Smax = some sf) :
    (t = .center → sf.scale l.gmean = 0) ∧
    (t = .scaleCenter → sf.scale l.gmean = Smin ∧
      (l.gmin < l.gmax → sf.scale l.gmax - sf.scale l.gmin = Smax - Smin)) ∧
    (t = .scaleSigma → sf.scale l.gmean = Smin ∧
      ∀ s, l.gsigma = some s → 0 < s → sf.scale (l.gmean + s) = Smax) := by
  unfold setScalingType at hset
  split at hset
  · cases hset
  · injection hset with hset
    subst hset
    refine ⟨?_, ?_, ?_⟩
    · rintro rfl; simp [SymFncScaling.scale]
    · rintro rfl
      refine ⟨by simp [SymFncScaling.scale], fun h => ?_⟩
      have h2 : l.gmax - l.gmin ≠ 0 := by intro h'; linarith
      simp only [SymFncScaling.scale]
      field_simp
      ring
    · rintro rfl
      refine ⟨by simp [SymFncScaling.scale], fun s hs hpos => ?_⟩
      have h2 : s ≠ 0 := ne_of_gt hpos
      simp only [SymFncScaling.scale, hs]
      field_simp
      ring

/-- C11: in every mode the slope of `scale` is the stored scaling factor (used for derivatives). -/
theorem C11_scale_slope (old : SymFncScaling) (t : ScalingType) (l : StatisticsLine)
    (Smin Smax : ℝ) (sf : SymFncScaling) (hset : setScalingType old t l Smin Smax = some sf)
    (v w : ℝ) : sf.scale v - sf.scale w = sf.scalingFactor * (v - w) := by
  unfold setScalingType at hset
  split at hset
  · cases hset
  · injection hset with hset
    subst hset
    cases t <;> simp only [SymFncScaling.scale] <;> ring

example : (setScalingType exSF .scaleCenter exLine 0 1).map
    (fun sf => (sf.scale exLine.gmean, sf.scalingFactor)) = some (0, 1 / 2) := by
  unfold setScalingType
  rw [if_neg (by simp [exLine, exSF])]
  norm_num [SymFncScaling.scale, exLine]

/-! ### C12 -/

open Classical in
/-- C12: the call for one atom returns the number of symmetry functions outside their range. -/
theorem C12_warnings_of_atom (dblMax eps : ℝ) (el : StatElement) (a : StatAtom) (d : StatData)
    (h1 : a.element = el.index) (h2 : a.numSymmetryFunctions = el.symmetryFunctions.length)
    (h3 : a.G.length = a.numSymmetryFunctions)
    (hs : el.flags.stopOnExtrapolationWarnings = false) :
    (updateStatistics dblMax eps el a d).2 =
      .count ((el.symmetryFunctions.zip a.G).countP (fun p => Outside eps p)) := by
  unfold updateStatistics
  rw [if_neg (not_not.2 h1), if_neg (not_not.2 h2),
    updateStatLoop_count dblMax eps el.flags hs el.symbol a _ _ d 0 (by omega)]
  simp

/-- C12: with the stop switch the call fails exactly if some symmetry function is outside. -/
theorem C12_stop_iff (dblMax eps : ℝ) (el : StatElement) (a : StatAtom) (d : StatData)
    (h1 : a.element = el.index) (h2 : a.numSymmetryFunctions = el.symmetryFunctions.length)
    (h3 : a.G.length = a.numSymmetryFunctions)
    (hs : el.flags.stopOnExtrapolationWarnings = true) :
    ((updateStatistics dblMax eps el a d).2 = .stopped ↔
      ∃ p ∈ el.symmetryFunctions.zip a.G, Outside eps p) ∧
    ((updateStatistics dblMax eps el a d).2 ≠ .stopped →
      (updateStatistics dblMax eps el a d).2 = .count 0) := by
  unfold updateStatistics
  rw [if_neg (not_not.2 h1), if_neg (not_not.2 h2)]
  obtain ⟨r1, r2⟩ := updateStatLoop_stop dblMax eps el.flags hs el.symbol a el.symmetryFunctions a.G d 0
    (by omega)
  exact ⟨r1, fun h => r2.resolve_left h⟩

open Classical in
/-- C12: the reported total is the number of out-of-range events since the last reset, for every
history of calls. -/
theorem C12_warning_total (dblMax eps : ℝ) (el : StatElement) (h : List StatEvent)
    (hw : ∀ e ∈ h, e.WellFormed) (h1 : el.flags.collectStatistics = true)
    (h2 : el.flags.collectExtrapolationWarnings = true)
    (h3 : el.flags.stopOnExtrapolationWarnings = false) :
    (statRun dblMax eps el h).countEW =
      ((sinceLast StatEvent.clearsWarnings h).flatMap (·.processed el)).countP
        (fun p => Outside eps p) :=
  (statRun_inv dblMax eps el h1 h2 h3 h hw).1

open Classical in
/-- C12: per symmetry function, the recorded warnings are the unscaled out-of-range values since
the last reset, in order. -/
theorem C12_warning_values (dblMax eps : ℝ) (el : StatElement) (h : List StatEvent)
    (hw : ∀ e ∈ h, e.WellFormed) (h1 : el.flags.collectStatistics = true)
    (h2 : el.flags.collectExtrapolationWarnings = true)
    (h3 : el.flags.stopOnExtrapolationWarnings = false) (j : Nat) :
    ((statRun dblMax eps el h).at dblMax j).valueEW =
      (((sinceLast StatEvent.clearsWarnings h).flatMap (·.processed el)).filter
        (fun p => p.1.index = j ∧ Outside eps p)).map (fun p => p.1.unscale p.2) := by
  have := ((statRun_inv dblMax eps el h1 h2 h3 h hw).2 j).valueEW
  rw [this]
  simp [ewAt, StatContainer.init]

/-- C12: per symmetry function, count, sum, sum of squares, minimum and maximum are those of the
(scaled) values processed since the last reset. -/
theorem C12_statistics (dblMax eps : ℝ) (el : StatElement) (h : List StatEvent)
    (hw : ∀ e ∈ h, e.WellFormed) (h1 : el.flags.collectStatistics = true)
    (h3 : el.flags.stopOnExtrapolationWarnings = false) (j : Nat) (vs : List ℝ)
    (hvs : vs = (((sinceLast StatEvent.clearsStatistics h).flatMap (·.processed el)).filter
        (fun p => p.1.index = j)).map (·.2)) :
    let c := (statRun dblMax eps el h).at dblMax j
    c.count = vs.length ∧ c.sum = vs.sum ∧ c.sum2 = (vs.map (fun x => x ^ 2)).sum ∧
    (vs ≠ [] → (∀ v ∈ vs, |v| ≤ dblMax) →
      (c.min ∈ vs ∧ ∀ v ∈ vs, c.min ≤ v) ∧ (c.max ∈ vs ∧ ∀ v ∈ vs, v ≤ c.max)) := by
  intro c
  obtain ⟨ws, hA⟩ := statRun_values dblMax eps el h1 h3 h hw j
  have hv : valsAt j ((sinceLast StatEvent.clearsStatistics h).flatMap (·.processed el)) = vs := by
    rw [hvs]; rfl
  rw [hv] at hA
  refine ⟨?_, ?_, ?_, ?_⟩
  · have := hA.count; simpa [StatContainer.init] using this
  · have := hA.sum; simpa [StatContainer.init] using this
  · have := hA.sum2
    simp only [StatContainer.init, zero_add] at this
    simp only [pow_two]
    exact this
  · intro hne hb
    have hmin : c.min = vs.foldl Min.min dblMax := hA.min
    have hmax : c.max = vs.foldl Max.max (-dblMax) := hA.max
    obtain ⟨w, hw0⟩ := List.exists_mem_of_ne_nil vs hne
    obtain ⟨a1, a2, a3⟩ := foldl_min_le vs dblMax
    obtain ⟨b1, b2, b3⟩ := le_foldl_max vs (-dblMax)
    rw [hmin, hmax]
    refine ⟨⟨?_, a2⟩, ⟨?_, b2⟩⟩
    · rcases a3 with h | h
      · have h5 := a2 w hw0
        have h6 := (abs_le.1 (hb w hw0)).2
        have : vs.foldl Min.min dblMax = w := by linarith
        rw [this]; exact hw0
      · exact h
    · rcases b3 with h | h
      · have h5 := b2 w hw0
        have h6 := (abs_le.1 (hb w hw0)).1
        have : vs.foldl Max.max (-dblMax) = w := by linarith
        rw [this]; exact hw0
      · exact h

/-- A concrete history: range [1, 3], one value inside, one outside, reset, one outside. -/
noncomputable def exEl : StatElement :=
  ⟨0, "H".toList, [⟨0, 0, 2, .none, 0, 0, 1, 3, 2, 1, 1⟩], ⟨true, true, false⟩⟩

open Classical in
example : (statRun 100 (1 / 100) exEl
    [.update ⟨0, 1, 7, 1, [2]⟩, .update ⟨0, 1, 7, 2, [5]⟩, .resetEW,
     .update ⟨0, 1, 7, 3, [4]⟩]).countEW = 1 := by
  rw [C12_warning_total _ _ _ _ (by simp [StatEvent.WellFormed]) rfl rfl rfl]
  have : sinceLast StatEvent.clearsWarnings
      [.update ⟨0, 1, 7, 1, [2]⟩, .update ⟨0, 1, 7, 2, [5]⟩, .resetEW,
        .update ⟨0, 1, 7, 3, [4]⟩] = [.update ⟨0, 1, 7, 3, [4]⟩] := rfl
  rw [this]
  have hp : (StatEvent.update ⟨0, 1, 7, 3, [4]⟩).processed exEl =
      [(⟨0, 0, 2, .none, 0, 0, 1, 3, 2, 1, 1⟩, 4)] := by
    simp [StatEvent.processed, exEl]
  rw [List.flatMap_singleton, hp]
  rw [List.countP_cons, List.countP_nil]
  rw [if_pos]
  rw [decide_eq_true_eq, outside_iff]
  right
  norm_num [SymFncScaling.unscale]

end N2P2
