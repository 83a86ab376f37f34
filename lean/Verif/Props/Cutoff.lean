import Verif.Spec.Cutoff
import Verif.Lemma.CutoffConfig

/-! Properties C13-C15 (cutoff functions), C16 (compact functions), C54 (screening function),
C60 (order of setter calls). -/

namespace N2P2

/-! ### C13 -/

/-- C13: at and beyond the cutoff radius, value and derivative vanish, for each type. -/
theorem C13_zero_beyond (c : CutoffFunction) (t : CutoffType) (rc a r : ℝ)
    (h : c.Configured t rc a) (hr : rc ≤ r) : c.f r = 0 ∧ c.df r = 0 ∧ c.fdf r = (0, 0) := by
  have hc := h.cfg
  unfold CutoffFunction.f CutoffFunction.df CutoffFunction.fdf
  rw [hc.rc, if_pos hr, if_pos hr, if_pos hr]
  norm_num

/-- C13: the value decreases with distance and lies between 0 and 1. -/
theorem C13_bounds (c : CutoffFunction) (t : CutoffType) (rc a : ℝ) (h : c.Configured t rc a)
    (hrc : 0 < rc) :
    (∀ r, 0 ≤ r → 0 ≤ c.f r ∧ c.f r ≤ 1) ∧
    ∀ r r', 0 ≤ r → r ≤ r' → c.f r' ≤ c.f r := by
  have hc := h.cfg
  rcases inner_or t with ht | ht | ht
  · constructor
    · intro r _
      rw [(hc.f_eq hrc ht r).1]
      exact (coreOf t).g_mem _
    · intro r r' _ hrr
      rw [(hc.f_eq hrc ht r).1, (hc.f_eq hrc ht r').1]
      apply (coreOf t).g_antitone
      exact mul_le_mul_of_nonneg_right (by linarith) (hc.x_lt hrc r).1.le
  · have hm : ∀ r r', 0 ≤ r → r ≤ r' → c.f r' ≤ c.f r := by
      intro r r' h0 hrr
      rw [(hc.tanh_eq ht r).1, (hc.tanh_eq ht r').1]
      have hdiv : r / rc ≤ r' / rc := div_le_div_of_nonneg_right hrr hrc.le
      by_cases hr' : r' < rc
      · rw [if_pos hr', if_pos (lt_of_le_of_lt hrr hr')]
        have n : 0 ≤ 1 - r' / rc := by
          have := (div_le_one hrc).2 hr'.le; linarith
        exact mul_le_mul_of_nonneg_left (pow_le_pow_left₀ (tanh_nonneg n)
          (tanh_strictMono.monotone (by linarith)) 3) (tanhPre_nonneg t)
      · rw [if_neg hr']
        split
        · rename_i hlt
          have n : 0 ≤ 1 - r / rc := by
            have := (div_le_one hrc).2 hlt.le; linarith
          exact mul_nonneg (tanhPre_nonneg t) (pow_nonneg (tanh_nonneg n) 3)
        · exact le_rfl
    refine ⟨?_, hm⟩
    intro r h0
    constructor
    · have h1 := hm r (max r rc) h0 (le_max_left _ _)
      rw [(C13_zero_beyond c t rc a (max r rc) h (le_max_right _ _)).1] at h1
      exact h1
    · refine (hm 0 r le_rfl h0).trans ?_
      rw [(hc.tanh_eq ht 0).1, if_pos hrc]
      simp only [zero_div, sub_zero]
      rcases ht with rfl | rfl
      · simp only [tanhPre, one_mul]
        exact pow_le_one₀ tanh_one_pos.le (Real.tanh_lt_one 1).le
      · simp only [tanhPre]
        rw [← mul_pow, inv_mul_cancel₀ tanh_one_pos.ne', one_pow]
  · subst ht
    constructor
    · intro r _
      rw [(hard_eq hc r).1]
      split <;> norm_num
    · intro r r' _ hrr
      rw [(hard_eq hc r).1, (hard_eq hc r').1]
      by_cases hr' : r' < rc
      · rw [if_pos hr', if_pos (lt_of_le_of_lt hrr hr')]
      · rw [if_neg hr']; split <;> norm_num

/-- C13: inside the inner radius `alpha * rc` the value is 1 for the types which have one. -/
theorem C13_inner_region (c : CutoffFunction) (t : CutoffType) (rc a r : ℝ)
    (h : c.Configured t rc a) (hrc : 0 < rc) (ht : t.HasInner) (hr : r ≤ a * rc) : c.f r = 1 := by
  have hc := h.cfg
  rw [(hc.f_eq hrc ht r).1]
  unfold CoreFunction.g
  rcases hr.lt_or_eq with hr | hr
  · rw [if_pos ((hc.x_lt hrc r).2.2.2 (by rw [hc.rci]; linarith))]
  · have : (r - c.rci) * c.iw = 0 := by rw [hc.rci, hr]; ring
    rw [this]
    simp [CoreFunction.s_zero]

/-- C13: at distance zero the value is 1, except for the unnormalised tanh, where it is
`tanh(1)^3 < 1`. -/
theorem C13_at_zero (c : CutoffFunction) (t : CutoffType) (rc a : ℝ) (h : c.Configured t rc a)
    (hrc : 0 < rc) :
    (t ≠ .TANHU → c.f 0 = 1) ∧ (t = .TANHU → c.f 0 = Real.tanh 1 ^ 3 ∧ c.f 0 < 1) := by
  have hc := h.cfg
  constructor
  · intro hne
    rcases inner_or t with ht | ht | ht
    · exact C13_inner_region c t rc a 0 h hrc ht (mul_nonneg hc.a0 hrc.le)
    · rw [(hc.tanh_eq ht 0).1, if_pos hrc]
      rcases ht with ht | ht
      · exact absurd ht hne
      · subst ht
        simp only [tanhPre, zero_div, sub_zero]
        rw [← mul_pow, inv_mul_cancel₀ tanh_one_pos.ne', one_pow]
    · subst ht
      rw [(hard_eq hc 0).1, if_pos hrc]
  · rintro rfl
    have : c.f 0 = Real.tanh 1 ^ 3 := by
      rw [(hc.tanh_eq (Or.inl rfl) 0).1, if_pos hrc]
      simp [tanhPre]
    refine ⟨this, ?_⟩
    rw [this]
    exact pow_lt_one₀ tanh_one_pos.le (Real.tanh_lt_one 1) (by norm_num)

/-! ### C14 -/

/-- C14: the derivative routine returns the derivative of the value routine at every radius,
including the inner and outer radius; only for the hard type the outer radius is excluded. -/
theorem C14_derivative (c : CutoffFunction) (t : CutoffType) (rc a r : ℝ)
    (h : c.Configured t rc a) (hrc : 0 < rc) (hr : t = .HARD → r ≠ rc) :
    HasDerivAt c.f (c.df r) r := by
  classical
  have hc := h.cfg
  rcases inner_or t with ht | ht | ht
  · have e : c.f = fun r => (coreOf t).g ((r - c.rci) * c.iw) :=
      funext fun r => (hc.f_eq hrc ht r).1
    rw [e, (hc.f_eq hrc ht r).2.1]
    have h1 : HasDerivAt (fun r => (r - c.rci) * c.iw) c.iw r := by
      refine (((hasDerivAt_id r).sub_const c.rci).mul_const c.iw).congr_deriv ?_
      simp
    refine (HasDerivAt.comp (h := fun r => (r - c.rci) * c.iw) r
      ((coreOf t).hasDerivAt_g ((r - c.rci) * c.iw)) h1).congr_deriv ?_
    ring
  · have e : c.f = fun r => if r < rc then tanhPre t * Real.tanh (1 - r / rc) ^ 3 else 0 :=
      funext fun r => (hc.tanh_eq ht r).1
    rw [e, (hc.tanh_eq ht r).2.1]
    refine hasDerivAt_glue' (g := fun r => tanhPre t * Real.tanh (1 - r / rc) ^ 3)
      (h := fun _ => 0)
      (g' := fun r => tanhPre t * (3 * Real.tanh (1 - r / rc) ^ 2 *
        ((1 - Real.tanh (1 - r / rc) ^ 2) * (-(1 / rc))))) (h' := fun _ => 0) (a := rc)
      ?_ (fun x => hasDerivAt_const x 0) ?_ ?_ r
    · intro x
      have h1 : HasDerivAt (fun x : ℝ => 1 - x / rc) (-(1 / rc)) x := by
        have := ((hasDerivAt_id x).div_const rc).const_sub 1
        exact this
      have h2 := HasDerivAt.comp (h := fun x : ℝ => 1 - x / rc) x
        (hasDerivAt_tanh (1 - x / rc)) h1
      refine ((h2.pow 3).const_mul (tanhPre t)).congr_deriv ?_
      simp
    · simp [hrc.ne']
    · simp [hrc.ne']
  · subst ht
    have e : c.f = fun r => if r < rc then (fun _ => (1 : ℝ)) r else (fun _ => (0 : ℝ)) r :=
      funext fun r => (hard_eq hc r).1
    rw [e, (hard_eq hc r).2.1]
    rcases lt_or_gt_of_ne (hr rfl) with hlt | hlt
    · refine (hasDerivAt_const r (1 : ℝ)).congr_of_eventuallyEq ?_
      filter_upwards [gt_mem_nhds hlt] with y hy
      rw [if_pos hy]
    · refine (hasDerivAt_const r (0 : ℝ)).congr_of_eventuallyEq ?_
      filter_upwards [lt_mem_nhds hlt] with y hy
      rw [if_neg (not_lt.2 hy.le)]

/-- C13: all types but the hard one are continuous everywhere, in particular at the cutoff; the
hard one jumps there. -/
theorem C13_continuous (c : CutoffFunction) (t : CutoffType) (rc a : ℝ)
    (h : c.Configured t rc a) (hrc : 0 < rc) : Continuous c.f ↔ t ≠ .HARD := by
  constructor
  · rintro hcont rfl
    have hc := h.cfg
    have h1 : Filter.Tendsto c.f (nhdsWithin rc (Set.Iio rc)) (nhds (c.f rc)) :=
      hcont.continuousWithinAt
    have h2 : Filter.Tendsto c.f (nhdsWithin rc (Set.Iio rc)) (nhds 1) := by
      refine tendsto_const_nhds.congr' ?_
      filter_upwards [self_mem_nhdsWithin] with y hy
      rw [(hard_eq hc y).1, if_pos (Set.mem_Iio.1 hy)]
    have h3 := tendsto_nhds_unique h1 h2
    rw [(C13_zero_beyond c _ rc a rc h le_rfl).1] at h3
    norm_num at h3
  · intro hne
    exact continuous_iff_continuousAt.2 fun r =>
      (C14_derivative c t rc a r h hrc (fun e => absurd e hne)).continuousAt

/-! ### C15 -/

/-- C15: the combined routine returns value and derivative of the separate routines. -/
theorem C15_combined (c : CutoffFunction) (t : CutoffType) (rc a r : ℝ)
    (h : c.Configured t rc a) (hrc : 0 < rc) : c.fdf r = (c.f r, c.df r) := by
  have hc := h.cfg
  rcases inner_or t with ht | ht | ht
  · exact (hc.f_eq hrc ht r).2.2
  · exact (hc.tanh_eq ht r).2.2
  · subst ht; exact (hard_eq hc r).2.2

/-- Concrete cutoff function: polynomial of degree 5, radius 12, inner radius 3. -/
example : ∃ c : CutoffFunction, c.Configured .POLY2 12 (1 / 4) ∧ c.f 2 = 1 ∧ c.f 12 = 0 ∧
    HasDerivAt c.f (c.df 6) 6 := by
  obtain ⟨c, hc⟩ := configured_exists .POLY2 12 (1 / 4) (by norm_num) (by norm_num)
  exact ⟨c, hc, C13_inner_region c _ _ _ _ hc (by norm_num) (by simp [CutoffType.HasInner])
    (by norm_num), (C13_zero_beyond c _ _ _ _ hc le_rfl).1,
    C14_derivative c _ _ _ _ hc (by norm_num) (by simp)⟩

/-! ### C60 -/

/-- C60 (violated): changing the radius after the parameter leaves the inner radius and the width
of the old radius in place. The same three settings in the other order give a function which is 1
again at three quarters of the cutoff radius, i.e. it neither decreases nor is it the requested
one. -/
theorem C60_radius_after_parameter_wrong :
    ∃ c c' : CutoffFunction,
      CutoffOp.run [.type .POLY1, .radius 1, .parameter 0, .radius 2] = some c ∧
      c'.Configured .POLY1 2 0 ∧ c.f (3 / 2) = 1 ∧ c'.f (3 / 2) < 1 ∧ c.f 1 = 0 := by
  have hp : ∀ c : CutoffFunction, c.setCutoffParameter 0 =
      some { c with alpha := 0, rci := c.rc * 0, iw := 1.0 / (c.rc - c.rc * 0) } := by
    intro c
    unfold CutoffFunction.setCutoffParameter
    rw [if_neg (by norm_num)]
  refine ⟨_, _, by simp [CutoffOp.run, CutoffOp.apply, hp]; rfl,
    ⟨[.type .POLY1, .radius 2, .parameter 0], ⟨⟨[], _, rfl, by simp⟩, [.type .POLY1], [], [], rfl,
      by simp, by simp⟩, by simp [CutoffOp.run, CutoffOp.apply, hp]; rfl⟩, ?_, ?_, ?_⟩
  · norm_num [CutoffFunction.f, CutoffFunction.fInner, CutoffFunction.setCutoffType,
      CutoffFunction.setCutoffRadius, CutoffFunction.init, CoreFunction.f, CoreType.f]
  · norm_num [CutoffFunction.f, CutoffFunction.fInner, CutoffFunction.setCutoffType,
      CutoffFunction.setCutoffRadius, CutoffFunction.init, CoreFunction.f, CoreType.f]
  · norm_num [CutoffFunction.f, CutoffFunction.fInner, CutoffFunction.setCutoffType,
      CutoffFunction.setCutoffRadius, CutoffFunction.init, CoreFunction.f, CoreType.f]

/-- C60, the part that holds: as long as the parameter is set after the radius, the resulting
function depends only on the last type, radius and parameter requested, whatever the order and
number of setter calls. Missing: histories in which the radius is changed last. -/
theorem C60_setter_order_partial (c c' : CutoffFunction) (t : CutoffType) (rc a : ℝ)
    (h : c.Configured t rc a) (h' : c'.Configured t rc a) :
    c.f = c'.f ∧ c.df = c'.df ∧ c.fdf = c'.fdf := by
  have k := h.cfg
  have k' := h'.cfg
  have hin : c.fInner = c'.fInner ∧ c.dfInner = c'.dfInner ∧ c.fdfInner = c'.fdfInner := by
    have hcore := k.core
    have hcore' := k'.core
    unfold CutoffFunction.fInner CutoffFunction.dfInner CutoffFunction.fdfInner
    rcases hcc : c.core with ⟨ct, as⟩
    rcases hcc' : c'.core with ⟨ct', as'⟩
    have s1 := k.sym
    have s2 := k'.sym
    rw [hcc] at s1 hcore
    rw [hcc'] at s2 hcore'
    simp only at s1 s2
    subst s1 s2
    simp only [k.type, k'.type, k.rcinv, k'.rcinv, k.rci, k'.rci, k.iw, k'.iw]
    cases t <;> simp only [and_self] <;> simp only [CoreOK] at hcore hcore' <;> subst hcore hcore' <;>
      simp
  refine ⟨?_, ?_, ?_⟩ <;> funext r
  · simp only [CutoffFunction.f, k.rc, k'.rc, hin.1]
  · simp only [CutoffFunction.df, k.rc, k'.rc, hin.2.1]
  · simp only [CutoffFunction.fdf, k.rc, k'.rc, hin.2.2]

/-! ### C16 -/

/-- C16: value 1 at the center, symmetric about the center, between 0 and 1 in the support. -/
theorem C16_center_symmetric_bounds (c : CompactFunction) (t : CoreType) (as : Bool) (l r : ℝ)
    (h : c.Configured t as l r) :
    c.f ((l + r) / 2) = 1 ∧
    (∀ d, c.f ((l + r) / 2 + d) = c.f ((l + r) / 2 - d)) ∧
    ∀ x, l < x → x < r → c.Defined x ∧ 0 ≤ c.f x ∧ c.f x ≤ 1 := by
  obtain ⟨hlr, hc, hs, -, -⟩ := h.cfg
  refine ⟨?_, ?_, ?_⟩
  · simp only [CompactFunction.f, hc, sub_self, zero_mul, abs_zero]
    rw [← CoreFunction.s_eq _ _ le_rfl zero_lt_one, CoreFunction.s_zero]
  · intro d
    simp only [CompactFunction.f, hc]
    rw [show ((l + r) / 2 + d - (l + r) / 2) * c.scale =
      -(((l + r) / 2 - d - (l + r) / 2) * c.scale) by ring, abs_neg]
  · intro x h1 h2
    obtain ⟨-, ha⟩ := compact_arg h x h1 h2
    refine ⟨?_, ?_⟩
    · intro _
      unfold CoreFunction.arg
      have hb := abs_nonneg ((x - c.center) * c.scale)
      generalize |(x - c.center) * c.scale| = y at ha hb
      split
      · have := CoreFunction.arg_sq_lt _ hb ha
        rw [show (2.0 : ℝ) = 2 by norm_num]
        intro hh
        have h3 : ((2 - y) * y) ^ 2 = 1 := by linear_combination hh
        linarith
      · nlinarith
    · simp only [CompactFunction.f]
      rw [← CoreFunction.s_eq _ _ (abs_nonneg _) ha]
      exact CoreFunction.s_mem _ _ (abs_nonneg _) ha.le

/-- C16: towards both ends of the support the function and its derivative tend to zero; for all
core functions but the exponential the end value itself is zero, for the exponential the code
divides by zero there. -/
theorem C16_vanishes_at_ends (c : CompactFunction) (t : CoreType) (as : Bool) (l r : ℝ)
    (h : c.Configured t as l r) (e : ℝ) (he : e = l ∨ e = r) :
    (t ≠ .EXP → c.Defined e ∧ c.f e = 0 ∧ (c.fdf e).2 = 0) ∧
    (t = .EXP → ¬ c.Defined e) ∧
    Filter.Tendsto c.f (nhdsWithin e (Set.Ioo l r)) (nhds 0) := by
  obtain ⟨hlr, hc, hs, -, -⟩ := h.cfg
  have hw : 0 < (r - l) / 2 := by linarith
  have hone : |(e - c.center) * c.scale| = 1 := by
    rw [hc, hs]
    rcases he with rfl | rfl
    · rw [show (e - (e + r) / 2) * (1 / ((r - e) / 2)) = -1 by
        have : r - e ≠ 0 := by linarith
        field_simp; ring]
      norm_num
    · rw [show (e - (l + e) / 2) * (1 / ((e - l) / 2)) = 1 by
        have : e - l ≠ 0 := by linarith
        field_simp; ring]
      norm_num
  have harg : c.core.arg 1 = 1 := by unfold CoreFunction.arg; split <;> norm_num
  refine ⟨?_, ?_, ?_⟩
  · intro ht
    have htc : c.core.type ≠ .EXP := by rw [h.1]; exact ht
    have hse : c.core.s 1 = c.core.f 1 := by
      unfold CoreFunction.s CoreFunction.f
      split
      · rw [CoreType.s_eq _ _ (fun e => absurd e htc)]; norm_num
      · rw [CoreType.s_eq _ _ (fun e => absurd e htc)]
    have hdse : c.core.ds 1 = c.core.df 1 := by
      unfold CoreFunction.ds CoreFunction.df
      split
      · rw [CoreType.ds_eq _ _ (fun e => absurd e htc)]; norm_num
      · rw [CoreType.ds_eq _ _ (fun e => absurd e htc)]
    refine ⟨fun e => absurd e htc, ?_, ?_⟩
    · simp only [CompactFunction.f, hone]
      rw [← hse, CoreFunction.s_one]
    · simp only [CompactFunction.fdf, hone]
      rw [CoreFunction.fdf_eq _ _ zero_le_one le_rfl]
      simp only
      rw [← hdse, CoreFunction.ds_one, zero_mul]
  · intro ht hd
    have htc : c.core.type = .EXP := by rw [h.1]; exact ht
    have := hd htc
    rw [hone, harg] at this
    norm_num at this
  · have hcont : Filter.Tendsto (fun x => c.core.s |(x - c.center) * c.scale|)
        (nhdsWithin e (Set.Ioo l r)) (nhds 0) := by
      have h1 : Continuous (fun x => c.core.s |(x - c.center) * c.scale|) := by
        have : Continuous c.core.s :=
          continuous_iff_continuousAt.2 fun x => (c.core.hasDerivAt_s x).continuousAt
        exact this.comp (((continuous_id.sub continuous_const).mul continuous_const).abs)
      have h2 := h1.tendsto e
      rw [hone, CoreFunction.s_one] at h2
      exact h2.mono_left nhdsWithin_le_nhds
    refine hcont.congr' ?_
    filter_upwards [self_mem_nhdsWithin] with x hx
    obtain ⟨-, ha⟩ := compact_arg h x hx.1 hx.2
    exact CoreFunction.s_eq _ _ (abs_nonneg _) ha

/-- C16, the part that holds: the combined routine returns value and true derivative everywhere in
the support. Missing: the same for the separate derivative routine, which is false (next two
theorems). -/
theorem C16_combined_derivative_partial (c : CompactFunction) (t : CoreType) (as : Bool) (l r : ℝ)
    (h : c.Configured t as l r) (x : ℝ) (h1 : l < x) (h2 : x < r) :
    (c.fdf x).1 = c.f x ∧ HasDerivAt c.f (c.fdf x).2 x := by
  obtain ⟨hsc, ha⟩ := compact_arg h x h1 h2
  have hfdf := CoreFunction.fdf_eq c.core _ (abs_nonneg _) ha.le
  refine ⟨?_, ?_⟩
  · simp only [CompactFunction.fdf, CompactFunction.f, hfdf]
  · have hev : c.f =ᶠ[nhds x] fun x => c.core.g |(x - c.center) * c.scale| := by
      filter_upwards [Ioo_mem_nhds h1 h2] with y hy
      obtain ⟨-, hb⟩ := compact_arg h y hy.1 hy.2
      simp only [CompactFunction.f, CoreFunction.g]
      rw [if_neg (not_lt.2 (abs_nonneg _)), if_pos hb, CoreFunction.s_eq _ _ (abs_nonneg _) hb]
    refine HasDerivAt.congr_of_eventuallyEq ?_ hev
    have hu : HasDerivAt (fun x => (x - c.center) * c.scale) c.scale x := by
      refine (((hasDerivAt_id x).sub_const c.center).mul_const c.scale).congr_deriv ?_
      simp
    have hD : (c.fdf x).2 = c.core.ds |(x - c.center) * c.scale| *
        copysign c.scale ((x - c.center) * c.scale) := by
      simp only [CompactFunction.fdf, hfdf]
      rw [← CoreFunction.ds_eq _ _ (abs_nonneg _) ha]
    have habs : ∀ v : ℝ, HasDerivAt (fun v => c.core.g |v|)
        (open Classical in if v < 0 then -c.core.dg (-v) else c.core.dg v) v := by
      intro v
      have hn : ∀ v, HasDerivAt (fun v : ℝ => c.core.g (-v)) (-c.core.dg (-v)) v := by
        intro v
        refine (HasDerivAt.comp (h := fun v : ℝ => -v) v (c.core.hasDerivAt_g (-v))
          (hasDerivAt_neg v)).congr_deriv ?_
        ring
      have h0 : c.core.dg 0 = 0 := by
        unfold CoreFunction.dg; simp [CoreFunction.ds_zero]
      have hg := hasDerivAt_glue' (a := 0) hn c.core.hasDerivAt_g (by simp) (by simp [h0]) v
      have e : (fun v : ℝ => c.core.g |v|) =
          fun v => open Classical in if v < 0 then c.core.g (-v) else c.core.g v := by
        funext v
        split
        · rw [abs_of_neg ‹_›]
        · rw [abs_of_nonneg (not_lt.1 ‹_›)]
      rw [e]
      exact hg
    have hcomp := HasDerivAt.comp (h := fun x => (x - c.center) * c.scale) x
      (habs ((x - c.center) * c.scale)) hu
    refine hcomp.congr_deriv ?_
    rw [hD]
    unfold copysign CoreFunction.dg
    by_cases hneg : (x - c.center) * c.scale < 0
    · rw [if_pos hneg, if_pos hneg, abs_of_pos hsc]
      rw [abs_of_neg hneg] at ha ⊢
      rw [if_neg (by linarith), if_pos ha]
      ring
    · rw [if_neg hneg, if_neg hneg, abs_of_pos hsc]
      rw [abs_of_nonneg (not_lt.1 hneg)] at ha ⊢
      rw [if_neg hneg, if_pos ha]

/-- C16 (violated by the separate derivative routine): it returns the negative of the derivative at
every point of the support. -/
theorem C16_separate_derivative_negated (c : CompactFunction) (t : CoreType) (as : Bool) (l r : ℝ)
    (h : c.Configured t as l r) (x : ℝ) (h1 : l < x) (h2 : x < r) :
    HasDerivAt c.f (-c.df x) x := by
  obtain ⟨hsc, ha⟩ := compact_arg h x h1 h2
  have hfdf := CoreFunction.fdf_eq c.core _ (abs_nonneg _) ha.le
  have hd := (C16_combined_derivative_partial c t as l r h x h1 h2).2
  refine hd.congr_deriv ?_
  simp only [CompactFunction.fdf, CompactFunction.df, hfdf]
  have hn := CoreFunction.ds_nonpos c.core _ (abs_nonneg _) ha.le
  rw [CoreFunction.ds_eq _ _ (abs_nonneg _) ha] at hn
  have hn2 : c.scale * c.core.df |(x - c.center) * c.scale| ≤ 0 :=
    mul_nonpos_of_nonneg_of_nonpos hsc.le hn
  unfold copysign
  split
  · rw [abs_of_pos hsc, abs_of_nonpos hn2]; ring
  · rw [abs_of_pos hsc, abs_of_nonpos hn2]; ring

/-- C16: the wrong sign is observable: for support `[-1, 1]` the two routines return different
non-zero derivatives at 1/2. -/
theorem C16_separate_derivative_wrong :
    ∃ c : CompactFunction, c.Configured .POLY1 false (-1) 1 ∧ (c.fdf (1 / 2)).2 = -3 / 2 ∧
      c.df (1 / 2) = 3 / 2 := by
  refine ⟨⟨0, 1, -1, 1, 1, ⟨.POLY1, false⟩⟩, ⟨rfl, Or.inl ⟨⟨0, 0, 0, 0, 0, ⟨.POLY1, false⟩⟩, ?_⟩⟩,
    ?_, ?_⟩
  · unfold CompactFunction.setLeftRight
    rw [if_neg (by norm_num)]
    norm_num
  · norm_num [CompactFunction.fdf, CoreFunction.fdf, CoreType.fdf, copysign, abs_of_pos]
  · norm_num [CompactFunction.df, CoreFunction.df, CoreType.df, copysign, abs_of_pos]

/-! ### C54 -/

/-- C54: 0 up to the inner radius, 1 from the outer radius on, non-decreasing and within `[0, 1]`. -/
theorem C54_values (s : ScreeningFunction) (i o : ℝ) (h : s.Configured i o) :
    (∀ r, r ≤ i → s.f r = 0) ∧ (∀ r, o ≤ r → s.f r = 1) ∧ Monotone s.f ∧
    ∀ r, 0 ≤ s.f r ∧ s.f r ≤ 1 := by
  obtain ⟨hio, hi, ho, hs⟩ := h.eq
  refine ⟨?_, ?_, ?_, ?_⟩
  · intro r hr
    unfold ScreeningFunction.f
    rw [hi, ho, if_neg (by linarith), if_pos hr]; norm_num
  · intro r hr
    unfold ScreeningFunction.f
    rw [ho, if_pos hr]; norm_num
  · intro r r' hrr
    obtain ⟨e, -, -, hsc⟩ := h.f_eq r
    rw [e, (h.f_eq r').1]
    have := s.core.g_antitone (mul_le_mul_of_nonneg_right (sub_le_sub_right hrr i) hsc.le)
    linarith
  · intro r
    rw [(h.f_eq r).1]
    have := s.core.g_mem ((r - i) * s.scale)
    exact ⟨by linarith [this.2], by linarith [this.1]⟩

/-- C54: the reported derivative is the true derivative at every radius (hence the function is
continuous), and the combined routine agrees with the separate ones. -/
theorem C54_derivative (s : ScreeningFunction) (i o : ℝ) (h : s.Configured i o) (r : ℝ) :
    HasDerivAt s.f (s.df r) r ∧ s.fdf r = (s.f r, s.df r) := by
  refine ⟨?_, (h.f_eq r).2.2.1⟩
  have e : s.f = fun r => 1 - s.core.g ((r - i) * s.scale) := funext fun r => (h.f_eq r).1
  rw [e, (h.f_eq r).2.1]
  have h1 : HasDerivAt (fun r => (r - i) * s.scale) s.scale r := by
    refine (((hasDerivAt_id r).sub_const i).mul_const s.scale).congr_deriv ?_
    simp
  have h2 := HasDerivAt.comp (h := fun r => (r - i) * s.scale) r
    (s.core.hasDerivAt_g ((r - i) * s.scale)) h1
  refine (h2.const_sub 1).congr_deriv ?_
  ring

/-- C54: a change of length units rescales the argument only. -/
theorem C54_length_units (s : ScreeningFunction) (i o conv : ℝ) (h : s.Configured i o)
    (hc : 0 < conv) (r : ℝ) : (s.changeLengthUnits conv).f (conv * r) = s.f r := by
  obtain ⟨hio, hi, ho, hs⟩ := h.eq
  unfold ScreeningFunction.f ScreeningFunction.changeLengthUnits
  simp only [hi, ho]
  have e1 : conv * r ≥ o * conv ↔ r ≥ o := by
    rw [mul_comm o]; exact mul_le_mul_iff_right₀ hc
  have e2 : conv * r ≤ i * conv ↔ r ≤ i := by
    rw [mul_comm i]; exact mul_le_mul_iff_right₀ hc
  have e3 : (conv * r - i * conv) * (s.scale / conv) = (r - i) * s.scale := by
    field_simp
  simp only [e1, e2, e3]

/-- Screening between 4 and 8. -/
example : ∃ s : ScreeningFunction, s.Configured 4 8 ∧ s.core.type = .COS := by
  refine ⟨⟨4, 8, 1.0 / (8 - 4), ⟨.COS, false⟩⟩,
    ⟨ScreeningFunction.init.setCoreFunction .COS, ?_⟩, rfl⟩
  unfold ScreeningFunction.setInnerOuter
  rw [if_neg (by norm_num)]
  rfl

end N2P2
