import Verif.Model.Cutoff
import Mathlib.Analysis.SpecialFunctions.Trigonometric.Deriv
import Mathlib.Analysis.SpecialFunctions.Trigonometric.DerivHyp
import Mathlib.Analysis.SpecialFunctions.SmoothTransition
import Mathlib.Analysis.Calculus.Deriv.MeanValue
import Mathlib.Tactic.FieldSimp
import Mathlib.Tactic.LinearCombination

namespace N2P2

/-! ### Gluing -/

/-- Two functions agreeing to first order at `a` glue differentiably. -/
theorem hasDerivAt_glue {g h : ℝ → ℝ} {a d : ℝ} (hg : HasDerivAt g d a) (hh : HasDerivAt h d a)
    (he : g a = h a) : HasDerivAt (fun x => open Classical in if x < a then g x else h x) d a := by
  classical
  have h1 : HasDerivWithinAt (fun x => if x < a then g x else h x) d (Set.Iic a) a := by
    refine (hg.hasDerivWithinAt (s := Set.Iic a)).congr ?_ ?_
    · intro x hx
      split
      · rfl
      · have : x = a := le_antisymm hx (not_lt.1 ‹_›)
        rw [this, he]
    · simp [he]
  have h2 : HasDerivWithinAt (fun x => if x < a then g x else h x) d (Set.Ici a) a := by
    refine (hh.hasDerivWithinAt (s := Set.Ici a)).congr ?_ ?_
    · intro x hx
      rw [if_neg (not_lt.2 hx)]
    · simp
  have h3 := h1.union h2
  rw [Set.Iic_union_Ici] at h3
  convert h3.hasDerivAt Filter.univ_mem using 1

theorem hasDerivAt_glue' {g h : ℝ → ℝ} {g' h' : ℝ → ℝ} {a : ℝ} (hg : ∀ x, HasDerivAt g (g' x) x)
    (hh : ∀ x, HasDerivAt h (h' x) x) (he : g a = h a) (he' : g' a = h' a) (x : ℝ) :
    HasDerivAt (fun x => open Classical in if x < a then g x else h x)
      (open Classical in if x < a then g' x else h' x) x := by
  classical
  rcases lt_trichotomy x a with hx | hx | hx
  · rw [if_pos hx]
    refine (hg x).congr_of_eventuallyEq ?_
    filter_upwards [gt_mem_nhds hx] with y hy
    rw [if_pos hy]
  · subst hx
    rw [if_neg (lt_irrefl _)]
    have h1 := hg x
    rw [he'] at h1
    exact hasDerivAt_glue h1 (hh x) he
  · rw [if_neg (not_lt.2 hx.le)]
    refine (hh x).congr_of_eventuallyEq ?_
    filter_upwards [lt_mem_nhds hx] with y hy
    rw [if_neg (not_lt.2 hy.le)]

/-! ### Core functions -/

namespace CoreType

/-- Differentiable continuation of the core functions to the whole line. -/
noncomputable def s (t : CoreType) (x : ℝ) : ℝ :=
  match t with
  | EXP => Real.exp 1 * expNegInvGlue (1 - x ^ 2)
  | t => t.f x

open Classical in
noncomputable def ds (t : CoreType) (x : ℝ) : ℝ :=
  match t with
  | EXP => if x ^ 2 < 1 then EXP.df x else 0
  | t => t.df x

theorem s_eq (t : CoreType) (x : ℝ) (h : t = .EXP → x ^ 2 < 1) : t.s x = t.f x := by
  cases t
  case EXP =>
    have h1 := h rfl
    have h2 : ¬ (1 - x ^ 2 ≤ 0) := by linarith
    simp only [s, f, expNegInvGlue, if_neg h2]
    congr 2
    rw [show x * x - 1.0 = -(1 - x ^ 2) by norm_num; ring, one_div_neg_eq_neg_one_div_aux]
  all_goals rfl
where
  one_div_neg_eq_neg_one_div_aux {y : ℝ} : (1.0 : ℝ) / (-y) = - y⁻¹ := by
    norm_num

theorem ds_eq (t : CoreType) (x : ℝ) (h : t = .EXP → x ^ 2 < 1) : t.ds x = t.df x := by
  cases t
  case EXP => simp only [ds, if_pos (h rfl)]
  all_goals rfl

theorem hasDerivAt_s (t : CoreType) (x : ℝ) : HasDerivAt t.s (t.ds x) x := by
  cases t
  case COS =>
    have h := (((Real.hasDerivAt_cos (Real.pi * x)).comp x
      ((hasDerivAt_id x).const_mul Real.pi)).add_const (1.0 : ℝ)).const_mul (0.5 : ℝ)
    refine (h.congr_deriv ?_)
    simp only [ds, df]; norm_num; ring
  case POLY1 =>
    have h : HasDerivAt (fun x : ℝ => 2 * x ^ 3 - 3 * x ^ 2 + 1)
        (2 * (3 * x ^ 2) - 3 * (2 * x)) x := by
      have h3 := (hasDerivAt_pow 3 x).const_mul 2
      have h2 := (hasDerivAt_pow 2 x).const_mul 3
      refine ((h3.sub h2).add_const 1).congr_deriv ?_
      norm_num
    have e : CoreType.POLY1.s = fun x : ℝ => 2 * x ^ 3 - 3 * x ^ 2 + 1 := by
      funext y; simp only [s, f]; norm_num; ring
    rw [e]
    refine h.congr_deriv ?_
    simp only [ds, df]; norm_num; ring
  case POLY2 =>
    have h : HasDerivAt (fun x : ℝ => 15 * x ^ 4 - 6 * x ^ 5 - 10 * x ^ 3 + 1)
        (15 * (4 * x ^ 3) - 6 * (5 * x ^ 4) - 10 * (3 * x ^ 2)) x := by
      have h4 := (hasDerivAt_pow 4 x).const_mul 15
      have h5 := (hasDerivAt_pow 5 x).const_mul 6
      have h3 := (hasDerivAt_pow 3 x).const_mul 10
      refine (((h4.sub h5).sub h3).add_const 1).congr_deriv ?_
      norm_num
    have e : CoreType.POLY2.s = fun x : ℝ => 15 * x ^ 4 - 6 * x ^ 5 - 10 * x ^ 3 + 1 := by
      funext y; simp only [s, f]; norm_num; ring
    rw [e]
    refine h.congr_deriv ?_
    simp only [ds, df]; norm_num; ring
  case POLY3 =>
    have h : HasDerivAt (fun x : ℝ => 20 * x ^ 7 - 70 * x ^ 6 + 84 * x ^ 5 - 35 * x ^ 4 + 1)
        (20 * (7 * x ^ 6) - 70 * (6 * x ^ 5) + 84 * (5 * x ^ 4) - 35 * (4 * x ^ 3)) x := by
      have h7 := (hasDerivAt_pow 7 x).const_mul 20
      have h6 := (hasDerivAt_pow 6 x).const_mul 70
      have h5 := (hasDerivAt_pow 5 x).const_mul 84
      have h4 := (hasDerivAt_pow 4 x).const_mul 35
      refine ((((h7.sub h6).add h5).sub h4).add_const 1).congr_deriv ?_
      norm_num
    have e : CoreType.POLY3.s =
        fun x : ℝ => 20 * x ^ 7 - 70 * x ^ 6 + 84 * x ^ 5 - 35 * x ^ 4 + 1 := by
      funext y; simp only [s, f]; norm_num; ring
    rw [e]
    refine h.congr_deriv ?_
    simp only [ds, df]; norm_num; ring
  case POLY4 =>
    have h : HasDerivAt
        (fun x : ℝ => 315 * x ^ 8 - 70 * x ^ 9 - 540 * x ^ 7 + 420 * x ^ 6 - 126 * x ^ 5 + 1)
        (315 * (8 * x ^ 7) - 70 * (9 * x ^ 8) - 540 * (7 * x ^ 6) + 420 * (6 * x ^ 5) -
          126 * (5 * x ^ 4)) x := by
      have h8 := (hasDerivAt_pow 8 x).const_mul 315
      have h9 := (hasDerivAt_pow 9 x).const_mul 70
      have h7 := (hasDerivAt_pow 7 x).const_mul 540
      have h6 := (hasDerivAt_pow 6 x).const_mul 420
      have h5 := (hasDerivAt_pow 5 x).const_mul 126
      refine (((((h8.sub h9).sub h7).add h6).sub h5).add_const 1).congr_deriv ?_
      norm_num
    have e : CoreType.POLY4.s = fun x : ℝ =>
        315 * x ^ 8 - 70 * x ^ 9 - 540 * x ^ 7 + 420 * x ^ 6 - 126 * x ^ 5 + 1 := by
      funext y; simp only [s, f]; norm_num; ring
    rw [e]
    refine h.congr_deriv ?_
    simp only [ds, df]; norm_num; ring
  case EXP =>
    have h0 := expNegInvGlue.hasDerivAt_polynomial_eval_inv_mul 1 (1 - x ^ 2)
    simp only [Polynomial.eval_one, one_mul, Polynomial.derivative_one, sub_zero, mul_one,
      Polynomial.eval_pow, Polynomial.eval_X] at h0
    have h1 : HasDerivAt (fun x : ℝ => 1 - x ^ 2) (-(2 * x)) x := by
      refine ((hasDerivAt_pow 2 x).const_sub 1).congr_deriv ?_
      norm_num
    have h2 := (h0.comp x h1).const_mul (Real.exp 1)
    refine HasDerivAt.congr_deriv h2 ?_
    simp only [ds]
    split
    · rename_i hx
      have h3 : ¬ (1 - x ^ 2 ≤ 0) := by linarith
      simp only [df, expNegInvGlue, if_neg h3]
      rw [show x * x - 1.0 = -(1 - x ^ 2) by norm_num; ring,
        CoreType.s_eq.one_div_neg_eq_neg_one_div_aux]
      generalize (1 - x ^ 2)⁻¹ = y
      rw [show (2.0 : ℝ) = 2 by norm_num]
      ring
    · rename_i hx
      rw [expNegInvGlue.zero_of_nonpos (by linarith [not_lt.1 hx])]
      ring

theorem s_zero (t : CoreType) : t.s 0 = 1 := by
  cases t
  case EXP =>
    rw [s_eq _ _ (by norm_num)]
    simp only [f]
    rw [← Real.exp_add]
    norm_num
  all_goals (simp only [s, f]; norm_num)

theorem ds_zero (t : CoreType) : t.ds 0 = 0 := by
  rw [ds_eq _ _ (by norm_num)]
  cases t <;> (simp only [df]; norm_num)

theorem s_one (t : CoreType) : t.s 1 = 0 := by
  cases t
  case EXP => simp only [s]; norm_num
  all_goals (simp only [s, f]; norm_num)

theorem ds_one (t : CoreType) : t.ds 1 = 0 := by
  cases t
  case EXP => simp only [ds]; norm_num
  all_goals (simp only [ds, df]; norm_num)

theorem ds_nonpos (t : CoreType) (x : ℝ) (h0 : 0 ≤ x) (h1 : x ≤ 1) : t.ds x ≤ 0 := by
  cases t
  case COS =>
    simp only [ds, df]
    have : 0 ≤ Real.sin (Real.pi * x) :=
      Real.sin_nonneg_of_nonneg_of_le_pi (by positivity)
        (by nlinarith [Real.pi_pos])
    have := mul_nonneg (by positivity : 0 ≤ Real.pi / 2) this
    linarith
  case POLY1 =>
    simp only [ds, df]; norm_num
    have := mul_nonneg h0 (sub_nonneg.2 h1)
    nlinarith
  case POLY2 =>
    simp only [ds, df]; norm_num
    have := sq_nonneg (x * (x - 1))
    nlinarith
  case POLY3 =>
    have e : CoreType.POLY3.ds x = -(140 * (x * (1 - x)) ^ 3) := by
      simp only [ds, df]; norm_num; ring
    rw [e]
    have := pow_nonneg (mul_nonneg h0 (sub_nonneg.2 h1)) 3
    linarith
  case POLY4 =>
    have e : CoreType.POLY4.ds x = -(630 * (x * (1 - x)) ^ 4) := by
      simp only [ds, df]; norm_num; ring
    rw [e]
    have := pow_nonneg (mul_nonneg h0 (sub_nonneg.2 h1)) 4
    linarith
  case EXP =>
    simp only [ds]
    split
    · simp only [df]
      have h2 := mul_nonneg (mul_nonneg (mul_nonneg (Real.exp_pos 1).le h0)
        (mul_self_nonneg (1.0 / (x * x - 1.0)))) (Real.exp_pos (1.0 / (x * x - 1.0))).le
      norm_num at h2 ⊢
      nlinarith
    · exact le_rfl

/-- Combined evaluation agrees with the separate ones on `[0, 1]`. -/
theorem fdf_eq (t : CoreType) (x : ℝ) (h0 : 0 ≤ x) (h1 : x ≤ 1) : t.fdf x = (t.f x, t.df x) := by
  cases t
  case COS =>
    have hs : 0 ≤ Real.sin (Real.pi * x) :=
      Real.sin_nonneg_of_nonneg_of_le_pi (by positivity) (by nlinarith [Real.pi_pos])
    have : Real.sqrt (1.0 - Real.cos (Real.pi * x) * Real.cos (Real.pi * x)) =
        Real.sin (Real.pi * x) := by
      rw [show (1.0 : ℝ) - Real.cos (Real.pi * x) * Real.cos (Real.pi * x) =
        Real.sin (Real.pi * x) ^ 2 by
          have := Real.sin_sq_add_cos_sq (Real.pi * x)
          norm_num; linarith]
      exact Real.sqrt_sq hs
    simp only [fdf, f, df, this, Prod.mk.injEq, true_and]
    rw [show (0.5 : ℝ) = 1 / 2 by norm_num]
    ring
  case POLY1 => rfl
  case EXP => rfl
  all_goals
    refine Prod.ext ?_ ?_ <;> simp only [fdf, f, df, mul_assoc]

end CoreType

namespace CoreFunction

noncomputable def s (c : CoreFunction) (x : ℝ) : ℝ :=
  if c.asymmetric then c.type.s ((2 - x) * x) else c.type.s x

noncomputable def ds (c : CoreFunction) (x : ℝ) : ℝ :=
  if c.asymmetric then (2 - 2 * x) * c.type.ds ((2 - x) * x) else c.type.ds x

theorem arg_sq_lt (x : ℝ) (h0 : 0 ≤ x) (h1 : x < 1) : ((2 - x) * x) ^ 2 < 1 := by
  have a1 : 0 ≤ (2 - x) * x := mul_nonneg (by linarith) h0
  have a2 : (2 - x) * x < 1 := by nlinarith [sq_nonneg (1 - x), mul_pos (sub_pos.2 h1) (sub_pos.2 h1)]
  nlinarith

theorem s_eq (c : CoreFunction) (x : ℝ) (h0 : 0 ≤ x) (h1 : x < 1) : c.s x = c.f x := by
  unfold s f
  by_cases h : c.asymmetric = true
  · simp only [h, if_true]
    rw [CoreType.s_eq]
    · norm_num
    · intro _; exact arg_sq_lt x h0 h1
  · rw [if_neg h, if_neg h]
    rw [CoreType.s_eq]
    intro _; nlinarith

theorem ds_eq (c : CoreFunction) (x : ℝ) (h0 : 0 ≤ x) (h1 : x < 1) : c.ds x = c.df x := by
  unfold ds df
  by_cases h : c.asymmetric = true
  · simp only [h, if_true]
    rw [CoreType.ds_eq]
    · norm_num
    · intro _; exact arg_sq_lt x h0 h1
  · rw [if_neg h, if_neg h]
    rw [CoreType.ds_eq]
    intro _; nlinarith

theorem hasDerivAt_s (c : CoreFunction) (x : ℝ) : HasDerivAt c.s (c.ds x) x := by
  unfold ds
  by_cases h : c.asymmetric = true
  · have e : c.s = fun x => c.type.s ((2 - x) * x) := by funext y; simp only [s, h, if_true]
    rw [e, if_pos h]
    have h1 : HasDerivAt (fun x : ℝ => (2 - x) * x) (2 - 2 * x) x := by
      refine (((hasDerivAt_id x).const_sub 2).mul (hasDerivAt_id x)).congr_deriv ?_
      simp; ring
    refine (HasDerivAt.comp (h := fun x : ℝ => (2 - x) * x) x
      (CoreType.hasDerivAt_s c.type ((2 - x) * x)) h1).congr_deriv ?_
    ring
  · have e : c.s = c.type.s := by funext y; simp only [s, h]; simp
    rw [e, if_neg h]
    exact CoreType.hasDerivAt_s c.type x

theorem s_zero (c : CoreFunction) : c.s 0 = 1 := by
  unfold s; simp [CoreType.s_zero]

theorem s_one (c : CoreFunction) : c.s 1 = 0 := by
  unfold s
  rw [show ((2 : ℝ) - 1) * 1 = 1 by norm_num]
  simp [CoreType.s_one]

theorem ds_zero (c : CoreFunction) : c.ds 0 = 0 := by
  unfold ds; simp [CoreType.ds_zero]

theorem ds_one (c : CoreFunction) : c.ds 1 = 0 := by
  unfold ds
  rw [show ((2 : ℝ) - 1) * 1 = 1 by norm_num]
  simp [CoreType.ds_one]

theorem ds_nonpos (c : CoreFunction) (x : ℝ) (h0 : 0 ≤ x) (h1 : x ≤ 1) : c.ds x ≤ 0 := by
  unfold ds
  split
  · have := CoreType.ds_nonpos c.type ((2 - x) * x) (mul_nonneg (by linarith) h0)
      (by nlinarith [sq_nonneg (1 - x)])
    exact mul_nonpos_of_nonneg_of_nonpos (by linarith) this
  · exact CoreType.ds_nonpos c.type x h0 h1

theorem s_antitone (c : CoreFunction) : AntitoneOn c.s (Set.Icc 0 1) := by
  apply antitoneOn_of_deriv_nonpos (convex_Icc 0 1)
  · exact fun x _ => (c.hasDerivAt_s x).continuousAt.continuousWithinAt
  · exact fun x _ => (c.hasDerivAt_s x).differentiableAt.differentiableWithinAt
  · intro x hx
    rw [interior_Icc] at hx
    rw [(c.hasDerivAt_s x).deriv]
    exact c.ds_nonpos x hx.1.le hx.2.le

theorem s_mem (c : CoreFunction) (x : ℝ) (h0 : 0 ≤ x) (h1 : x ≤ 1) : c.s x ∈ Set.Icc (0 : ℝ) 1 := by
  constructor
  · have := c.s_antitone ⟨h0, h1⟩ (⟨zero_le_one, le_rfl⟩ : (1 : ℝ) ∈ Set.Icc (0 : ℝ) 1) h1
    rwa [s_one] at this
  · have := c.s_antitone (⟨le_rfl, zero_le_one⟩ : (0 : ℝ) ∈ Set.Icc (0 : ℝ) 1) ⟨h0, h1⟩ h0
    rwa [s_zero] at this

theorem fdf_eq (c : CoreFunction) (x : ℝ) (h0 : 0 ≤ x) (h1 : x ≤ 1) :
    c.fdf x = (c.f x, c.df x) := by
  unfold fdf f df
  by_cases h : c.asymmetric = true
  · simp only [h, if_true]
    rw [CoreType.fdf_eq _ _ (mul_nonneg (by norm_num; linarith) h0)
      (by norm_num; nlinarith [sq_nonneg (1 - x)])]
    simp only [mul_comm]
  · simp only [h]
    exact CoreType.fdf_eq _ _ h0 h1

open Classical in
/-- 1 left of 0, the core function in between, 0 right of 1. -/
noncomputable def g (c : CoreFunction) (x : ℝ) : ℝ :=
  if x < 0 then 1 else if x < 1 then c.s x else 0

open Classical in
noncomputable def dg (c : CoreFunction) (x : ℝ) : ℝ :=
  if x < 0 then 0 else if x < 1 then c.ds x else 0

theorem hasDerivAt_g (c : CoreFunction) (x : ℝ) : HasDerivAt c.g (c.dg x) x := by
  have h1 := hasDerivAt_glue' (g := c.s) (h := fun _ => 0) (g' := c.ds) (h' := fun _ => 0) (a := 1)
    (fun x => c.hasDerivAt_s x) (fun x => hasDerivAt_const x 0) c.s_one c.ds_one
  refine hasDerivAt_glue' (g := fun _ => 1) (g' := fun _ => 0) (a := 0)
    (fun x => hasDerivAt_const x 1) h1 ?_ ?_ x
  · simp [c.s_zero]
  · simp [c.ds_zero]

theorem dg_nonpos (c : CoreFunction) (x : ℝ) : c.dg x ≤ 0 := by
  unfold dg
  split
  · exact le_rfl
  · split
    · exact c.ds_nonpos x (by linarith) (by linarith)
    · exact le_rfl

theorem g_antitone (c : CoreFunction) : Antitone c.g := by
  apply antitone_of_deriv_nonpos
  · exact fun x => (c.hasDerivAt_g x).differentiableAt
  · intro x; rw [(c.hasDerivAt_g x).deriv]; exact c.dg_nonpos x

theorem g_mem (c : CoreFunction) (x : ℝ) : c.g x ∈ Set.Icc (0 : ℝ) 1 := by
  unfold g
  split
  · simp
  · split
    · exact c.s_mem x (by linarith) (by linarith)
    · simp

end CoreFunction

/-! ### tanh -/

theorem hasDerivAt_tanh (x : ℝ) : HasDerivAt Real.tanh (1 - Real.tanh x ^ 2) x := by
  have h := (Real.hasDerivAt_sinh x).div (Real.hasDerivAt_cosh x) (Real.cosh_pos x).ne'
  have e : Real.tanh = fun x => Real.sinh x / Real.cosh x := by
    funext y; exact Real.tanh_eq_sinh_div_cosh y
  rw [e]
  refine HasDerivAt.congr_deriv h ?_
  have := (Real.cosh_pos x).ne'
  field_simp

theorem tanh_strictMono : StrictMono Real.tanh := by
  apply strictMono_of_deriv_pos
  intro x
  rw [(hasDerivAt_tanh x).deriv]
  have := Real.tanh_sq_lt_one x
  linarith

theorem tanh_nonneg {x : ℝ} (h : 0 ≤ x) : 0 ≤ Real.tanh x := by
  have := tanh_strictMono.monotone h
  rwa [Real.tanh_zero] at this

theorem TANH_PRE_eq : CutoffFunction.TANH_PRE = (Real.tanh 1)⁻¹ ^ 3 := by
  unfold CutoffFunction.TANH_PRE
  rw [Real.tanh_eq]
  rw [inv_div, Real.exp_neg]
  simp only [one_div]

end N2P2
