import Mathlib.Analysis.SpecialFunctions.Trigonometric.Bounds
import Mathlib.Analysis.SpecialFunctions.Trigonometric.InverseDeriv
import Mathlib.Analysis.SpecialFunctions.Pow.Deriv
import Mathlib.Analysis.SpecialFunctions.Sqrt
import Mathlib.Analysis.Calculus.LocalExtr.Basic
import Mathlib.Analysis.Calculus.Deriv.Prod
import Mathlib.Analysis.Calculus.Deriv.Abs
import Mathlib.Tactic.Ring
import Mathlib.Tactic.Linarith
import Mathlib.Tactic.FieldSimp
import Verif.Lemma.SymFncValue

/-! Derivatives of distances, cosines and the functions of them along curves. -/

namespace N2P2

theorem dot_comm' (u v : Vec3) : u.dot v = v.dot u := by unfold Vec3.dot; ring

theorem dot_self (u : Vec3) : u.dot u = u.norm2 := rfl

theorem norm_sq (u : Vec3) : u.norm ^ 2 = u.norm2 := by
  rw [norm_eq, Real.sq_sqrt (norm2_nonneg u)]

theorem smul_dot (c : ℝ) (u v : Vec3) : (c • u).dot v = c * u.dot v := by
  simp [Vec3.dot]; ring

theorem add_dot (u v w : Vec3) : (u + v).dot w = u.dot w + v.dot w := by
  simp [Vec3.dot]; ring

theorem sub_dot (u v w : Vec3) : (u - v).dot w = u.dot w - v.dot w := by
  simp [Vec3.dot]; ring

theorem zero_dot (w : Vec3) : (0 : Vec3).dot w = 0 := by simp [Vec3.dot]

section Curves

variable {u v : ℝ → Vec3} {U V : Vec3} {t : ℝ}

theorem hasDerivAt_dot (hu : HasDerivAt u U t) (hv : HasDerivAt v V t) :
    HasDerivAt (fun s => (u s).dot (v s)) (U.dot (v t) + (u t).dot V) t := by
  have hu' := hasDerivAt_pi.1 hu
  have hv' := hasDerivAt_pi.1 hv
  unfold Vec3.dot
  refine ((((hu' 0).mul (hv' 0)).add ((hu' 1).mul (hv' 1))).add
    ((hu' 2).mul (hv' 2))).congr_deriv ?_
  ring

theorem hasDerivAt_norm (hu : HasDerivAt u U t) (h : 0 < (u t).norm) :
    HasDerivAt (fun s => (u s).norm) ((u t).dot U / (u t).norm) t := by
  have h2 := hasDerivAt_dot hu hu
  have hne : (u t).dot (u t) ≠ 0 := by
    rw [dot_self, ← norm_sq]; positivity
  have := h2.sqrt hne
  refine HasDerivAt.congr_deriv this ?_
  rw [dot_comm' U (u t)]
  show _ / (2 * (u t).norm) = _
  field_simp
  ring

theorem abs_cosAngle_le' (u v : Vec3) : |cosAngle u v| ≤ 1 := by
  unfold cosAngle
  rw [abs_div, abs_of_nonneg (mul_nonneg (norm_nonneg u) (norm_nonneg v))]
  exact div_le_one_of_le₀ (cauchy u v) (mul_nonneg (norm_nonneg u) (norm_nonneg v))

/-- Derivative of the cosine along a curve. -/
noncomputable def cosDeriv (u v U V : Vec3) : ℝ :=
  (U.dot v + u.dot V) / (u.norm * v.norm)
    - cosAngle u v * (u.dot U / u.norm ^ 2 + v.dot V / v.norm ^ 2)

theorem hasDerivAt_cos (hu : HasDerivAt u U t) (hv : HasDerivAt v V t) (h : 0 < (u t).norm)
    (h' : 0 < (v t).norm) :
    HasDerivAt (fun s => cosAngle (u s) (v s)) (cosDeriv (u t) (v t) U V) t := by
  have h1 := hasDerivAt_dot hu hv
  have h2 := (hasDerivAt_norm hu h).mul (hasDerivAt_norm hv h')
  have := h1.div h2 (mul_pos h h').ne'
  refine HasDerivAt.congr_deriv this ?_
  unfold cosDeriv cosAngle
  simp only [Pi.mul_apply]
  field_simp

theorem cosDeriv_zero (hu : HasDerivAt u U t) (hv : HasDerivAt v V t) (h : 0 < (u t).norm)
    (h' : 0 < (v t).norm) (hc : |cosAngle (u t) (v t)| = 1) : cosDeriv (u t) (v t) U V = 0 := by
  have hd := hasDerivAt_cos hu hv h h'
  rcases (abs_eq zero_le_one).1 hc with e | e
  · refine IsLocalMax.hasDerivAt_eq_zero (Filter.Eventually.of_forall fun s => ?_) hd
    simp only [e]
    exact (abs_le.1 (abs_cosAngle_le' (u s) (v s))).2
  · refine IsLocalMin.hasDerivAt_eq_zero (Filter.Eventually.of_forall fun s => ?_) hd
    simp only [e]
    exact (abs_le.1 (abs_cosAngle_le' (u s) (v s))).1

/-! ### Angular factor of the exponential functions -/

open Classical in
/-- `x^(ζ-1)` for positive `x`, zero otherwise. -/
noncomputable def posPow (zeta x : ℝ) : ℝ := if x ≤ 0 then 0 else x ^ (zeta - 1)

theorem hasDerivAt_maxPow {zeta x : ℝ} (hz : 0 < zeta) (h : x ≠ 0 ∨ 1 < zeta) :
    HasDerivAt (fun x => max 0 x ^ zeta) (zeta * posPow zeta x) x := by
  classical
  unfold posPow
  rcases lt_trichotomy x 0 with hx | hx | hx
  · rw [if_pos hx.le, mul_zero]
    refine (hasDerivAt_const x (0 : ℝ)).congr_of_eventuallyEq ?_
    filter_upwards [gt_mem_nhds hx] with y hy
    rw [max_eq_left hy.le, Real.zero_rpow hz.ne']
  · subst hx
    have hz1 : 1 < zeta := h.resolve_left (fun k => k rfl)
    rw [if_pos le_rfl, mul_zero]
    have h2 : HasDerivAt (fun y : ℝ => y ^ zeta) 0 0 := by
      refine (Real.hasDerivAt_rpow_const (Or.inr hz1.le)).congr_deriv ?_
      rw [Real.zero_rpow (by linarith), mul_zero]
    have h3 := hasDerivAt_glue (g := fun _ => 0) (h := fun y : ℝ => y ^ zeta) (a := 0) (d := 0)
      (hasDerivAt_const (0 : ℝ) (0 : ℝ)) h2 (by rw [Real.zero_rpow hz.ne'])
    have e : (fun x : ℝ => max 0 x ^ zeta) = fun x : ℝ => if x < 0 then 0 else x ^ zeta := by
      funext y
      by_cases hy : y < 0
      · rw [if_pos hy, max_eq_left hy.le, Real.zero_rpow hz.ne']
      · rw [if_neg hy, max_eq_right (not_lt.1 hy)]
    rw [e]
    exact h3
  · rw [if_neg (not_le.2 hx)]
    refine (Real.hasDerivAt_rpow_const (Or.inl hx.ne')).congr_of_eventuallyEq ?_
    filter_upwards [lt_mem_nhds hx] with y hy
    rw [max_eq_right hy.le]

theorem hasDerivAt_angularFactor {S : SymFnc} (hz : 0 < S.zeta) (hu : HasDerivAt u U t)
    (hv : HasDerivAt v V t) (h : 0 < (u t).norm) (h' : 0 < (v t).norm)
    (hpow : 1 < S.zeta ∨ (1 ≤ S.zeta ∧ |S.lambda| ≤ 1) ∨
      1 + S.lambda * cosAngle (u t) (v t) ≠ 0) :
    HasDerivAt (fun s => S.angularFactor (cosAngle (u s) (v s)))
      (2 ^ (1 - S.zeta) * (S.zeta * S.lambda * posPow S.zeta (1 + S.lambda * cosAngle (u t) (v t))
        * cosDeriv (u t) (v t) U V)) t := by
  have hc := hasDerivAt_cos hu hv h h'
  have hp : HasDerivAt (fun s => 1 + S.lambda * cosAngle (u s) (v s))
      (S.lambda * cosDeriv (u t) (v t) U V) t := (hc.const_mul S.lambda).const_add 1
  unfold SymFnc.angularFactor
  refine HasDerivAt.const_mul _ ?_
  by_cases hne : 1 + S.lambda * cosAngle (u t) (v t) ≠ 0 ∨ 1 < S.zeta
  · have := HasDerivAt.comp (h := fun s => 1 + S.lambda * cosAngle (u s) (v s)) t
      (hasDerivAt_maxPow hz hne) hp
    refine HasDerivAt.congr_deriv this ?_
    ring
  · rw [not_or, not_not] at hne
    obtain ⟨h0, hz1⟩ := hne
    have hl : 1 ≤ S.zeta ∧ |S.lambda| ≤ 1 := by
      rcases hpow with k | k | k
      · exact absurd k hz1
      · exact k
      · exact absurd h0 k
    have hcl := abs_cosAngle_le' (u t) (v t)
    have hprod : |S.lambda| * |cosAngle (u t) (v t)| = 1 := by
      rw [← abs_mul, show S.lambda * cosAngle (u t) (v t) = -1 by linarith]; norm_num
    have hc1 : |cosAngle (u t) (v t)| = 1 := by
      refine le_antisymm hcl ?_
      nlinarith [abs_nonneg S.lambda, abs_nonneg (cosAngle (u t) (v t))]
    rw [cosDeriv_zero hu hv h h' hc1, mul_zero]
    rw [cosDeriv_zero hu hv h h' hc1, mul_zero] at hp
    have hnn : ∀ s, max 0 (1 + S.lambda * cosAngle (u s) (v s)) =
        1 + S.lambda * cosAngle (u s) (v s) := by
      intro s
      refine max_eq_right ?_
      have h1 := abs_cosAngle_le' (u s) (v s)
      have h2 : |S.lambda * cosAngle (u s) (v s)| ≤ 1 := by
        rw [abs_mul]
        exact mul_le_one₀ hl.2 (abs_nonneg _) h1
      linarith [(abs_le.1 h2).1]
    simp only [hnn]
    refine (hp.rpow_const (Or.inr hl.1)).congr_deriv ?_
    ring

/-! ### Compact functions -/

open Classical in
/-- Derivative of a compact function continued by zero. -/
noncomputable def compactDeriv (c : CompactFunction) (l r x : ℝ) : ℝ :=
  if l < x ∧ x < r then (c.fdf x).2 else 0

theorem hasDerivAt_compact {c : CompactFunction} {k : CoreType} {as : Bool} {l r : ℝ}
    (h : c.Configured k as l r) (x : ℝ) :
    HasDerivAt (SymFnc.compact c l r) (compactDeriv c l r x) x := by
  classical
  obtain ⟨hlr, hc, hs, -, -⟩ := h.cfg
  have hw : 0 < (r - l) / 2 := by linarith
  have hsc : 0 < c.scale := by rw [hs]; positivity
  have hlt : ∀ y, |(y - c.center) * c.scale| < 1 ↔ l < y ∧ y < r := by
    intro y
    rw [hc, hs, abs_lt, mul_one_div, lt_div_iff₀ hw, div_lt_one hw]
    constructor
    · rintro ⟨h1, h2⟩; constructor <;> linarith
    · rintro ⟨h1, h2⟩; constructor <;> linarith
  have e : SymFnc.compact c l r = fun x => c.core.g |(x - c.center) * c.scale| := by
    funext y
    unfold SymFnc.compact CoreFunction.g
    rw [if_neg (not_lt.2 (abs_nonneg ((y - c.center) * c.scale)))]
    by_cases hy : l < y ∧ y < r
    · rw [if_pos hy, if_pos ((hlt y).2 hy)]
      simp only [CompactFunction.f]
      rw [CoreFunction.s_eq _ _ (abs_nonneg _) ((hlt y).2 hy)]
    · rw [if_neg hy, if_neg (fun k => hy ((hlt y).1 k))]
  by_cases hx : l < x ∧ x < r
  · unfold compactDeriv
    rw [if_pos hx]
    refine ((C16_combined_derivative_partial c k as l r h x hx.1 hx.2).2).congr_of_eventuallyEq ?_
    filter_upwards [Ioo_mem_nhds hx.1 hx.2] with y hy
    unfold SymFnc.compact
    rw [if_pos ⟨hy.1, hy.2⟩]
  · unfold compactDeriv
    rw [if_neg hx, e]
    have hge : 1 ≤ |(x - c.center) * c.scale| := not_lt.1 fun k => hx ((hlt x).1 k)
    have hne : (x - c.center) * c.scale ≠ 0 := by
      intro k; rw [k, abs_zero] at hge; norm_num at hge
    have hu : HasDerivAt (fun x => (x - c.center) * c.scale) c.scale x := by
      refine (((hasDerivAt_id x).sub_const c.center).mul_const c.scale).congr_deriv ?_
      simp
    have hz : c.core.dg |(x - c.center) * c.scale| = 0 := by
      unfold CoreFunction.dg
      rw [if_neg (not_lt.2 (abs_nonneg _)), if_neg (not_lt.2 hge)]
    have hab := (hasDerivAt_abs hne).comp x hu
    have := HasDerivAt.comp (h := fun x => |(x - c.center) * c.scale|) x
      (c.core.hasDerivAt_g _) hab
    refine HasDerivAt.congr_deriv this ?_
    rw [hz, zero_mul]

theorem compact_nonneg {c : CompactFunction} {k : CoreType} {as : Bool} {l r : ℝ}
    (h : c.Configured k as l r) (x : ℝ) : 0 ≤ SymFnc.compact c l r x := by
  unfold SymFnc.compact
  split
  · rename_i hx
    exact ((C16_center_symmetric_bounds c k as l r h).2.2 x hx.1 hx.2).2.1
  · exact le_rfl

/-! ### Angle near a straight line -/

theorem one_sub_cos {a b : Vec3} (ha : 0 < a.norm) (hb : 0 < b.norm) :
    1 - cosAngle a b = (a.normalize - b.normalize).norm2 / 2 := by
  have h1 := norm_sq a
  have h2 := norm_sq b
  unfold cosAngle Vec3.normalize Vec3.dot Vec3.norm2
  unfold Vec3.norm2 at h1 h2
  simp only [Pi.sub_apply]
  field_simp
  linear_combination (b.norm ^ 2) * h1 + (a.norm ^ 2) * h2

theorem arccos_le {a b : Vec3} (ha : 0 < a.norm) (hb : 0 < b.norm) :
    Real.arccos (cosAngle a b) ≤ Real.pi / 2 * (a.normalize - b.normalize).norm := by
  have hc := abs_le.1 (abs_cosAngle_le' a b)
  set θ := Real.arccos (cosAngle a b) with hθ
  have h0 : 0 ≤ θ := Real.arccos_nonneg _
  have hcos : Real.cos θ = cosAngle a b := Real.cos_arccos hc.1 hc.2
  have hq := Real.cos_le_one_sub_mul_cos_sq (x := θ)
    (by rw [abs_of_nonneg h0]; exact Real.arccos_le_pi _)
  rw [hcos] at hq
  have h1 := one_sub_cos ha hb
  have hn := norm_nonneg (a.normalize - b.normalize)
  have hpi := Real.pi_pos
  refine le_of_sq_le_sq ?_ (by positivity)
  rw [mul_pow, norm_sq]
  have : 2 / Real.pi ^ 2 * θ ^ 2 ≤ (a.normalize - b.normalize).norm2 / 2 := by linarith
  rw [div_mul_eq_mul_div, div_le_iff₀ (by positivity)] at this
  nlinarith

theorem hasDerivAt_normalize (hu : HasDerivAt u U t) (h : 0 < (u t).norm) (i : Fin 3) :
    ∃ d, HasDerivAt (fun s => (u s).normalize i) d t :=
  ⟨_, ((hasDerivAt_pi.1 hu) i).div (hasDerivAt_norm hu h) h.ne'⟩

theorem eventually_norm_pos (hu : HasDerivAt u U t) (h : 0 < (u t).norm) :
    ∀ᶠ s in nhds t, 0 < (u s).norm :=
  (hasDerivAt_norm hu h).continuousAt.eventually (lt_mem_nhds h)

theorem norm_le_abs (a : Vec3) : a.norm ≤ |a 0| + |a 1| + |a 2| := by
  rw [norm_eq]
  refine Real.sqrt_le_iff.2 ⟨by positivity, ?_⟩
  unfold Vec3.norm2
  have h0 := abs_nonneg (a 0)
  have h1 := abs_nonneg (a 1)
  have h2 := abs_nonneg (a 2)
  nlinarith [abs_mul_abs_self (a 0), abs_mul_abs_self (a 1), abs_mul_abs_self (a 2),
    mul_nonneg h0 h1, mul_nonneg h0 h2, mul_nonneg h1 h2]

theorem norm2_eq_zero {a : Vec3} (h : a.norm2 = 0) : a = 0 := by
  unfold Vec3.norm2 at h
  have h0 := mul_self_nonneg (a 0)
  have h1 := mul_self_nonneg (a 1)
  have h2 := mul_self_nonneg (a 2)
  have e0 : a 0 * a 0 = 0 := by linarith
  have e1 : a 1 * a 1 = 0 := by linarith
  have e2 : a 2 * a 2 = 0 := by linarith
  funext i
  fin_cases i
  · exact mul_self_eq_zero.1 e0
  · exact mul_self_eq_zero.1 e1
  · exact mul_self_eq_zero.1 e2

/-- Starting from a stretched-out pair, the angle grows at most linearly. -/
theorem arccos_isBigO (hu : HasDerivAt u U t) (hv : HasDerivAt v V t) (h : 0 < (u t).norm)
    (h' : 0 < (v t).norm) (hc : cosAngle (u t) (v t) = 1) :
    (fun s => Real.arccos (cosAngle (u s) (v s))) =O[nhds t] fun s => s - t := by
  have hz : (u t).normalize - (v t).normalize = 0 := by
    refine norm2_eq_zero ?_
    have := one_sub_cos h h'
    rw [hc] at this
    linarith
  have hcomp : ∀ i : Fin 3, (fun s => (u s).normalize i - (v s).normalize i) =O[nhds t]
      fun s => s - t := by
    intro i
    obtain ⟨d, hd⟩ := hasDerivAt_normalize hu h i
    obtain ⟨d', hd'⟩ := hasDerivAt_normalize hv h' i
    have hs := (hd.sub hd').isBigO_sub
    have hzi : (u t).normalize i - (v t).normalize i = 0 := by
      have := congrFun hz i
      simpa using this
    simpa [hzi] using hs
  have hsum : (fun s => Real.pi / 2 * (|(u s).normalize 0 - (v s).normalize 0|
      + |(u s).normalize 1 - (v s).normalize 1| + |(u s).normalize 2 - (v s).normalize 2|))
      =O[nhds t] fun s => s - t :=
    (((hcomp 0).abs_left.add (hcomp 1).abs_left).add (hcomp 2).abs_left).const_mul_left _
  refine Asymptotics.IsBigO.trans ?_ hsum
  refine Asymptotics.IsBigO.of_bound 1 ?_
  filter_upwards [eventually_norm_pos hu h, eventually_norm_pos hv h'] with s h1 h2
  rw [one_mul, Real.norm_of_nonneg (Real.arccos_nonneg _), Real.norm_of_nonneg (by positivity)]
  refine (arccos_le h1 h2).trans ?_
  exact mul_le_mul_of_nonneg_left (norm_le_abs _) (by positivity)

theorem cosAngle_neg (a b : Vec3) : cosAngle a (-b) = -cosAngle a b := by
  unfold cosAngle
  rw [norm_neg]
  unfold Vec3.dot
  simp only [Pi.neg_apply]
  ring

/-- The deviation of the angle from its value at a collinear triplet. -/
theorem arccos_isBigO' (hu : HasDerivAt u U t) (hv : HasDerivAt v V t) (h : 0 < (u t).norm)
    (h' : 0 < (v t).norm) (hc : |cosAngle (u t) (v t)| = 1) :
    (fun s => Real.arccos (cosAngle (u s) (v s)) - Real.arccos (cosAngle (u t) (v t)))
      =O[nhds t] fun s => s - t := by
  rcases (abs_eq zero_le_one).1 hc with e | e
  · have := arccos_isBigO hu hv h h' e
    simpa [e] using this
  · have hv' : HasDerivAt (fun s => -v s) (-V) t := hv.neg
    have := arccos_isBigO hu hv' h (by rw [norm_neg]; exact h') (by rw [cosAngle_neg, e, neg_neg])
    simp only [cosAngle_neg, Real.arccos_neg] at this
    have h2 := this.neg_left
    simpa [e, neg_sub] using h2

open Classical in
/-- Derivative of the angular part with respect to the cosine. -/
noncomputable def angularDeriv (S : SymFnc) (c : ℝ) : ℝ :=
  if |c| = 1 then 0
  else compactDeriv S.ca S.angleLeftRadians S.angleRightRadians (Real.arccos c) *
    (-1 / √(1 - c * c))

theorem hasDerivAt_angular {S : SymFnc} {k : CoreType} {as : Bool}
    (hcfg : S.ca.Configured k as S.angleLeftRadians S.angleRightRadians)
    (hu : HasDerivAt u U t) (hv : HasDerivAt v V t) (h : 0 < (u t).norm) (h' : 0 < (v t).norm)
    (hcol : |cosAngle (u t) (v t)| = 1 → S.angular (u t) (v t) = 0) :
    HasDerivAt (fun s => S.angular (u s) (v s))
      (angularDeriv S (cosAngle (u t) (v t)) * cosDeriv (u t) (v t) U V) t := by
  classical
  have hC := hasDerivAt_compact hcfg (Real.arccos (cosAngle (u t) (v t)))
  unfold angularDeriv
  by_cases hc : |cosAngle (u t) (v t)| = 1
  · rw [if_pos hc, zero_mul]
    have h0 : S.angular (u t) (v t) = 0 := hcol hc
    unfold SymFnc.angular at h0 ⊢
    have hd : compactDeriv S.ca S.angleLeftRadians S.angleRightRadians
        (Real.arccos (cosAngle (u t) (v t))) = 0 := by
      refine IsLocalMin.hasDerivAt_eq_zero (Filter.Eventually.of_forall fun s => ?_) hC
      rw [h0]
      exact compact_nonneg hcfg s
    rw [hd] at hC
    have hlo := hasDerivAt_iff_isLittleO.1 hC
    simp only [h0, sub_zero, smul_zero] at hlo
    have hcont : Filter.Tendsto (fun s => Real.arccos (cosAngle (u s) (v s))) (nhds t)
        (nhds (Real.arccos (cosAngle (u t) (v t)))) :=
      (Real.continuous_arccos.continuousAt.comp
        (hasDerivAt_cos hu hv h h').continuousAt)
    have hcomp := (hlo.comp_tendsto hcont).trans_isBigO (arccos_isBigO' hu hv h h' hc)
    rw [hasDerivAt_iff_isLittleO]
    simp only [h0, sub_zero, smul_zero]
    exact hcomp
  · rw [if_neg hc]
    have hn1 : cosAngle (u t) (v t) ≠ -1 := by intro e; rw [e] at hc; norm_num at hc
    have hn2 : cosAngle (u t) (v t) ≠ 1 := by intro e; rw [e] at hc; norm_num at hc
    have hac := (Real.hasDerivAt_arccos hn1 hn2).comp t (hasDerivAt_cos hu hv h h')
    have := HasDerivAt.comp (h := fun s => Real.arccos (cosAngle (u s) (v s))) t hC hac
    refine HasDerivAt.congr_deriv this ?_
    rw [sq]
    ring

end Curves

end N2P2
