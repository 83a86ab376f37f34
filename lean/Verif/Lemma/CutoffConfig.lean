import Verif.Spec.Cutoff
import Verif.Lemma.Cutoff

namespace N2P2

/-! ### State after a history of setter calls -/

def CoreOK (t : CutoffType) (ct : CoreType) : Prop :=
  match t with
  | .POLY1 => ct = .POLY1
  | .POLY2 => ct = .POLY2
  | .POLY3 => ct = .POLY3
  | .POLY4 => ct = .POLY4
  | .EXP => ct = .EXP
  | _ => True

structure CutCfg (c : CutoffFunction) (t : CutoffType) (R a : ℝ) : Prop where
  type : c.cutoffType = t
  rc : c.rc = R
  rcinv : c.rcinv = 1 / R
  rci : c.rci = R * a
  iw : c.iw = 1 / (R - R * a)
  a0 : 0 ≤ a
  a1 : a < 1
  sym : c.core.asymmetric = false
  core : CoreOK t c.core.type

theorem foldlM_inv {P : CutoffFunction → Prop} (ops : List CutoffOp)
    (h : ∀ o ∈ ops, ∀ c c', P c → o.apply c = some c' → P c') :
    ∀ c c', P c → ops.foldlM CutoffOp.apply c = some c' → P c' := by
  induction ops with
  | nil => intro c c' hP hr; simp at hr; exact hr ▸ hP
  | cons o ops ih =>
    intro c c' hP hr
    rw [List.foldlM_cons] at hr
    cases ho : o.apply c with
    | none => rw [ho] at hr; cases hr
    | some c1 =>
      rw [ho] at hr
      exact ih (fun o' ho' => h o' (by simp [ho'])) c1 c' (h o (by simp) c c1 hP ho) hr

theorem run_split (ops1 : List CutoffOp) (o : CutoffOp) (ops2 : List CutoffOp)
    (c c' : CutoffFunction) (h : (ops1 ++ o :: ops2).foldlM CutoffOp.apply c = some c') :
    ∃ c1 c2, ops1.foldlM CutoffOp.apply c = some c1 ∧ o.apply c1 = some c2 ∧
      ops2.foldlM CutoffOp.apply c2 = some c' := by
  rw [List.foldlM_append] at h
  cases h1 : ops1.foldlM CutoffOp.apply c with
  | none => rw [h1] at h; cases h
  | some c1 =>
    rw [h1] at h
    replace h : (o :: ops2).foldlM CutoffOp.apply c1 = some c' := h
    rw [List.foldlM_cons] at h
    cases h2 : o.apply c1 with
    | none => rw [h2] at h; cases h
    | some c2 => rw [h2] at h; exact ⟨c1, c2, rfl, h2, h⟩

theorem param_some {c c' : CutoffFunction} {a : ℝ}
    (h : c.setCutoffParameter a = some c') :
    0 ≤ a ∧ a < 1 ∧
      c' = { c with alpha := a, rci := c.rc * a, iw := 1.0 / (c.rc - c.rc * a) } := by
  unfold CutoffFunction.setCutoffParameter at h
  split at h
  · cases h
  · rename_i hh
    push Not at hh
    injection h with h
    exact ⟨hh.1, hh.2, h.symm⟩

theorem CutoffFunction.Configured.cfg {c : CutoffFunction} {t : CutoffType} {rc a : ℝ}
    (h : c.Configured t rc a) : CutCfg c t rc a := by
  obtain ⟨ops, ⟨⟨pre, post, e1, p1⟩, ⟨pre2, mid, post2, e2, q1, q2⟩⟩, hr⟩ := h
  -- symmetric core
  have hsym : c.core.asymmetric = false := by
    refine foldlM_inv (P := fun c => c.core.asymmetric = false) ops ?_ _ _ rfl hr
    intro o _ c c' hc ho
    cases o with
    | type t => injection ho with ho; subst ho; cases t <;> exact hc
    | radius r => injection ho with ho; subst ho; exact hc
    | parameter a =>
      obtain ⟨-, -, rfl⟩ := param_some ho
      exact hc
  -- type
  have htype : c.cutoffType = t ∧ CoreOK t c.core.type := by
    unfold CutoffOp.run at hr
    rw [e1] at hr
    obtain ⟨c1, c2, -, h2, h3⟩ := run_split pre _ post _ _ hr
    refine foldlM_inv (P := fun c => c.cutoffType = t ∧ CoreOK t c.core.type) post ?_ _ _ ?_ h3
    · intro o ho d d' hd hod
      cases o with
      | type t' => exact absurd rfl (p1 _ ho t')
      | radius r => injection hod with hod; subst hod; exact hd
      | parameter a =>
        obtain ⟨-, -, rfl⟩ := param_some hod
        exact hd
    · injection h2 with h2
      subst h2
      cases t <;> exact ⟨rfl, by simp [CoreOK, CutoffFunction.setCutoffType]⟩
  unfold CutoffOp.run at hr
  rw [e2] at hr
  obtain ⟨c1, c2, -, h2, h3⟩ := run_split pre2 _ _ _ _ hr
  obtain ⟨c3, c4, h4, h5, h6⟩ := run_split mid _ post2 _ _ h3
  have h7 : c3.rc = rc ∧ c3.rcinv = 1 / rc := by
    refine foldlM_inv (P := fun c => c.rc = rc ∧ c.rcinv = 1 / rc) mid ?_ _ _ ?_ h4
    · intro o ho d d' hd hod
      cases o with
      | type t' => injection hod with hod; subst hod; exact hd
      | radius r => exact absurd rfl (q1 _ (by simp [ho]) r)
      | parameter a =>
        obtain ⟨-, -, rfl⟩ := param_some hod
        exact hd
    · injection h2 with h2
      subst h2
      refine ⟨rfl, ?_⟩
      show (1.0 : ℝ) / rc = 1 / rc
      norm_num
  obtain ⟨a0, a1, e4⟩ := param_some h5
  have h8 : c.rc = rc ∧ c.rcinv = 1 / rc ∧ c.rci = rc * a ∧ c.iw = 1 / (rc - rc * a) := by
    refine foldlM_inv (P := fun c => c.rc = rc ∧ c.rcinv = 1 / rc ∧ c.rci = rc * a ∧
      c.iw = 1 / (rc - rc * a)) post2 ?_ _ _ ?_ h6
    · intro o ho d d' hd hod
      cases o with
      | type t' => injection hod with hod; subst hod; exact hd
      | radius r => exact absurd rfl (q1 _ (by simp [ho]) r)
      | parameter a => exact absurd rfl (q2 _ ho a)
    · subst e4
      refine ⟨h7.1, h7.2, ?_, ?_⟩
      · simp only [h7.1]
      · simp only [h7.1]; norm_num
  exact ⟨htype.1, h8.1, h8.2.1, h8.2.2.1, h8.2.2.2, a0, a1, hsym, htype.2⟩

/-- A configured object exists for each request. -/
theorem configured_exists (t : CutoffType) (rc a : ℝ) (h0 : 0 ≤ a) (h1 : a < 1) :
    ∃ c : CutoffFunction, c.Configured t rc a := by
  have h : ∀ c : CutoffFunction, ∃ c', c.setCutoffParameter a = some c' := by
    intro c
    unfold CutoffFunction.setCutoffParameter
    rw [if_neg (by push Not; exact ⟨h0, h1⟩)]
    exact ⟨_, rfl⟩
  obtain ⟨c', hc'⟩ := h ((CutoffFunction.init.setCutoffType t).setCutoffRadius rc)
  refine ⟨c', [.type t, .radius rc, .parameter a], ⟨⟨[], _, rfl, ?_⟩, [.type t], [], [], rfl, ?_, ?_⟩,
    ?_⟩
  · simp
  · simp
  · simp
  · unfold CutoffOp.run
    simp only [List.foldlM_cons, List.foldlM_nil, CutoffOp.apply, hc', Option.bind_eq_bind,
      Option.bind_some]
    rfl

def coreOf : CutoffType → CoreFunction
  | .COS => ⟨.COS, false⟩
  | .POLY1 => ⟨.POLY1, false⟩
  | .POLY3 => ⟨.POLY3, false⟩
  | .POLY4 => ⟨.POLY4, false⟩
  | .EXP => ⟨.EXP, false⟩
  | _ => ⟨.POLY2, false⟩

theorem CutCfg.x_lt {c : CutoffFunction} {t : CutoffType} {rc a : ℝ} (h : CutCfg c t rc a)
    (hrc : 0 < rc) (r : ℝ) : 0 < c.iw ∧ ((r - c.rci) * c.iw < 1 ↔ r < rc) ∧
      ((r - c.rci) * c.iw < 0 ↔ r < c.rci) := by
  have h1 : 0 < rc - rc * a := by nlinarith [h.a1]
  have hiw : 0 < c.iw := by rw [h.iw]; positivity
  refine ⟨hiw, ?_, ?_⟩
  · rw [h.iw, h.rci, mul_one_div, div_lt_one h1]
    constructor <;> intro hh <;> linarith
  · constructor
    · intro hh
      by_contra hc
      have := mul_nonneg (sub_nonneg.2 (not_lt.1 hc)) hiw.le
      linarith
    · intro hh
      exact mul_neg_of_neg_of_pos (by linarith) hiw

/-- Reduction of the types with an inner radius to the glued core function. -/
theorem CutCfg.f_eq {c : CutoffFunction} {t : CutoffType} {rc a : ℝ} (h : CutCfg c t rc a)
    (hrc : 0 < rc) (ht : t.HasInner) (r : ℝ) :
    c.f r = (coreOf t).g ((r - c.rci) * c.iw) ∧
    c.df r = c.iw * (coreOf t).dg ((r - c.rci) * c.iw) ∧
    c.fdf r = (c.f r, c.df r) := by
  obtain ⟨hiw, x1, x0⟩ := h.x_lt hrc r
  have hrci : c.rci < rc := by rw [h.rci]; nlinarith [h.a1]
  have hcore : t ≠ .COS → c.core = coreOf t := by
    intro hcos
    have hs := h.sym
    have hc := h.core
    obtain ⟨n1, n2, n3⟩ := ht
    rcases hcc : c.core with ⟨ct, as⟩
    rw [hcc] at hs hc
    simp only at hs
    subst hs
    cases t <;> first | exact absurd rfl hcos | exact absurd rfl n1 | exact absurd rfl n2 |
      exact absurd rfl n3 | (simp only [CoreOK] at hc; subst hc; rfl)
  have z1 : (1.0 : ℝ) = 1 := by norm_num
  have z0 : (0.0 : ℝ) = 0 := by norm_num
  have key : ∀ u, u = (r - c.rci) * c.iw → r < rc → ¬ r < c.rci →
      c.fInner r = (coreOf t).f u ∧ c.dfInner r = c.iw * (coreOf t).df u ∧
      c.fdfInner r = (((coreOf t).fdf u).1, ((coreOf t).fdf u).2 * c.iw) := by
    intro u hu _ h2
    subst hu
    unfold CutoffFunction.fInner CutoffFunction.dfInner CutoffFunction.fdfInner
    rw [h.type]
    obtain ⟨n1, n2, n3⟩ := ht
    cases t with
    | HARD => exact absurd rfl n1
    | TANHU => exact absurd rfl n2
    | TANH => exact absurd rfl n3
    | COS =>
      simp only [if_neg h2]
      refine ⟨rfl, ?_, ?_⟩
      · simp only [coreOf, CoreFunction.df, CoreType.df]
        simp only [Bool.false_eq_true, if_false]
        ring
      · simp only [coreOf, CoreFunction.fdf, CoreType.fdf]
        simp only [Bool.false_eq_true, if_false, Prod.mk.injEq, true_and]
        rw [show (0.5 : ℝ) = 1 / 2 by norm_num]
        ring
    | POLY1 => simp only [if_neg h2, hcore (by simp), and_self]
    | POLY2 => simp only [if_neg h2, hcore (by simp), and_self]
    | POLY3 => simp only [if_neg h2, hcore (by simp), and_self]
    | POLY4 => simp only [if_neg h2, hcore (by simp), and_self]
    | EXP => simp only [if_neg h2, hcore (by simp), and_self]
  have keyin : r < rc → r < c.rci →
      c.fInner r = 1 ∧ c.dfInner r = 0 ∧ c.fdfInner r = (1, 0) := by
    intro _ h2
    unfold CutoffFunction.fInner CutoffFunction.dfInner CutoffFunction.fdfInner
    rw [h.type]
    obtain ⟨n1, n2, n3⟩ := ht
    cases t with
    | HARD => exact absurd rfl n1
    | TANHU => exact absurd rfl n2
    | TANH => exact absurd rfl n3
    | _ => simp only [if_pos h2, z1, z0, and_self]
  unfold CutoffFunction.f CutoffFunction.df CutoffFunction.fdf CoreFunction.g CoreFunction.dg
  rw [h.rc]
  by_cases hr : r ≥ rc
  · have n1 : ¬ ((r - c.rci) * c.iw < 1) := by rw [x1]; exact not_lt.2 hr
    have n0 : ¬ ((r - c.rci) * c.iw < 0) := by rw [x0]; exact not_lt.2 (hrci.le.trans hr)
    simp only [if_pos hr, if_neg n0, if_neg n1, z0, mul_zero, and_self]
  · have hlt := not_le.1 hr
    have n1 := x1.2 hlt
    rw [if_neg hr, if_neg hr, if_neg hr]
    by_cases hi : r < c.rci
    · rw [if_pos (x0.2 hi), if_pos (x0.2 hi)]
      obtain ⟨k1, k2, k3⟩ := keyin hlt hi
      rw [k1, k2, k3]
      simp
    · have n0 : ¬ ((r - c.rci) * c.iw < 0) := fun hh => hi (x0.1 hh)
      rw [if_neg n0, if_neg n0, if_pos n1, if_pos n1]
      obtain ⟨k1, k2, k3⟩ := key _ rfl hlt hi
      rw [k1, k2, k3, CoreFunction.s_eq _ _ (not_lt.1 n0) n1,
        CoreFunction.ds_eq _ _ (not_lt.1 n0) n1, CoreFunction.fdf_eq _ _ (not_lt.1 n0) n1.le]
      refine ⟨rfl, rfl, ?_⟩
      simp only [mul_comm]

noncomputable def tanhPre : CutoffType → ℝ
  | .TANH => (Real.tanh 1)⁻¹ ^ 3
  | _ => 1

theorem CutCfg.tanh_eq {c : CutoffFunction} {t : CutoffType} {rc a : ℝ}
    (h : CutCfg c t rc a) (ht : t = .TANHU ∨ t = .TANH) (r : ℝ) :
    (c.f r = open Classical in
      if r < rc then tanhPre t * Real.tanh (1 - r / rc) ^ 3 else 0) ∧
    (c.df r = open Classical in if r < rc then tanhPre t * (3 * Real.tanh (1 - r / rc) ^ 2 *
      ((1 - Real.tanh (1 - r / rc) ^ 2) * (-(1 / rc)))) else 0) ∧
    c.fdf r = (c.f r, c.df r) := by
  classical
  have e1 : (1.0 : ℝ) - r * c.rcinv = 1 - r / rc := by rw [h.rcinv]; norm_num; ring
  unfold CutoffFunction.f CutoffFunction.df CutoffFunction.fdf
  rw [h.rc]
  by_cases hr : r ≥ rc
  · simp only [if_pos hr, if_neg (not_lt.2 hr)]
    norm_num
  · simp only [if_neg hr, if_pos (not_le.1 hr)]
    unfold CutoffFunction.fInner CutoffFunction.dfInner CutoffFunction.fdfInner
    rw [h.type]
    rcases ht with rfl | rfl
    · simp only [e1]
      simp only [h.rcinv, tanhPre, Prod.mk.injEq]
      norm_num
      refine ⟨?_, ?_, ?_⟩ <;> ring
    · simp only [e1]
      simp only [h.rcinv, tanhPre, TANH_PRE_eq, Prod.mk.injEq]
      norm_num
      refine ⟨?_, ?_, ?_⟩ <;> ring

theorem tanhPre_nonneg (t : CutoffType) : 0 ≤ tanhPre t := by
  unfold tanhPre
  split
  · have := tanh_nonneg (zero_le_one (α := ℝ)); positivity
  · norm_num

theorem tanh_one_pos : 0 < Real.tanh 1 := by
  have := tanh_strictMono (zero_lt_one (α := ℝ))
  rwa [Real.tanh_zero] at this

theorem hard_eq {c : CutoffFunction} {rc a : ℝ} (h : CutCfg c .HARD rc a) (r : ℝ) :
    (c.f r = open Classical in if r < rc then 1 else 0) ∧ c.df r = 0 ∧
    c.fdf r = (c.f r, c.df r) := by
  classical
  unfold CutoffFunction.f CutoffFunction.df CutoffFunction.fdf
  rw [h.rc]
  by_cases hr : r ≥ rc
  · simp only [if_pos hr, if_neg (not_lt.2 hr)]
    norm_num
  · simp only [if_neg hr, if_pos (not_le.1 hr)]
    unfold CutoffFunction.fInner CutoffFunction.dfInner CutoffFunction.fdfInner
    rw [h.type]
    norm_num

theorem inner_or (t : CutoffType) :
    t.HasInner ∨ (t = .TANHU ∨ t = .TANH) ∨ t = .HARD := by
  cases t <;> simp [CutoffType.HasInner]

theorem CompactFunction.Configured.cfg {c : CompactFunction} {t : CoreType} {as : Bool}
    {l r : ℝ} (h : c.Configured t as l r) :
    l < r ∧ c.center = (l + r) / 2 ∧ c.scale = 1 / ((r - l) / 2) ∧ c.left = l ∧ c.right = r := by
  obtain ⟨-, (⟨c0, h⟩ | ⟨c0, m, w, h, rfl, rfl⟩)⟩ := h
  · unfold CompactFunction.setLeftRight at h
    split at h
    · cases h
    · rename_i hlt
      injection h with h
      subst h
      refine ⟨not_le.1 hlt, ?_, ?_, rfl, rfl⟩
      · norm_num; ring
      · norm_num
  · unfold CompactFunction.setCenterWidth at h
    split at h
    · cases h
    · rename_i hlt
      injection h with h
      subst h
      refine ⟨by linarith [not_le.1 hlt], ?_, ?_, rfl, rfl⟩
      · show m = _; ring
      · show (1.0 : ℝ) / w = _
        rw [show (m + w - (m - w)) / 2 = w by ring]
        norm_num

theorem compact_arg {c : CompactFunction} {t : CoreType} {as : Bool} {l r : ℝ}
    (h : c.Configured t as l r) (x : ℝ) (h1 : l < x) (h2 : x < r) :
    0 < c.scale ∧ |(x - c.center) * c.scale| < 1 := by
  obtain ⟨hlr, hc, hs, -, -⟩ := h.cfg
  have hw : 0 < (r - l) / 2 := by linarith
  have hsc : 0 < c.scale := by rw [hs]; positivity
  refine ⟨hsc, ?_⟩
  rw [hc, hs, abs_lt, mul_one_div]
  constructor
  · rw [lt_div_iff₀ hw]; linarith
  · rw [div_lt_one hw]; linarith

theorem ScreeningFunction.Configured.eq {s : ScreeningFunction} {i o : ℝ}
    (h : s.Configured i o) :
    i < o ∧ s.inner = i ∧ s.outer = o ∧ s.scale = 1 / (o - i) := by
  obtain ⟨s0, h⟩ := h
  unfold ScreeningFunction.setInnerOuter at h
  split at h
  · cases h
  · injection h with h
    subst h
    exact ⟨not_le.1 ‹_›, rfl, rfl, by norm_num⟩

theorem ScreeningFunction.Configured.f_eq {s : ScreeningFunction} {i o : ℝ}
    (h : s.Configured i o) (r : ℝ) :
    s.f r = 1 - s.core.g ((r - i) * s.scale) ∧
    s.df r = -s.scale * s.core.dg ((r - i) * s.scale) ∧
    s.fdf r = (s.f r, s.df r) ∧ 0 < s.scale := by
  obtain ⟨hio, hi, ho, hs⟩ := h.eq
  have hw : 0 < o - i := by linarith
  have hsc : 0 < s.scale := by rw [hs]; positivity
  have x1 : (r - i) * s.scale < 1 ↔ r < o := by
    rw [hs, mul_one_div, div_lt_one hw]; constructor <;> intro hh <;> linarith
  have x0 : (r - i) * s.scale < 0 ↔ r < i := by
    rw [mul_neg_iff]
    constructor
    · rintro (⟨-, h⟩ | ⟨h, -⟩)
      · linarith
      · linarith
    · intro h; exact Or.inr ⟨by linarith, hsc⟩
  refine ⟨?_, ?_, ?_, hsc⟩
  · unfold ScreeningFunction.f CoreFunction.g
    rw [hi, ho]
    by_cases h1 : r ≥ o
    · rw [if_pos h1, if_neg (by rw [x0]; linarith), if_neg (by rw [x1]; linarith)]; norm_num
    · rw [if_neg h1]
      by_cases h2 : r ≤ i
      · rw [if_pos h2]
        rcases h2.lt_or_eq with h3 | h3
        · rw [if_pos (x0.2 h3)]; norm_num
        · rw [h3, sub_self, zero_mul]; norm_num [CoreFunction.s_zero]
      · have n0 : ¬ (r - i) * s.scale < 0 := by rw [x0]; linarith
        have n1 : (r - i) * s.scale < 1 := x1.2 (not_le.1 h1)
        rw [if_neg h2, if_neg n0, if_pos n1, CoreFunction.s_eq _ _ (not_lt.1 n0) n1]
        norm_num
  · unfold ScreeningFunction.df CoreFunction.dg
    rw [hi, ho]
    by_cases h1 : r ≥ o
    · rw [if_pos (Or.inl h1), if_neg (by rw [x0]; linarith), if_neg (by rw [x1]; linarith)]
      norm_num
    · by_cases h2 : r ≤ i
      · rw [if_pos (Or.inr h2)]
        rcases h2.lt_or_eq with h3 | h3
        · rw [if_pos (x0.2 h3)]; norm_num
        · rw [h3, sub_self, zero_mul]; norm_num [CoreFunction.ds_zero]
      · have n0 : ¬ (r - i) * s.scale < 0 := by rw [x0]; linarith
        have n1 : (r - i) * s.scale < 1 := x1.2 (not_le.1 h1)
        rw [if_neg (by push Not at h1 h2 ⊢; exact ⟨h1, h2⟩), if_neg n0, if_pos n1,
          CoreFunction.ds_eq _ _ (not_lt.1 n0) n1]
  · unfold ScreeningFunction.fdf ScreeningFunction.f ScreeningFunction.df
    rw [hi, ho]
    by_cases h1 : r ≥ o
    · rw [if_pos h1, if_pos h1, if_pos (Or.inl h1)]
    · by_cases h2 : r ≤ i
      · rw [if_neg h1, if_neg h1, if_pos h2, if_pos h2, if_pos (Or.inr h2)]
      · have n0 : ¬ (r - i) * s.scale < 0 := by rw [x0]; linarith
        have n1 : (r - i) * s.scale < 1 := x1.2 (not_le.1 h1)
        rw [if_neg h1, if_neg h1, if_neg h2, if_neg h2,
          if_neg (by push Not at h1 h2 ⊢; exact ⟨h1, h2⟩)]
        simp only
        rw [CoreFunction.fdf_eq _ _ (not_lt.1 n0) n1.le]

end N2P2
