import Mathlib.Analysis.Convex.Deriv
import Mathlib.Analysis.SpecialFunctions.Log.Deriv
import Mathlib.Analysis.SpecialFunctions.ExpDeriv
import Mathlib.Analysis.SpecialFunctions.Sqrt
import Verif.Model.EwaldSetup
import Verif.Lemma.Geometry

/-! The Newton iterations for the cutoffs of the Ewald summation end with an accurate solution. -/

namespace N2P2

open Filter Topology

/-! ### The function -/

/-- The logarithm of the function, with opposite sign. -/
noncomputable def nwL (a x : ℝ) : ℝ := a * x ^ 2 / 2 + Real.log x / 2

/-- The function whose argument is searched. -/
noncomputable def nwP (a x : ℝ) : ℝ := Real.exp (-nwL a x)

theorem nwP_pos (a x : ℝ) : 0 < nwP a x := Real.exp_pos _

theorem sqrt_eq_exp {x : ℝ} (hx : 0 < x) : √x = Real.exp (Real.log x / 2) := by
  rw [Real.sqrt_eq_rpow, Real.rpow_def_of_pos hx]; congr 1; ring

theorem nwP_eq {a x : ℝ} (hx : 0 < x) : nwP a x = Real.exp (-(a * x ^ 2) / 2) / √x := by
  rw [nwP, nwL, sqrt_eq_exp hx, ← Real.exp_sub]; congr 1; ring

theorem nwP_inv {a x : ℝ} (hx : 0 < x) : √x * Real.exp (a * x ^ 2 / 2) = 1 / nwP a x := by
  rw [nwP, nwL, sqrt_eq_exp hx, ← Real.exp_add, one_div, ← Real.exp_neg]; congr 1; ring

theorem nwL_hasDeriv {a x : ℝ} (hx : 0 < x) : HasDerivAt (nwL a) (a * x + 1 / (2 * x)) x := by
  have h1 := (((hasDerivAt_id x).pow 2).const_mul a).div_const 2
  have h2 := (Real.hasDerivAt_log hx.ne').div_const 2
  have := h1.add h2
  refine HasDerivAt.congr_deriv this ?_
  norm_num
  field_simp

theorem nwP_hasDeriv {a x : ℝ} (hx : 0 < x) :
    HasDerivAt (nwP a) (-(a * x + 1 / (2 * x)) * nwP a x) x := by
  have := ((nwL_hasDeriv (a := a) hx).neg).exp
  refine HasDerivAt.congr_deriv this ?_
  show Real.exp (-nwL a x) * -(a * x + 1 / (2 * x)) = _
  rw [nwP]; ring

theorem nwP_hasDeriv2 {a x : ℝ} (hx : 0 < x) :
    HasDerivAt (fun x => -(a * x + 1 / (2 * x)) * nwP a x)
      ((3 / (4 * x ^ 2) + a ^ 2 * x ^ 2) * nwP a x) x := by
  have h1 : HasDerivAt (fun x : ℝ => -(a * x + 1 / (2 * x))) (-(a - 1 / (2 * x ^ 2))) x := by
    have h2 := ((hasDerivAt_id x).const_mul 2).inv (by simpa using hx.ne')
    have h3 := (((hasDerivAt_id x).const_mul a).add h2).neg
    refine HasDerivAt.congr_deriv (h3.congr_of_eventuallyEq (Eventually.of_forall ?_)) ?_
    · intro z; simp
    · simp only [id]; field_simp; ring
  refine HasDerivAt.congr_deriv (h1.mul (nwP_hasDeriv (a := a) hx)) ?_
  field_simp
  ring

theorem nwP_convex (a : ℝ) : ConvexOn ℝ (Set.Ioi 0) (nwP a) := by
  refine convexOn_of_hasDerivWithinAt2_nonneg (convex_Ioi 0)
    (f' := fun x => -(a * x + 1 / (2 * x)) * nwP a x)
    (f'' := fun x => (3 / (4 * x ^ 2) + a ^ 2 * x ^ 2) * nwP a x) ?_ ?_ ?_ ?_
  · exact fun x hx => (nwP_hasDeriv hx).continuousAt.continuousWithinAt
  · intro x hx; rw [interior_Ioi] at hx; exact (nwP_hasDeriv hx).hasDerivWithinAt
  · intro x hx; rw [interior_Ioi] at hx; exact (nwP_hasDeriv2 hx).hasDerivWithinAt
  · intro x hx
    have := nwP_pos a x
    positivity

/-- The tangent lies below the function. -/
theorem nwP_tangent {a x z : ℝ} (hx : 0 < x) (hz : 0 < z) :
    nwP a x - (a * x + 1 / (2 * x)) * nwP a x * (z - x) ≤ nwP a z := by
  rcases lt_trichotomy x z with h | h | h
  · have := (nwP_convex a).le_slope_of_hasDerivAt hx hz h (nwP_hasDeriv hx)
    rw [slope_def_field, le_div_iff₀ (by linarith)] at this
    linarith
  · subst h; simp
  · have := (nwP_convex a).slope_le_of_hasDerivAt hz hx h (nwP_hasDeriv hx)
    rw [slope_def_field, div_le_iff₀ (by linarith)] at this
    linarith

theorem nwL_strictMono {a : ℝ} (ha : 0 ≤ a) : StrictMonoOn (nwL a) (Set.Ioi 0) := by
  intro x hx z hz h
  have hx' : 0 < x := hx
  have hz' : 0 < z := hz
  have h1 : Real.log x < Real.log z := Real.log_lt_log hx' h
  have h2 : a * x ^ 2 ≤ a * z ^ 2 := by
    refine mul_le_mul_of_nonneg_left ?_ ha
    nlinarith
  unfold nwL; linarith

/-! ### One step -/

/-- One Newton step. -/
noncomputable def nwNext (a y x : ℝ) : ℝ :=
  x - 2 * x / (1 + 2 * (a * x ^ 2)) * (-1 + √x * Real.exp (a * x ^ 2 / 2) * y)

theorem nwNext_eq {a y x : ℝ} (hx : 0 < x) :
    nwNext a y x = x + 2 * x / (1 + 2 * (a * x ^ 2)) * (1 - y / nwP a x) := by
  rw [nwNext, nwP_inv hx]; ring

/-- After a step the value of the function is not too small. -/
theorem nwNext_ge {a y x : ℝ} (ha : 0 ≤ a) (hx : 0 < x) (hn : 0 < nwNext a y x) :
    y ≤ nwP a (nwNext a y x) := by
  refine le_trans (le_of_eq ?_) (nwP_tangent hx hn)
  have hp := (nwP_pos a x).ne'
  have : (1 + 2 * (a * x ^ 2)) ≠ 0 := by positivity
  rw [nwNext_eq hx]
  have e : x + 2 * x / (1 + 2 * (a * x ^ 2)) * (1 - y / nwP a x) - x
      = 2 * x / (1 + 2 * (a * x ^ 2)) * (1 - y / nwP a x) := by ring
  rw [e]
  field_simp
  ring

theorem nwNext_mono {a y x : ℝ} (ha : 0 ≤ a) (hx : 0 < x) (hy : y ≤ nwP a x) :
    x ≤ nwNext a y x := by
  rw [nwNext_eq hx]
  have h1 : 0 ≤ 1 - y / nwP a x := by
    rw [sub_nonneg, div_le_one (nwP_pos a x)]; exact hy
  have : 0 ≤ 2 * x / (1 + 2 * (a * x ^ 2)) * (1 - y / nwP a x) := by positivity
  linarith

open Classical in
/-- One iteration of the loop. -/
noncomputable def nwBody (a y : ℝ) (st : NewtonState) : NewtonState :=
  if nwNext a y st.x ≤ 0 then { st with x := st.x / 2 }
  else
    { x := nwNext a y st.x
      relX := |(nwNext a y st.x - st.x) / nwNext a y st.x|
      relY := |(nwP a (nwNext a y st.x) - y) / y| }

theorem acceptError_pos : 0 < acceptError := by unfold acceptError; positivity
theorem acceptError_lt : acceptError < 1 := by unfold acceptError; norm_num

/-- What is true before and after every iteration. -/
def NwInv (a y : ℝ) (st : NewtonState) : Prop :=
  0 < st.x ∧ ((st.relX = 1 ∧ st.relY = 1) ∨ (y ≤ nwP a st.x ∧ st.relY = |(nwP a st.x - y) / y|))

theorem nwBody_inv {a y : ℝ} (ha : 0 ≤ a) {st : NewtonState} (h : NwInv a y st) :
    NwInv a y (nwBody a y st) := by
  unfold nwBody
  split_ifs with hn
  · refine ⟨by have := h.1; simp only; positivity, ?_⟩
    rcases h.2 with h2 | h2
    · exact Or.inl h2
    · have := nwNext_mono ha h.1 h2.1
      linarith [h.1]
  · push Not at hn
    exact ⟨hn, Or.inr ⟨nwNext_ge ha h.1 hn, rfl⟩⟩

theorem nwIter_inv {a y x : ℝ} (ha : 0 ≤ a) (hx : 0 < x) (n : ℕ) :
    NwInv a y ((nwBody a y)^[n] ⟨x, 1, 1⟩) := by
  induction n with
  | zero => exact ⟨hx, Or.inl ⟨rfl, rfl⟩⟩
  | succ n ih => rw [Function.iterate_succ_apply']; exact nwBody_inv ha ih

/-- When the loop has ended the solution is accurate. -/
theorem nw_final {a y : ℝ} (hy : 0 < y) {st : NewtonState} (h : NwInv a y st)
    (hend : ¬ st.goesOn) : 0 < st.x ∧ y ≤ nwP a st.x ∧ nwP a st.x ≤ y * (1 + acceptError) := by
  unfold NewtonState.goesOn at hend
  push Not at hend
  rcases h.2 with ⟨h1, _⟩ | ⟨h1, h2⟩
  · have := acceptError_lt; linarith [hend.1]
  · refine ⟨h.1, h1, ?_⟩
    have h3 := hend.2
    rw [h2, abs_of_nonneg (div_nonneg (by linarith) hy.le), div_le_iff₀ hy] at h3
    linarith

/-! ### The loop ends -/

/-- Small arguments give a positive next argument. -/
theorem nwNext_small {a y x : ℝ} (ha : 0 ≤ a) (hx : 0 < x) (h : y ≤ nwP a x * 1) :
    0 < nwNext a y x := lt_of_lt_of_le hx (nwNext_mono ha hx (by linarith))

theorem nwP_halves {a y x : ℝ} (ha : 0 ≤ a) (hx : 0 < x) (hy : 0 < y) :
    ∃ n : ℕ, y ≤ nwP a (x / 2 ^ n) := by
  obtain ⟨n, hn⟩ : ∃ n : ℕ, (a * x ^ 2 / 2 + Real.log x / 2 + Real.log y) / (Real.log 2 / 2) ≤ n :=
    exists_nat_ge _
  refine ⟨n, ?_⟩
  have hl2 : 0 < Real.log 2 := Real.log_pos (by norm_num)
  rw [div_le_iff₀ (by positivity)] at hn
  rw [nwP, ← Real.exp_log hy, Real.exp_le_exp, nwL, Real.log_div hx.ne' (by positivity), Real.log_pow]
  have h1 : a * (x / 2 ^ n) ^ 2 ≤ a * x ^ 2 := by
    refine mul_le_mul_of_nonneg_left ?_ ha
    have h2 : x / 2 ^ n ≤ x := div_le_self hx.le (one_le_pow₀ (by norm_num))
    have h3 : 0 ≤ x / 2 ^ n := by positivity
    nlinarith
  nlinarith

/-- At some time a Newton step is made. -/
theorem nw_first {a y x : ℝ} (ha : 0 ≤ a) (hx : 0 < x) (hy : 0 < y) :
    ∃ n : ℕ, y ≤ nwP a ((nwBody a y)^[n] ⟨x, 1, 1⟩).x := by
  by_contra hcon
  push Not at hcon
  have key : ∀ n : ℕ, ((nwBody a y)^[n] ⟨x, 1, 1⟩).x = x / 2 ^ n := by
    intro n
    induction n with
    | zero => simp
    | succ n ih =>
      have hpos := (nwIter_inv (y := y) ha hx n).1
      have hc := hcon (n + 1)
      rw [Function.iterate_succ_apply'] at hc ⊢
      generalize (nwBody a y)^[n] ⟨x, 1, 1⟩ = st at ih hpos hc ⊢
      unfold nwBody at hc ⊢
      split_ifs at hc ⊢ with hn
      · simp only [ih]; rw [pow_succ]; field_simp
      · push Not at hn
        exact absurd (nwNext_ge ha hpos hn) (not_le.mpr hc)
  obtain ⟨n, hn⟩ := nwP_halves ha hx hy
  have := hcon n
  rw [key n] at this
  linarith

/-- The arguments in the part of the iteration where the value is not too small. -/
theorem nw_seq {a y : ℝ} (ha : 0 < a) (hy : 0 < y) {x : ℕ → ℝ} (h0 : 0 < x 0) (hp : y ≤ nwP a (x 0))
    (hs : ∀ n, x (n + 1) = nwNext a y (x n)) :
    ∃ l, 0 < l ∧ nwP a l = y ∧ Tendsto x atTop (𝓝 l) := by
  have inv : ∀ n, 0 < x n ∧ y ≤ nwP a (x n) := by
    intro n
    induction n with
    | zero => exact ⟨h0, hp⟩
    | succ n ih =>
      have h1 := nwNext_mono ha.le ih.1 ih.2
      rw [hs]
      exact ⟨by linarith [ih.1], nwNext_ge ha.le ih.1 (by linarith [ih.1])⟩
  have mono : Monotone x := monotone_nat_of_le_succ fun n => by
    rw [hs]; exact nwNext_mono ha.le (inv n).1 (inv n).2
  have bdd : BddAbove (Set.range x) := by
    refine ⟨max 1 (-(2 * Real.log y) / a + 1), ?_⟩
    rintro _ ⟨n, rfl⟩
    by_cases h1 : x n ≤ 1
    · exact le_trans h1 (le_max_left _ _)
    · refine le_trans ?_ (le_max_right _ _)
      push Not at h1
      have h2 := (inv n).2
      rw [nwP, ← Real.exp_log hy, Real.exp_le_exp, nwL] at h2
      have h3 : 0 < Real.log (x n) := Real.log_pos h1
      have h4 : a * x n ≤ a * x n ^ 2 := by
        refine mul_le_mul_of_nonneg_left ?_ ha.le
        nlinarith
      have h5 : a * x n ≤ -(2 * Real.log y) := by
        linarith
      have : x n ≤ -(2 * Real.log y) / a := by
        rw [le_div_iff₀ ha]; linarith
      linarith
  have hlim := tendsto_atTop_ciSup mono bdd
  refine ⟨_, ?_, ?_, hlim⟩
  · exact lt_of_lt_of_le h0 (le_ciSup bdd 0)
  · have hl : 0 < ⨆ i, x i := lt_of_lt_of_le h0 (le_ciSup bdd 0)
    generalize (⨆ i, x i) = l at hlim hl
    have hc : ContinuousAt (fun z => z + 2 * z / (1 + 2 * (a * z ^ 2)) * (1 - y / nwP a z)) l := by
      have h1 : ContinuousAt (nwP a) l := (nwP_hasDeriv hl).continuousAt
      have h2 : (1 + 2 * (a * l ^ 2)) ≠ 0 := by positivity
      have h3 := (nwP_pos a l).ne'
      have h4 : ContinuousAt (fun z : ℝ => 2 * z / (1 + 2 * (a * z ^ 2))) l :=
        ContinuousAt.div (by fun_prop) (by fun_prop) h2
      have h5 : ContinuousAt (fun z : ℝ => 1 - y / nwP a z) l :=
        continuousAt_const.sub (continuousAt_const.div h1 h3)
      exact continuousAt_id.add (h4.mul h5)
    have h1 := hc.tendsto.comp hlim
    have h2 : Tendsto (fun n => x (n + 1)) atTop (𝓝 l) := hlim.comp (tendsto_add_atTop_nat 1)
    have h3 : (fun n => x (n + 1))
        = (fun z => z + 2 * z / (1 + 2 * (a * z ^ 2)) * (1 - y / nwP a z)) ∘ x := by
      funext n; simp only [Function.comp]; rw [hs, nwNext_eq (inv n).1]
    rw [h3] at h2
    have h4 := tendsto_nhds_unique h1 h2
    have h5 : 0 < 2 * l / (1 + 2 * (a * l ^ 2)) := by positivity
    have h6 : 1 - y / nwP a l = 0 := by
      by_contra hne
      have := mul_ne_zero h5.ne' hne
      apply this; linarith
    have h7 := (nwP_pos a l).ne'
    field_simp at h6
    linarith

/-- The loop ends. -/
theorem nw_ends {a y x : ℝ} (ha : 0 < a) (hx : 0 < x) (hy : 0 < y) :
    ∃ n : ℕ, ¬ ((nwBody a y)^[n] ⟨x, 1, 1⟩).goesOn := by
  obtain ⟨k, hk⟩ := nw_first ha.le hx hy
  set z : ℕ → ℝ := fun n => ((nwBody a y)^[n + k] ⟨x, 1, 1⟩).x with hz
  have hpos : ∀ n, 0 < z n := fun n => (nwIter_inv (y := y) ha.le hx (n + k)).1
  have hst : ∀ n, y ≤ nwP a (z n) → (nwBody a y)^[n + 1 + k] ⟨x, 1, 1⟩
      = ⟨nwNext a y (z n), |(nwNext a y (z n) - z n) / nwNext a y (z n)|,
          |(nwP a (nwNext a y (z n)) - y) / y|⟩ := by
    intro n hn
    have e : n + 1 + k = (n + k) + 1 := by omega
    rw [e, Function.iterate_succ_apply']
    have h1 := nwNext_mono ha.le (hpos n) hn
    have h2 : ¬ nwNext a y ((nwBody a y)^[n + k] ⟨x, 1, 1⟩).x ≤ 0 := by
      have := hpos n; push Not; exact lt_of_lt_of_le this h1
    rw [nwBody, if_neg h2]
  have hge : ∀ n, y ≤ nwP a (z n) := by
    intro n
    induction n with
    | zero => simpa [hz] using hk
    | succ n ih =>
      have h1 : z (n + 1) = nwNext a y (z n) := by
        show ((nwBody a y)^[n + 1 + k] ⟨x, 1, 1⟩).x = _
        rw [hst n ih]
      rw [h1]
      exact nwNext_ge ha.le (hpos n) (by rw [← h1]; exact hpos _)
  have hs : ∀ n, z (n + 1) = nwNext a y (z n) := by
    intro n
    show ((nwBody a y)^[n + 1 + k] ⟨x, 1, 1⟩).x = _
    rw [hst n (hge n)]
  obtain ⟨l, hl, hpl, hlim⟩ := nw_seq ha hy (hpos 0) (hge 0) hs
  have hlim' : Tendsto (fun n => z (n + 1)) atTop (𝓝 l) := hlim.comp (tendsto_add_atTop_nat 1)
  have hX : Tendsto (fun n => |(z (n + 1) - z n) / z (n + 1)|) atTop (𝓝 0) := by
    have := ((hlim'.sub hlim).div hlim' hl.ne').abs
    simpa using this
  have hY : Tendsto (fun n => |(nwP a (z (n + 1)) - y) / y|) atTop (𝓝 0) := by
    have h1 : Tendsto (fun n => nwP a (z (n + 1))) atTop (𝓝 (nwP a l)) :=
      ((nwP_hasDeriv hl).continuousAt.tendsto).comp hlim'
    have := ((h1.sub_const y).div_const y).abs
    rw [hpl] at this
    simpa using this
  have e1 := hX.eventually (gt_mem_nhds acceptError_pos)
  have e2 := hY.eventually (gt_mem_nhds acceptError_pos)
  obtain ⟨n, h1, h2⟩ := (e1.and e2).exists
  refine ⟨n + 1 + k, ?_⟩
  rw [hst n (hge n), ← hs n]
  unfold NewtonState.goesOn
  push Not
  exact ⟨h1.le, h2.le⟩

theorem whileLoop_of_ends {σ : Type} {c : σ → Prop} {b : σ → σ} {s : σ} (h : ∃ n, ¬ c (b^[n] s)) :
    ∃ n, whileLoop c b s = some (b^[n] s) ∧ ¬ c (b^[n] s) := by
  classical
  refine ⟨Nat.find h, ?_, Nat.find_spec h⟩
  have : whileCount (fun n => c (b^[n] s)) = some (Nat.find h) :=
    whileCount_eq_some.mpr ⟨Nat.find_spec h, fun m hm => not_not.mp (Nat.find_min h hm)⟩
  rw [whileLoop, this]; rfl

theorem whileLoop_some {σ : Type} {c : σ → Prop} {b : σ → σ} {s t : σ} (h : whileLoop c b s = some t) :
    ∃ n, t = b^[n] s ∧ ¬ c t := by
  unfold whileLoop at h
  cases hc : whileCount (fun n => c (b^[n] s)) with
  | none => rw [hc] at h; simp at h
  | some n =>
    rw [hc] at h
    simp only [Option.map_some, Option.some.injEq] at h
    subst h
    exact ⟨n, rfl, (whileCount_eq_some.mp hc).1⟩

/-- The whole iteration. -/
theorem nw_loop {a y x : ℝ} (ha : 0 < a) (hx : 0 < x) (hy : 0 < y) :
    ∃ st, whileLoop NewtonState.goesOn (nwBody a y) ⟨x, 1, 1⟩ = some st ∧ 0 < st.x ∧
      y ≤ nwP a st.x ∧ nwP a st.x ≤ y * (1 + acceptError) := by
  obtain ⟨n, h1, h2⟩ := whileLoop_of_ends (nw_ends ha hx hy)
  exact ⟨_, h1, nw_final hy (nwIter_inv ha.le hx n) h2⟩

end N2P2
