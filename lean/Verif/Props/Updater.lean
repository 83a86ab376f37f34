import Verif.Lemma.Updater
import Mathlib.Analysis.SpecificLimits.Basic

/-! Properties C44, C45, C62 (Kalman filter) and C46 (gradient descent). -/

namespace N2P2

open Matrix KalmanFilter

/-! ### C44 -/

/-- C44: throughout any run of the standard filter the covariance matrix is symmetric positive
definite and the matrix to be inverted in the next update is invertible. -/
theorem C44_standard (N t : ℕ) (p : StdParams) (hp : p.Valid) (k k' : KalmanFilter N)
    (hs : StartsStandard p k) (hr : Run k t k') :
    k'.P.IsSymm ∧ (∀ x : Fin N → ℝ, x ≠ 0 → 0 < x ⬝ᵥ (k'.P *ᵥ x)) ∧
    ∀ (M : ℕ) (H : Matrix (Fin N) (Fin M) ℝ), IsUnit (k'.scalingMatrix H) := by
  have h := (hs.inv hp).run hr
  refine ⟨posDef_symm h.posDef, fun x hx => ?_, fun M H => ?_⟩
  · simpa using h.posDef.dotProduct_mulVec_pos hx
  · rw [scalingMatrix_eq h.posDef]
    exact (posDef_scaling h.posDef h.noise_pos H).isUnit

/-- C44: the same for the fading memory filter. -/
theorem C44_fading (N t : ℕ) (p : FadParams) (hp : p.Valid) (k k' : KalmanFilter N)
    (hs : StartsFading p k) (hr : Run k t k') :
    k'.P.IsSymm ∧ (∀ x : Fin N → ℝ, x ≠ 0 → 0 < x ⬝ᵥ (k'.P *ᵥ x)) ∧
    ∀ (M : ℕ) (H : Matrix (Fin N) (Fin M) ℝ), IsUnit (k'.scalingMatrix H) := by
  have h := (hs.inv hp).run hp hr
  refine ⟨posDef_symm h.posDef, fun x hx => ?_, fun M H => ?_⟩
  · simpa using h.posDef.dotProduct_mulVec_pos hx
  · rw [scalingMatrix_eq h.posDef]
    refine (posDef_scaling h.posDef ?_ H).isUnit
    unfold noise; rw [h.type]; exact h.lambda_pos

/-- C44: without the process noise, the inverse covariance grows by eta H Hᵀ (standard) in an
update; with fading memory it is scaled by lambda first. -/
theorem C44_information (N t M : ℕ) (xi : Fin M → ℝ) (H : Matrix (Fin N) (Fin M) ℝ) :
    (∀ (p : StdParams) (k k' : KalmanFilter N), p.Valid → StartsStandard p k → Run k t k' →
      (k'.update xi H).P = (k'.P⁻¹ + (k'.update xi H).eta • (H * Hᵀ))⁻¹ + k'.q • 1) ∧
    (∀ (p : FadParams) (k k' : KalmanFilter N), p.Valid → StartsFading p k → Run k t k' →
      (k'.update xi H).P = (k'.lambda • k'.P⁻¹ + H * Hᵀ)⁻¹ + k'.q • 1) := by
  constructor
  · intro p k k' hp hs hr
    have h := (hs.inv hp).run hr
    rw [update_P h.posDef h.noise_pos, diag_eq_smul]
    have hn : k'.noise⁻¹ = (k'.update xi H).eta := by
      unfold noise; rw [h.type]; simp [KalmanFilter.update]
    have hf : k'.forget = 1 := by unfold forget; rw [h.type]
    rw [hn, hf, one_smul]
  · intro p k k' hp hs hr
    have h := (hs.inv hp).run hp hr
    have hl := h.lambda_pos
    have hn : k'.noise = k'.lambda := by unfold noise; rw [h.type]
    have hf : k'.forget = k'.lambda⁻¹ := by unfold forget; rw [h.type]; simp
    have hpos : 0 < k'.noise := by rw [hn]; exact hl
    rw [update_P h.posDef hpos, diag_eq_smul, hf, hn]
    congr 1
    have hI := posDef_info h.posDef hl H
    have hdet := (isUnit_iff_isUnit_det _).mp hI.isUnit
    symm
    apply inv_eq_right_inv
    have e : k'.lambda • k'.P⁻¹ + H * Hᵀ = k'.lambda • (k'.P⁻¹ + k'.lambda⁻¹ • (H * Hᵀ)) := by
      rw [smul_add, smul_smul, mul_inv_cancel₀ hl.ne', one_smul]
    rw [e, Matrix.smul_mul, Matrix.mul_smul, smul_smul, mul_inv_cancel₀ hl.ne', one_smul,
      mul_nonsing_inv _ hdet]

/-- Parameters used in the examples. -/
noncomputable def exampleStd : StdParams := ⟨1 / 100, 1 / 100, 2, 1 / 1000000, 1 / 100, 2, 1⟩

/-- Parameters used in the examples. -/
noncomputable def exampleFad : FadParams := ⟨1 / 100, 1 / 100, 2, 1 / 1000000, 96 / 100, 99 / 100⟩

example : ∃ k k' : KalmanFilter 2, exampleStd.Valid ∧ StartsStandard exampleStd k ∧ Run k 2 k' :=
  ⟨_, _, by norm_num [exampleStd, StdParams.Valid], ⟨fun _ => 1, _, rfl, rfl⟩,
    .step ![1, 2, 3] !![1, 2, 3; 4, 5, 6] (.step ![1] !![1; 2] .start)⟩

example : ∃ k k' : KalmanFilter 2, exampleFad.Valid ∧ StartsFading exampleFad k ∧ Run k 2 k' :=
  ⟨_, _, by norm_num [exampleFad, FadParams.Valid], ⟨fun _ => 1, _, rfl, rfl⟩,
    .step ![1, 2, 3] !![1, 2, 3; 4, 5, 6] (.step ![1] !![1; 2] .start)⟩

/-! ### C62 -/

/-- C62: the step of the state vector is the unique minimiser of dᵀ P⁻¹ d + eta |xi - Hᵀ d|², with
the covariance before the update and the learning rate of the update. -/
theorem C62_standard (N t M : ℕ) (p : StdParams) (hp : p.Valid) (k k' : KalmanFilter N)
    (hs : StartsStandard p k) (hr : Run k t k') (xi : Fin M → ℝ) (H : Matrix (Fin N) (Fin M) ℝ)
    (d : Fin N → ℝ) (hd : d ≠ (k'.update xi H).w - k'.w) :
    cost k'.P (1 / (k'.update xi H).eta) xi H ((k'.update xi H).w - k'.w)
      < cost k'.P (1 / (k'.update xi H).eta) xi H d := by
  have h := (hs.inv hp).run hr
  have hn : 1 / (k'.update xi H).eta = k'.noise := by
    unfold noise; rw [h.type]; simp [KalmanFilter.update]
  have hw : (k'.update xi H).w - k'.w = k'.gain H *ᵥ xi := by
    simp [KalmanFilter.update]
  rw [hw] at hd ⊢
  rw [hn, gain_eq h.posDef] at *
  rw [cost_eq h.posDef h.noise_pos xi H d]
  have := (posDef_info h.posDef h.noise_pos H).dotProduct_mulVec_pos (sub_ne_zero.mpr hd)
  simp only [star_trivial] at this
  linarith

/-- C62: the same for fading memory, with measurement noise lambda. -/
theorem C62_fading (N t M : ℕ) (p : FadParams) (hp : p.Valid) (k k' : KalmanFilter N)
    (hs : StartsFading p k) (hr : Run k t k') (xi : Fin M → ℝ) (H : Matrix (Fin N) (Fin M) ℝ)
    (d : Fin N → ℝ) (hd : d ≠ (k'.update xi H).w - k'.w) :
    cost k'.P k'.lambda xi H ((k'.update xi H).w - k'.w) < cost k'.P k'.lambda xi H d := by
  have h := (hs.inv hp).run hp hr
  have hn : k'.noise = k'.lambda := by unfold noise; rw [h.type]
  have hpos : 0 < k'.noise := by rw [hn]; exact h.lambda_pos
  have hw : (k'.update xi H).w - k'.w = k'.gain H *ᵥ xi := by
    simp [KalmanFilter.update]
  rw [hw] at hd ⊢
  rw [← hn, gain_eq h.posDef] at *
  rw [cost_eq h.posDef hpos xi H d]
  have := (posDef_info h.posDef hpos H).dotProduct_mulVec_pos (sub_ne_zero.mpr hd)
  simp only [star_trivial] at this
  linarith

example : ∃ (k k' : KalmanFilter 1) (d : Fin 1 → ℝ), exampleStd.Valid ∧
    StartsStandard exampleStd k ∧ Run k 0 k' ∧ d ≠ (k'.update ![0] !![1]).w - k'.w := by
  refine ⟨_, _, ![1], by norm_num [exampleStd, StdParams.Valid], ⟨fun _ => 1, _, rfl, rfl⟩,
    .start, ?_⟩
  intro h
  have := congrFun h 0
  have hz : (![0] : Fin 1 → ℝ) = 0 := by funext i; fin_cases i; rfl
  simp [KalmanFilter.update, hz] at this

/-! ### C45 -/

/-- C45: in the standard filter, with nonnegative rates, the learning rate never falls, stays
positive and passes its maximum by at most one growth factor; it follows eta0 exp(t tau) as long as
this has not reached the maximum. -/
theorem C45_eta (N t : ℕ) (p : StdParams) (hp : p.Valid) (ht : 0 ≤ p.etatau)
    (k k' : KalmanFilter N) (hs : StartsStandard p k) (hr : Run k t k') :
    p.eta0 ≤ k'.eta ∧ k'.eta ≤ max p.eta0 (p.etamax * Real.exp p.etatau) ∧
    (∀ (M : ℕ) (xi : Fin M → ℝ) (H : Matrix (Fin N) (Fin M) ℝ), k'.eta ≤ (k'.update xi H).eta ∧
      (p.etamax ≤ k'.eta → (k'.update xi H).eta = k'.eta)) ∧
    ((∀ s < t, p.eta0 * Real.exp (s * p.etatau) < p.etamax) →
      k'.eta = p.eta0 * Real.exp (t * p.etatau)) := by
  have h1 : 1 ≤ Real.exp p.etatau := Real.one_le_exp ht
  have hstep : ∀ (a : KalmanFilter N), StdInv p a →
      a.nextEta = if a.eta < p.etamax then a.eta * Real.exp p.etatau else a.eta := by
    intro a ha
    unfold nextEta
    rw [ha.etatau, ha.etamax]
    by_cases hc : a.eta < p.etamax <;> simp [hc, ha.type]
  have hmono : ∀ (a : KalmanFilter N), StdInv p a → a.eta ≤ a.nextEta := by
    intro a ha
    rw [hstep a ha]
    have := ha.eta
    split_ifs
    · nlinarith
    · exact le_rfl
  have hinv := (hs.inv hp).run hr
  have h0 : k.eta = p.eta0 := by obtain ⟨w, k0, _, rfl⟩ := hs; rfl
  refine ⟨?_, ?_, fun M xi H => ⟨hmono k' hinv, fun hm => ?_⟩, ?_⟩
  · clear hinv
    induction hr with
    | start => exact h0.ge
    | step xi H hr' ih => exact ih.trans (hmono _ ((hs.inv hp).run hr'))
  · clear hinv
    induction hr with
    | start => rw [h0]; exact le_max_left _ _
    | step xi H hr' ih =>
      have hi := (hs.inv hp).run hr'
      refine le_trans (le_of_eq (hstep _ hi)) ?_
      split_ifs with hc
      · exact le_max_of_le_right (mul_le_mul_of_nonneg_right hc.le (Real.exp_pos _).le)
      · exact ih
  · refine (hstep k' hinv).trans (if_neg (not_lt.mpr hm))
  · clear hinv
    induction hr with
    | start => intro _; simp [h0]
    | step xi H hr' ih =>
      rename_i s a M
      intro hall
      have hi := (hs.inv hp).run hr'
      have e := ih fun s' hs' => hall s' (by omega)
      refine (hstep _ hi).trans ?_
      rw [e, if_pos (hall s (by omega)), mul_assoc, ← Real.exp_add]
      congr 2
      push_cast; ring

/-- C45: the process noise never rises (nonnegative decay rate), is never negative and falls below
its minimum by at most one decay factor; it follows q0 exp(-t tau) as long as this is above the
minimum. Both filter types use the same rule. -/
theorem C45_q (N t : ℕ) (k k' : KalmanFilter N) (hq : 0 ≤ k.q) (ht : 0 ≤ k.qtau)
    (hr : Run k t k') :
    0 ≤ k'.q ∧ k'.q ≤ k.q ∧ min k.q (k.qmin * Real.exp (-k.qtau)) ≤ k'.q ∧
    (∀ (M : ℕ) (xi : Fin M → ℝ) (H : Matrix (Fin N) (Fin M) ℝ), (k'.update xi H).q ≤ k'.q ∧
      (k'.q ≤ k.qmin → (k'.update xi H).q = k'.q)) ∧
    ((∀ s < t, k.qmin < k.q * Real.exp (-(s * k.qtau))) →
      k'.q = k.q * Real.exp (-(t * k.qtau))) := by
  have h1 : Real.exp (-k.qtau) ≤ 1 := Real.exp_le_one_iff.mpr (by linarith)
  have he := Real.exp_pos (-k.qtau)
  have hstep : ∀ (a : KalmanFilter N) (M : ℕ) (xi : Fin M → ℝ) (H : Matrix (Fin N) (Fin M) ℝ),
      (a.update xi H).q = if a.qmin < a.q then a.q * Real.exp (-a.qtau) else a.q := by
    intro a M xi H
    unfold KalmanFilter.update
    by_cases hc : a.qmin < a.q <;> simp [hc]
  have hpar : ∀ {s a}, Run k s a → a.qtau = k.qtau ∧ a.qmin = k.qmin ∧ 0 ≤ a.q ∧ a.q ≤ k.q ∧
      min k.q (k.qmin * Real.exp (-k.qtau)) ≤ a.q ∧
      ((∀ s' < s, k.qmin < k.q * Real.exp (-(s' * k.qtau))) →
        a.q = k.q * Real.exp (-(s * k.qtau))) := by
    intro s a hr
    induction hr with
    | start => exact ⟨rfl, rfl, hq, le_rfl, min_le_left _ _, fun _ => by simp⟩
    | step xi H _ ih =>
      rename_i s a M _
      obtain ⟨i1, i2, i3, i4, i5, i6⟩ := ih
      refine ⟨i1, i2, update_q_nonneg i3 xi H, ?_, ?_, ?_⟩
      · rw [hstep, i1]
        split_ifs
        · nlinarith
        · exact i4
      · rw [hstep, i1, i2]
        split_ifs with hc
        · exact (min_le_right _ _).trans (mul_le_mul_of_nonneg_right hc.le he.le)
        · exact i5
      · intro hall
        have e := i6 fun s' hs' => hall s' (by omega)
        rw [hstep, i1, i2, e, if_pos (hall s (by omega)), mul_assoc, ← Real.exp_add]
        congr 2
        push_cast; ring
  obtain ⟨i1, i2, i3, i4, i5, i6⟩ := hpar hr
  refine ⟨i3, i4, i5, fun M xi H => ⟨?_, fun hm => ?_⟩, i6⟩
  · rw [hstep, i1]
    split_ifs
    · nlinarith
    · exact le_rfl
  · rw [hstep, i2, if_neg (not_lt.mpr hm)]

/-- C45: in fading memory mode the distance of the forgetting factor from 1 is (1 - lambda0) nu^t;
it stays in (0, 1] and so does gamma. -/
theorem C45_lambda (N t : ℕ) (p : FadParams) (hp : p.Valid) (k k' : KalmanFilter N)
    (hs : StartsFading p k) (hr : Run k t k') :
    k'.lambda = 1 - (1 - p.lambda) * p.nu ^ t ∧ 0 < k'.lambda ∧ k'.lambda ≤ 1 ∧
    0 < k'.gamma ∧ k'.gamma ≤ 1 := by
  have hinv := (hs.inv hp).run hp hr
  refine ⟨?_, hinv.lambda_pos, hinv.lambda_le, hinv.gamma_pos, hinv.gamma_le⟩
  clear hinv
  induction hr with
  | start => obtain ⟨w, k0, _, rfl⟩ := hs; simp [setParametersFadingMemory]
  | step xi H hr' ih =>
    have hi := (hs.inv hp).run hp hr'
    rw [(update_lambda hi.type xi H).1, ih, hi.nu, pow_succ]
    ring

/-- C45: hence the forgetting factor converges to 1 if nu < 1. -/
theorem C45_lambda_limit (N : ℕ) (p : FadParams) (hp : p.Valid) (hnu : p.nu < 1)
    (k : KalmanFilter N) (hs : StartsFading p k) (run : ℕ → KalmanFilter N)
    (hr : ∀ t, Run k t (run t)) :
    Filter.Tendsto (fun t => (run t).lambda) Filter.atTop (nhds 1) := by
  have e : (fun t => (run t).lambda) = fun t => 1 - (1 - p.lambda) * p.nu ^ t := by
    funext t; exact (C45_lambda N t p hp k _ hs (hr t)).1
  rw [e]
  have := (tendsto_pow_atTop_nhds_zero_of_lt_one hp.2.2.2.2.1 hnu).const_mul (1 - p.lambda)
  simpa using this.const_sub 1

example : ∃ k k' : KalmanFilter 3, exampleStd.Valid ∧ 0 ≤ exampleStd.etatau ∧
    StartsStandard exampleStd k ∧ Run k 1 k' ∧ 0 ≤ k.q ∧ 0 ≤ k.qtau ∧
    k'.eta = 1 / 100 * Real.exp 2 := by
  have hs : StartsStandard exampleStd (N := 3) _ := ⟨fun _ => 1, _, rfl, rfl⟩
  have hr := fun k : KalmanFilter 3 => Run.step ![1] !![1; 2; 3] (Run.start (k := k))
  refine ⟨_, _, by norm_num [exampleStd, StdParams.Valid], by norm_num [exampleStd], hs, hr _,
    by norm_num [setParametersStandard, exampleStd], by norm_num [setParametersStandard, exampleStd], ?_⟩
  rw [(C45_eta 3 1 exampleStd (by norm_num [exampleStd, StdParams.Valid])
    (by norm_num [exampleStd]) _ _ hs (hr _)).2.2.2 (by
      intro s h; obtain rfl : s = 0 := by omega
      norm_num [exampleStd])]
  simp [exampleStd]

/-! ### C46 -/

/-- C46: fixed step descent moves the state by the sum of eta * error * gradient. -/
theorem C46_fixed (N t : ℕ) (s0 : Fin N → ℝ) (c eta : ℝ) (u : GradientDescent N)
    (hu : GradientDescent.create .FIXED s0 c = some u) (e : ℕ → ℝ) (g : ℕ → Fin N → ℝ) (i : Fin N) :
    ((u.setParametersFixed eta).after e g t).state i
      = s0 i + ∑ s ∈ Finset.range t, eta * e s * g s i := by
  unfold GradientDescent.create at hu
  by_cases hN : N < 1
  · rw [if_pos hN] at hu; cases hu
  rw [if_neg hN] at hu
  obtain rfl := Option.some.inj hu
  have : ∀ t, let a := (GradientDescent.setParametersFixed
      { type := .FIXED, eta := 0, beta1 := 0, beta2 := 0, epsilon := 0, eta0 := c, beta1t := 0,
        beta2t := 0, state := s0, m := fun _ => 0, v := fun _ => 0 } eta).after e g t
      a.type = .FIXED ∧ a.eta = eta ∧
        a.state i = s0 i + ∑ s ∈ Finset.range t, eta * e s * g s i := by
    intro t
    induction t with
    | zero => simp [GradientDescent.after, GradientDescent.setParametersFixed]
    | succ t ih =>
      obtain ⟨h1, h2, h3⟩ := ih
      simp only [GradientDescent.after]
      generalize (GradientDescent.setParametersFixed _ eta).after e g t = a at *
      unfold GradientDescent.update
      rw [h1]
      simp only
      refine ⟨trivial, h2, ?_⟩
      rw [h2, h3, Finset.sum_range_succ]
      ring
  exact (this t).2.2

/-- C46: the (t+1)-th Adam update moves the state by the step size times the bias-corrected first
moment, divided by the root of the bias-corrected second moment (plus the small constant in the form
of the last paragraph of section 2 of the publication); the moments are over all t+1 gradients of
the squared error. -/
theorem C46_adam (N t : ℕ) (s0 : Fin N → ℝ) (c α β1 β2 ε : ℝ) (h2 : 0 ≤ β2 ∧ β2 < 1)
    (u : GradientDescent N) (hu : GradientDescent.create .ADAM s0 c = some u)
    (e : ℕ → ℝ) (g : ℕ → Fin N → ℝ) (i : Fin N) :
    let d : ℕ → ℝ := fun s => -(e s * g s i)
    let mhat := moment β1 d (t + 1) / (1 - β1 ^ (t + 1))
    let vhat := moment β2 (fun s => d s ^ 2) (t + 1) / (1 - β2 ^ (t + 1))
    let a := (u.setParametersAdam α β1 β2 ε).after e g
    (a 0).state i = s0 i ∧
    (a (t + 1)).state i = (a t).state i
      - α * mhat / (Real.sqrt vhat + ε / Real.sqrt (1 - β2 ^ (t + 1))) := by
  unfold GradientDescent.create at hu
  by_cases hN : N < 1
  · rw [if_pos hN] at hu; cases hu
  rw [if_neg hN] at hu
  obtain rfl := Option.some.inj hu
  intro d mhat vhat a
  refine ⟨rfl, ?_⟩
  have hprev := GradientDescent.after_adam (u :=
      { type := .ADAM, eta := 0, beta1 := 0, beta2 := 0, epsilon := 0, eta0 := c, beta1t := 0,
        beta2t := 0, state := s0, m := fun _ => 0, v := fun _ => 0 }) rfl rfl rfl
      (α := α) (β1 := β1) (β2 := β2) (ε := ε) e g t
  obtain ⟨p1, p2, p3, p4, p5, p6, p7, p8, p9⟩ := hprev
  have hd : ∀ s, e s * -g s i = d s := fun s => by simp [d]
  have hb2 : 0 < 1 - β2 ^ (t + 1) := by
    exact sub_pos.mpr (pow_lt_one₀ h2.1 h2.2 (Nat.succ_ne_zero t))
  have hsq := Real.sqrt_pos.mpr hb2
  change ((a t).update (e t) (g t)).state i = _
  have q1 : (a t).type = .ADAM := p1
  have e1 : ((a t).update (e t) (g t)).state i = (a t).state i
      - α * Real.sqrt (1 - β2 ^ (t + 1)) / (1 - β1 ^ (t + 1)) * moment β1 d (t + 1)
        / (Real.sqrt (moment β2 (fun s => d s ^ 2) (t + 1)) + ε) := by
    have q8 : (a t).m i = moment β1 d t := by
      have := p8 i; simp only [hd] at this; exact this
    have q9 : (a t).v i = moment β2 (fun s => d s ^ 2) t := by
      have := p9 i; simp only [hd] at this; exact this
    unfold GradientDescent.update
    rw [q1]
    simp only
    have r2 : (a t).beta1 = β1 := p2
    have r3 : (a t).beta2 = β2 := p3
    have r4 : (a t).epsilon = ε := p4
    have r5 : (a t).eta0 = α := p5
    have r6 : (a t).beta1t = β1 ^ (t + 1) := p6
    have r7 : (a t).beta2t = β2 ^ (t + 1) := p7
    rw [q8, q9, r2, r3, r4, r5, r6, r7, hd, GradientDescent.moment_succ,
      GradientDescent.moment_succ]
    ring_nf
  rw [e1]
  congr 1
  have hv : Real.sqrt vhat = Real.sqrt (moment β2 (fun s => d s ^ 2) (t + 1))
      / Real.sqrt (1 - β2 ^ (t + 1)) := Real.sqrt_div' _ hb2.le
  simp only [mhat]
  rw [hv, ← add_div, div_div_eq_mul_div]
  ring

/-- C46: the weights of the moments add up to the bias correction: for equal gradients the corrected
moment is that gradient. -/
theorem C46_bias_correction (β x : ℝ) (t : ℕ) (hb : β ^ (t + 1) ≠ 1) :
    moment β (fun _ => x) (t + 1) / (1 - β ^ (t + 1)) = x := by
  have : ∀ t, moment β (fun _ => x) t = (1 - β ^ t) * x := by
    intro t
    induction t with
    | zero => simp [moment]
    | succ t ih => rw [GradientDescent.moment_succ, ih, pow_succ]; ring
  rw [this]
  have h : 1 - β ^ (t + 1) ≠ 0 := sub_ne_zero.mpr hb.symm
  field_simp

example : ∃ u : GradientDescent 2, GradientDescent.create .ADAM ![1, 2] 0 = some u ∧
    ((0 : ℝ) ≤ 999 / 1000 ∧ (999 / 1000 : ℝ) < 1) := ⟨_, rfl, by norm_num⟩

example : ∃ u : GradientDescent 2, GradientDescent.create .FIXED ![1, 2] 0 = some u ∧
    ((u.setParametersFixed (1 / 2)).after (fun _ => 3) (fun _ => ![1, 4]) 2).state 1 = 14 := by
  refine ⟨_, rfl, ?_⟩
  rw [C46_fixed 2 2 ![1, 2] 0 (1 / 2) _ rfl]
  norm_num [Finset.sum_range_succ]

end N2P2
