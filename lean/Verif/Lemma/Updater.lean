import Verif.Spec.Updater
import Mathlib.LinearAlgebra.Matrix.PosDef
import Mathlib.Algebra.Order.Star.Real
import Mathlib.Tactic.Linarith
import Mathlib.Tactic.Ring
import Mathlib.Tactic.FieldSimp
import Mathlib.Tactic.Positivity

/-! Helper lemmas for the updaters. -/

namespace N2P2

namespace KalmanFilter

open Matrix

variable {N M : ℕ}

theorem lowerView_of_symm {P : Matrix (Fin N) (Fin N) ℝ} (h : P.PosDef) : lowerView P = P := by
  have hs : Pᵀ = P := by simpa [IsHermitian, conjTranspose_eq_transpose_of_trivial] using h.1
  funext i j
  unfold lowerView
  by_cases hij : j ≤ i
  · rw [if_pos hij]
  · rw [if_neg hij]
    exact congrFun (congrFun hs i) j

theorem posDef_symm {P : Matrix (Fin N) (Fin N) ℝ} (h : P.PosDef) : Pᵀ = P := by
  simpa [IsHermitian, conjTranspose_eq_transpose_of_trivial] using h.1

theorem diag_eq_smul (r : ℝ) : (diagonal fun _ => r : Matrix (Fin M) (Fin M) ℝ) = r • 1 := by
  rw [← diagonal_one, ← diagonal_smul]
  congr 1
  funext i
  simp

theorem posDef_scaling {P : Matrix (Fin N) (Fin N) ℝ} (h : P.PosDef) {r : ℝ} (hr : 0 < r)
    (H : Matrix (Fin N) (Fin M) ℝ) :
    (Hᵀ * (P * H) + diagonal fun _ => r : Matrix (Fin M) (Fin M) ℝ).PosDef := by
  refine PosDef.posSemidef_add ?_ (PosDef.diagonal fun _ => hr)
  rw [← Matrix.mul_assoc]
  exact h.posSemidef.conjTranspose_mul_mul_same H

theorem posDef_info {P : Matrix (Fin N) (Fin N) ℝ} (h : P.PosDef) {r : ℝ} (hr : 0 < r)
    (H : Matrix (Fin N) (Fin M) ℝ) : (P⁻¹ + r⁻¹ • (H * Hᵀ)).PosDef := by
  refine h.inv.add_posSemidef (PosSemidef.smul ?_ (inv_nonneg.mpr hr.le))
  have := posSemidef_self_mul_conjTranspose H
  simpa [conjTranspose_eq_transpose_of_trivial] using this

theorem inv_smul_one {r : ℝ} (hr : 0 < r) :
    (r⁻¹ • (1 : Matrix (Fin M) (Fin M) ℝ))⁻¹ = r • 1 := by
  apply inv_eq_right_inv
  rw [smul_mul_smul_comm, Matrix.one_mul, inv_mul_cancel₀ hr.ne', one_smul]

/-- The covariance update in information form. -/
theorem cov_update {P : Matrix (Fin N) (Fin N) ℝ} (h : P.PosDef) {r : ℝ} (hr : 0 < r)
    (H : Matrix (Fin N) (Fin M) ℝ) :
    P - P * H * (Hᵀ * (P * H) + diagonal fun _ => r)⁻¹ * (P * H)ᵀ
      = (P⁻¹ + r⁻¹ • (H * Hᵀ))⁻¹ := by
  have hu : IsUnit P := h.isUnit
  have hdet : IsUnit P.det := (isUnit_iff_isUnit_det P).mp hu
  have hPi : P⁻¹⁻¹ = P := nonsing_inv_nonsing_inv P hdet
  have hC : IsUnit (r⁻¹ • (1 : Matrix (Fin M) (Fin M) ℝ)) := by
    rw [← diag_eq_smul]
    exact (PosDef.diagonal fun _ => inv_pos.mpr hr).isUnit
  have hA : (r⁻¹ • (1 : Matrix (Fin M) (Fin M) ℝ))⁻¹ + Hᵀ * P⁻¹⁻¹ * H
      = Hᵀ * (P * H) + diagonal fun _ => r := by
    rw [hPi, inv_smul_one hr, diag_eq_smul, Matrix.mul_assoc, add_comm]
  have key := add_mul_mul_inv_eq_sub P⁻¹ H (r⁻¹ • (1 : Matrix (Fin M) (Fin M) ℝ)) Hᵀ
    h.inv.isUnit hC (by rw [hA]; exact (posDef_scaling h hr H).isUnit)
  rw [hA, hPi] at key
  rw [transpose_mul, posDef_symm h]
  have e : H * (r⁻¹ • (1 : Matrix (Fin M) (Fin M) ℝ)) * Hᵀ = r⁻¹ • (H * Hᵀ) := by
    rw [Matrix.mul_smul, Matrix.mul_one, Matrix.smul_mul]
  rw [e] at key
  rw [key]
  simp only [Matrix.mul_assoc]

/-- The gain solves the normal equations. -/
theorem gain_normal {P : Matrix (Fin N) (Fin N) ℝ} (h : P.PosDef) {r : ℝ} (hr : 0 < r)
    (H : Matrix (Fin N) (Fin M) ℝ) :
    (P⁻¹ + r⁻¹ • (H * Hᵀ)) * (P * H * (Hᵀ * (P * H) + diagonal fun _ => r)⁻¹) = r⁻¹ • H := by
  have hdet : IsUnit P.det := (isUnit_iff_isUnit_det P).mp h.isUnit
  have hA := (isUnit_iff_isUnit_det _).mp (posDef_scaling h hr H).isUnit
  have e : (P⁻¹ + r⁻¹ • (H * Hᵀ)) * (P * H)
      = r⁻¹ • H * (Hᵀ * (P * H) + diagonal fun _ => r) := by
    rw [Matrix.add_mul, ← Matrix.mul_assoc P⁻¹, nonsing_inv_mul P hdet, Matrix.one_mul, Matrix.mul_add, diag_eq_smul,
      Matrix.mul_smul, Matrix.mul_one, smul_smul, mul_inv_cancel₀ hr.ne', one_smul, add_comm]
    congr 1
    rw [Matrix.smul_mul, Matrix.smul_mul, Matrix.mul_assoc]
  rw [← Matrix.mul_assoc, e, Matrix.mul_assoc, mul_nonsing_inv _ hA, Matrix.mul_one]

theorem dot_symm {A : Matrix (Fin N) (Fin N) ℝ} (h : Aᵀ = A) (x y : Fin N → ℝ) :
    x ⬝ᵥ (A *ᵥ y) = y ⬝ᵥ (A *ᵥ x) := by
  rw [dotProduct_mulVec, ← mulVec_transpose, h, dotProduct_comm]

/-- Completing the square. -/
theorem cost_eq {P : Matrix (Fin N) (Fin N) ℝ} (h : P.PosDef) {r : ℝ} (hr : 0 < r)
    (xi : Fin M → ℝ) (H : Matrix (Fin N) (Fin M) ℝ) (d : Fin N → ℝ) :
    let d0 := (P * H * (Hᵀ * (P * H) + diagonal fun _ => r)⁻¹) *ᵥ xi
    cost P r xi H d = cost P r xi H d0
      + (d - d0) ⬝ᵥ ((P⁻¹ + r⁻¹ • (H * Hᵀ)) *ᵥ (d - d0)) := by
  intro d0
  have hn : (P⁻¹ + r⁻¹ • (H * Hᵀ)) *ᵥ d0 = r⁻¹ • (H *ᵥ xi) := by
    simp only [d0]
    rw [mulVec_mulVec, gain_normal h hr H, smul_mulVec]
  have hsym : (P⁻¹ + r⁻¹ • (H * Hᵀ))ᵀ = P⁻¹ + r⁻¹ • (H * Hᵀ) := posDef_symm (posDef_info h hr H)
  have hc : ∀ x, cost P r xi H x = x ⬝ᵥ ((P⁻¹ + r⁻¹ • (H * Hᵀ)) *ᵥ x)
      - 2 * (x ⬝ᵥ (r⁻¹ • (H *ᵥ xi))) + r⁻¹ * (xi ⬝ᵥ xi) := by
    intro x
    unfold cost
    have e1 : xi ⬝ᵥ (Hᵀ *ᵥ x) = x ⬝ᵥ (H *ᵥ xi) := by
      rw [mulVec_transpose, ← dotProduct_comm, ← dotProduct_mulVec]
    have e2 : (Hᵀ *ᵥ x) ⬝ᵥ (Hᵀ *ᵥ x) = x ⬝ᵥ ((H * Hᵀ) *ᵥ x) := by
      rw [← mulVec_mulVec, dotProduct_mulVec x H, ← mulVec_transpose]
    rw [sub_dotProduct, dotProduct_sub, dotProduct_sub, dotProduct_comm (Hᵀ *ᵥ x) xi, e1, e2,
      add_mulVec, dotProduct_add, smul_mulVec, dotProduct_smul, dotProduct_smul, smul_eq_mul,
      smul_eq_mul]
    ring
  rw [hc d, hc d0, ← hn]
  rw [mulVec_sub, sub_dotProduct, dotProduct_sub, dotProduct_sub, dot_symm hsym d0 d]
  ring

/-- Measurement noise used by an update. -/
noncomputable def noise (k : KalmanFilter N) : ℝ :=
  match k.type with
  | .STANDARD => 1 / k.nextEta
  | .FADINGMEMORY => k.lambda

theorem scalingMatrix_eq {k : KalmanFilter N} (h : k.P.PosDef) (H : Matrix (Fin N) (Fin M) ℝ) :
    k.scalingMatrix H = Hᵀ * (k.P * H) + diagonal fun _ => k.noise := by
  unfold scalingMatrix noise
  rw [lowerView_of_symm h]
  rfl

theorem gain_eq {k : KalmanFilter N} (h : k.P.PosDef) (H : Matrix (Fin N) (Fin M) ℝ) :
    k.gain H = k.P * H * (Hᵀ * (k.P * H) + diagonal fun _ => k.noise)⁻¹ := by
  unfold gain
  rw [scalingMatrix_eq h, lowerView_of_symm h]

/-- Forgetting factor applied to the covariance. -/
noncomputable def forget (k : KalmanFilter N) : ℝ :=
  match k.type with
  | .STANDARD => 1
  | .FADINGMEMORY => 1 / k.lambda

theorem update_P {k : KalmanFilter N} (h : k.P.PosDef) (hr : 0 < k.noise) (xi : Fin M → ℝ)
    (H : Matrix (Fin N) (Fin M) ℝ) :
    (k.update xi H).P = k.forget • (k.P⁻¹ + k.noise⁻¹ • (H * Hᵀ))⁻¹ + diagonal fun _ => k.q := by
  rw [← cov_update h hr H]
  unfold update forget
  simp only [gain_eq h, lowerView_of_symm h]
  cases k.type <;> simp

theorem update_type (k : KalmanFilter N) (xi : Fin M → ℝ) (H : Matrix (Fin N) (Fin M) ℝ) :
    (k.update xi H).type = k.type := rfl

theorem posDef_update {k : KalmanFilter N} (h : k.P.PosDef) (hr : 0 < k.noise)
    (hf : 0 < k.forget) (hq : 0 ≤ k.q) (xi : Fin M → ℝ) (H : Matrix (Fin N) (Fin M) ℝ) :
    (k.update xi H).P.PosDef := by
  rw [update_P h hr]
  exact ((posDef_info h hr H).inv.smul hf).add_posSemidef (PosSemidef.diagonal fun _ => hq)

/-- What holds throughout a run of the standard filter. -/
structure StdInv (p : StdParams) (k : KalmanFilter N) : Prop where
  type : k.type = .STANDARD
  posDef : k.P.PosDef
  q : 0 ≤ k.q
  eta : 0 < k.eta
  qtau : k.qtau = p.qtau
  qmin : k.qmin = p.qmin
  etatau : k.etatau = p.etatau
  etamax : k.etamax = p.etamax

theorem nextEta_pos {k : KalmanFilter N} (h : 0 < k.eta) : 0 < k.nextEta := by
  unfold nextEta
  by_cases hc : k.type = .STANDARD ∧ k.eta < k.etamax
  · simp only [hc, and_self, if_true]; exact mul_pos h (Real.exp_pos _)
  · simp only [hc, if_false]; exact h

theorem update_q_nonneg {k : KalmanFilter N} (h : 0 ≤ k.q) (xi : Fin M → ℝ)
    (H : Matrix (Fin N) (Fin M) ℝ) : 0 ≤ (k.update xi H).q := by
  unfold update
  by_cases hc : k.qmin < k.q
  · simp only [hc, if_true]; exact mul_nonneg h (Real.exp_pos _).le
  · simp only [hc, if_false]; exact h

theorem StdInv.noise_pos {p : StdParams} {k : KalmanFilter N} (h : StdInv p k) : 0 < k.noise := by
  unfold noise
  rw [h.type]
  exact one_div_pos.mpr (nextEta_pos h.eta)

theorem StdInv.update {p : StdParams} {k : KalmanFilter N} (h : StdInv p k) (xi : Fin M → ℝ)
    (H : Matrix (Fin N) (Fin M) ℝ) : StdInv p (k.update xi H) where
  type := h.type
  posDef := posDef_update h.posDef h.noise_pos (by unfold forget; rw [h.type]; exact one_pos) h.q xi H
  q := update_q_nonneg h.q xi H
  eta := nextEta_pos h.eta
  qtau := h.qtau
  qmin := h.qmin
  etatau := h.etatau
  etamax := h.etamax

theorem StartsStandard.inv {p : StdParams} (hp : p.Valid) {k : KalmanFilter N}
    (h : StartsStandard p k) : StdInv p k := by
  obtain ⟨w, k0, h0, rfl⟩ := h
  unfold create at h0
  by_cases hN : N < 1
  · rw [if_pos hN] at h0; cases h0
  rw [if_neg hN] at h0
  obtain rfl := Option.some.inj h0
  refine ⟨rfl, ?_, hp.2.1, hp.2.2, rfl, rfl, rfl, rfl⟩
  exact (PosDef.one (n := Fin N) (R := ℝ)).smul (inv_pos.mpr hp.1)

theorem StdInv.run {p : StdParams} {k k' : KalmanFilter N} {t : ℕ} (h : StdInv p k)
    (hr : Run k t k') : StdInv p k' := by
  induction hr with
  | start => exact h
  | step xi H _ ih => exact ih.update xi H

/-- What holds throughout a run of the fading memory filter. -/
structure FadInv (p : FadParams) (k : KalmanFilter N) : Prop where
  type : k.type = .FADINGMEMORY
  posDef : k.P.PosDef
  q : 0 ≤ k.q
  lambda_pos : 0 < k.lambda
  lambda_le : k.lambda ≤ 1
  gamma_pos : 0 < k.gamma
  gamma_le : k.gamma ≤ 1
  qtau : k.qtau = p.qtau
  qmin : k.qmin = p.qmin
  nu : k.nu = p.nu

theorem update_lambda {k : KalmanFilter N} (h : k.type = .FADINGMEMORY) (xi : Fin M → ℝ)
    (H : Matrix (Fin N) (Fin M) ℝ) :
    (k.update xi H).lambda = k.nu * k.lambda + 1 - k.nu ∧
    (k.update xi H).gamma = 1 / (1 + (k.nu * k.lambda + 1 - k.nu) / k.gamma) := by
  unfold update
  simp [h]

theorem FadInv.update {p : FadParams} (hp : p.Valid) {k : KalmanFilter N} (h : FadInv p k)
    (xi : Fin M → ℝ) (H : Matrix (Fin N) (Fin M) ℝ) : FadInv p (k.update xi H) := by
  obtain ⟨_, _, _, _, h0, h1⟩ := hp
  have hn : k.noise = k.lambda := by unfold noise; rw [h.type]
  have hf : k.forget = 1 / k.lambda := by unfold forget; rw [h.type]
  have hl := h.lambda_pos
  have hl1 := h.lambda_le
  obtain ⟨e1, e2⟩ := update_lambda h.type xi H
  have hpos : 0 < k.nu * k.lambda + 1 - k.nu := by
    rw [h.nu]
    nlinarith
  have hdiv : 0 < (k.nu * k.lambda + 1 - k.nu) / k.gamma := div_pos hpos h.gamma_pos
  refine ⟨h.type, ?_, update_q_nonneg h.q xi H, ?_, ?_, ?_, ?_, h.qtau, h.qmin, h.nu⟩
  · exact posDef_update h.posDef (by rw [hn]; exact hl) (by rw [hf]; exact one_div_pos.mpr hl)
      h.q xi H
  · rw [e1]; exact hpos
  · rw [e1, h.nu]; nlinarith
  · rw [e2]; positivity
  · rw [e2, div_le_one (by linarith)]; linarith

theorem StartsFading.inv {p : FadParams} (hp : p.Valid) {k : KalmanFilter N}
    (h : StartsFading p k) : FadInv p k := by
  obtain ⟨w, k0, h0, rfl⟩ := h
  unfold create at h0
  by_cases hN : N < 1
  · rw [if_pos hN] at h0; cases h0
  rw [if_neg hN] at h0
  obtain rfl := Option.some.inj h0
  refine ⟨rfl, ?_, hp.2.1, hp.2.2.1, hp.2.2.2.1, one_pos, le_rfl, rfl, rfl, rfl⟩
  exact (PosDef.one (n := Fin N) (R := ℝ)).smul (inv_pos.mpr hp.1)

theorem FadInv.run {p : FadParams} (hp : p.Valid) {k k' : KalmanFilter N} {t : ℕ}
    (h : FadInv p k) (hr : Run k t k') : FadInv p k' := by
  induction hr with
  | start => exact h
  | step xi H _ ih => exact ih.update hp xi H

end KalmanFilter

namespace GradientDescent

theorem moment_succ (β : ℝ) (x : ℕ → ℝ) (t : ℕ) :
    moment β x (t + 1) = β * moment β x t + (1 - β) * x t := by
  unfold moment
  have e : ∑ s ∈ Finset.range t, β ^ (t + 1 - 1 - s) * x s
      = β * ∑ s ∈ Finset.range t, β ^ (t - 1 - s) * x s := by
    rw [Finset.mul_sum]
    refine Finset.sum_congr rfl fun s hs => ?_
    have hs := Finset.mem_range.mp hs
    rw [show t + 1 - 1 - s = (t - 1 - s) + 1 by omega, pow_succ]
    ring
  rw [Finset.sum_range_succ, e, show t + 1 - 1 - t = 0 by omega]
  ring

/-- The Adam state after `t` updates. -/
theorem after_adam {N : ℕ} {u : GradientDescent N} (hm : u.m = fun _ => 0) (hv : u.v = fun _ => 0)
    (ht : u.type = .ADAM) {α β1 β2 ε : ℝ} (e : ℕ → ℝ) (g : ℕ → Fin N → ℝ) (t : ℕ) :
    let a := (u.setParametersAdam α β1 β2 ε).after e g t
    a.type = .ADAM ∧ a.beta1 = β1 ∧ a.beta2 = β2 ∧ a.epsilon = ε ∧ a.eta0 = α ∧
    a.beta1t = β1 ^ (t + 1) ∧ a.beta2t = β2 ^ (t + 1) ∧
    (∀ i, a.m i = moment β1 (fun s => e s * -g s i) t) ∧
    (∀ i, a.v i = moment β2 (fun s => (e s * -g s i) ^ 2) t) := by
  induction t with
  | zero => simp [after, setParametersAdam, ht, hm, hv, moment]
  | succ t ih =>
    obtain ⟨h1, h2, h3, h4, h5, h6, h7, h8, h9⟩ := ih
    simp only [after]
    generalize (u.setParametersAdam α β1 β2 ε).after e g t = a at *
    unfold update
    rw [h1]
    simp only
    refine ⟨trivial, h2, h3, h4, h5, ?_, ?_, fun i => ?_, fun i => ?_⟩
    · rw [h6, h2, ← pow_succ]
    · rw [h7, h3, ← pow_succ]
    · rw [h2, h8, moment_succ]
    · rw [h3, h9, moment_succ]; ring

end GradientDescent

end N2P2
