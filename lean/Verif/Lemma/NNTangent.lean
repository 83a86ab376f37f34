import Verif.Lemma.NNForward
import Mathlib.Analysis.Calculus.Deriv.Add
import Mathlib.Analysis.Calculus.Deriv.Mul
import Mathlib.Analysis.Calculus.Deriv.Comp
import Mathlib.Topology.Order.OrderClosed
import Mathlib.Analysis.Calculus.FDeriv.Add
import Mathlib.Algebra.Order.BigOperators.Group.Finset

/-! Derivatives of the feed-forward function: forward mode, and the adjoint relations. -/

namespace N2P2

namespace NetShape

variable (T : NetShape)

/-- Derivative of the neuron values along a direction of parameters and inputs. -/
noncomputable def tangent (c G c' G' : ℕ → ℝ) : ℕ → ℕ → ℝ
  | 0, k => G' k
  | l + 1, k => (T.af (l + 1)).d1 (T.preact c G l k) *
      ((∑ j ∈ Finset.range (T.n l), (c' (Param.pos T.n (.weight l j k)) * T.forward c G l j
        + c (Param.pos T.n (.weight l j k)) * tangent c G c' G' l j)
        + c' (Param.pos T.n (.bias l k))) / T.divisor l)

/-- Derivative of the neuron inputs. -/
noncomputable def dpre (c G c' G' : ℕ → ℝ) (l k : ℕ) : ℝ :=
  (∑ j ∈ Finset.range (T.n l), (c' (Param.pos T.n (.weight l j k)) * T.forward c G l j
    + c (Param.pos T.n (.weight l j k)) * T.tangent c G c' G' l j)
    + c' (Param.pos T.n (.bias l k))) / T.divisor l

theorem tangent_succ (c G c' G' : ℕ → ℝ) (l k : ℕ) :
    T.tangent c G c' G' (l + 1) k
      = (T.af (l + 1)).d1 (T.preact c G l k) * T.dpre c G c' G' l k := by
  rw [tangent, dpre]

variable {T}

theorem hasDerivAt_preact_of {c G : ℝ → ℕ → ℝ} {c' G' : ℕ → ℝ} {s : ℝ} {l k : ℕ}
    (hc : ∀ p, HasDerivAt (fun t => c t p) (c' p) s)
    (hf : ∀ j < T.n l, HasDerivAt (fun t => T.forward (c t) (G t) l j)
      (T.tangent (c s) (G s) c' G' l j) s) :
    HasDerivAt (fun t => T.preact (c t) (G t) l k) (T.dpre (c s) (G s) c' G' l k) s := by
  unfold preact dpre
  refine HasDerivAt.div_const ?_ _
  refine HasDerivAt.add ?_ (hc _)
  refine HasDerivAt.fun_sum ?_
  intro j hj
  exact (hc _).mul (hf j (Finset.mem_range.mp hj))

theorem hasDerivAt_forward {c G : ℝ → ℕ → ℝ} {c' G' : ℕ → ℝ} {s : ℝ}
    (hc : ∀ p, HasDerivAt (fun t => c t p) (c' p) s)
    (hG : ∀ k, HasDerivAt (fun t => G t k) (G' k) s) (hr : T.RegularAt (c s) (G s)) :
    ∀ l ≤ T.out, ∀ k < T.n l, HasDerivAt (fun t => T.forward (c t) (G t) l k)
      (T.tangent (c s) (G s) c' G' l k) s := by
  intro l
  induction l with
  | zero => intro _ k _; simpa only [forward, tangent] using hG k
  | succ l ih =>
    intro hl k hk
    simp only [forward_succ, tangent_succ]
    have h1 := hasDerivAt_preact_of (k := k) hc (ih (by omega))
    have h2 := Activation.hasDerivAt_fn (hr l (by omega) k hk)
    exact h2.comp s h1

theorem hasDerivAt_preact {c G : ℝ → ℕ → ℝ} {c' G' : ℕ → ℝ} {s : ℝ}
    (hc : ∀ p, HasDerivAt (fun t => c t p) (c' p) s)
    (hG : ∀ k, HasDerivAt (fun t => G t k) (G' k) s) (hr : T.RegularAt (c s) (G s))
    {l : ℕ} (hl : l < T.out) (k : ℕ) :
    HasDerivAt (fun t => T.preact (c t) (G t) l k) (T.dpre (c s) (G s) c' G' l k) s :=
  hasDerivAt_preact_of hc (hasDerivAt_forward hc hG hr l (by omega))

theorem hasDerivAt_energy {c G : ℝ → ℕ → ℝ} {c' G' : ℕ → ℝ} {s : ℝ}
    (hc : ∀ p, HasDerivAt (fun t => c t p) (c' p) s)
    (hG : ∀ k, HasDerivAt (fun t => G t k) (G' k) s) (hr : T.RegularAt (c s) (G s)) :
    HasDerivAt (fun t => T.energy (c t) (G t))
      (∑ k ∈ Finset.range (T.n T.out), T.tangent (c s) (G s) c' G' T.out k) s := by
  unfold energy
  exact HasDerivAt.fun_sum fun k hk =>
    hasDerivAt_forward hc hG hr T.out le_rfl k (Finset.mem_range.mp hk)

theorem eventually_regular {c G : ℝ → ℕ → ℝ} {c' G' : ℕ → ℝ} {s : ℝ}
    (hc : ∀ p, HasDerivAt (fun t => c t p) (c' p) s)
    (hG : ∀ k, HasDerivAt (fun t => G t k) (G' k) s) (hr : T.RegularAt (c s) (G s)) :
    ∀ᶠ t in nhds s, T.RegularAt (c t) (G t) := by
  have h1 : ∀ l ∈ Finset.range T.out, ∀ᶠ t in nhds s, ∀ k ∈ Finset.range (T.n (l + 1)),
      (T.af (l + 1)).Regular (T.preact (c t) (G t) l k) := by
    intro l hl
    rw [Finset.eventually_all]
    intro k hk
    have h2 := (hasDerivAt_preact hc hG hr (Finset.mem_range.mp hl) k).continuousAt
    exact h2.eventually ((Activation.isOpen_regular _).mem_nhds
      (hr l (Finset.mem_range.mp hl) k (Finset.mem_range.mp hk)))
  rw [← Finset.eventually_all] at h1
  filter_upwards [h1] with t ht l hl k hk
  exact ht l (Finset.mem_range.mpr hl) k (Finset.mem_range.mpr hk)

/-! ### Second derivatives -/

/-- Unit direction of input `i`. -/
def unit (i : ℕ) : ℕ → ℝ := fun k => if k = i then 1 else 0

/-- Derivative along `c'` of the derivative with respect to input `i`. -/
noncomputable def tangent2 (T : NetShape) (c G c' : ℕ → ℝ) (i : ℕ) : ℕ → ℕ → ℝ
  | 0, _ => 0
  | l + 1, k =>
    (T.af (l + 1)).d2 (T.preact c G l k) * T.dpre c G c' 0 l k * T.dpre c G 0 (unit i) l k
    + (T.af (l + 1)).d1 (T.preact c G l k) *
      ((∑ j ∈ Finset.range (T.n l), (c' (Param.pos T.n (.weight l j k))
          * T.tangent c G 0 (unit i) l j
        + c (Param.pos T.n (.weight l j k)) * tangent2 T c G c' i l j)) / T.divisor l)

/-- Derivative along `c'` of the derivative of the neuron inputs with respect to input `i`. -/
noncomputable def dpre2 (T : NetShape) (c G c' : ℕ → ℝ) (i l k : ℕ) : ℝ :=
  (∑ j ∈ Finset.range (T.n l), (c' (Param.pos T.n (.weight l j k)) * T.tangent c G 0 (unit i) l j
    + c (Param.pos T.n (.weight l j k)) * T.tangent2 c G c' i l j)) / T.divisor l

theorem tangent2_succ (c G c' : ℕ → ℝ) (i l k : ℕ) :
    T.tangent2 c G c' i (l + 1) k
      = (T.af (l + 1)).d2 (T.preact c G l k) * T.dpre c G c' 0 l k * T.dpre c G 0 (unit i) l k
        + (T.af (l + 1)).d1 (T.preact c G l k) * T.dpre2 c G c' i l k := by
  rw [tangent2, dpre2]

theorem dpre_zero (c G G' : ℕ → ℝ) (l k : ℕ) :
    T.dpre c G 0 G' l k = (∑ j ∈ Finset.range (T.n l),
      c (Param.pos T.n (.weight l j k)) * T.tangent c G 0 G' l j) / T.divisor l := by
  unfold dpre; simp

theorem hasDerivAt_dpre_of {c : ℝ → ℕ → ℝ} {G c' : ℕ → ℝ} {s : ℝ} {i l k : ℕ}
    (hc : ∀ p, HasDerivAt (fun t => c t p) (c' p) s)
    (hf : ∀ j < T.n l, HasDerivAt (fun t => T.tangent (c t) G 0 (unit i) l j)
      (T.tangent2 (c s) G c' i l j) s) :
    HasDerivAt (fun t => T.dpre (c t) G 0 (unit i) l k) (T.dpre2 (c s) G c' i l k) s := by
  simp only [dpre_zero]
  unfold dpre2
  refine HasDerivAt.div_const ?_ _
  refine HasDerivAt.fun_sum ?_
  intro j hj
  exact (hc _).mul (hf j (Finset.mem_range.mp hj))

theorem hasDerivAt_tangent {c : ℝ → ℕ → ℝ} {G c' : ℕ → ℝ} {s : ℝ} (i : ℕ)
    (hc : ∀ p, HasDerivAt (fun t => c t p) (c' p) s) (hr : T.RegularAt (c s) G) :
    ∀ l ≤ T.out, ∀ k < T.n l, HasDerivAt (fun t => T.tangent (c t) G 0 (unit i) l k)
      (T.tangent2 (c s) G c' i l k) s := by
  intro l
  induction l with
  | zero => intro _ k _; simpa only [tangent, tangent2] using hasDerivAt_const s (unit i k)
  | succ l ih =>
    intro hl k hk
    simp only [tangent_succ, tangent2_succ]
    have h1 := hasDerivAt_preact (G := fun _ => G) (G' := 0) hc
      (fun k => hasDerivAt_const s (G k)) hr (l := l) (by omega) k
    have h2 := Activation.hasDerivAt_d1 (hr l (by omega) k hk)
    have h3 := h2.comp s h1
    have h4 := hasDerivAt_dpre_of (k := k) hc (ih (by omega))
    exact h3.mul h4

/-! ### Adjoint relations -/

/-- The bias entries of the backward pass. -/
structure Adjoint (T : NetShape) (c G : ℕ → ℝ) (B : ℕ → ℕ → ℝ) : Prop where
  top : ∀ k < T.n T.out, B (T.out - 1) k
    = (T.af T.out).d1 (T.preact c G (T.out - 1) k) / T.divisor (T.out - 1)
  step : ∀ l, l + 1 < T.out → ∀ j < T.n (l + 1), B l j
    = (∑ k ∈ Finset.range (T.n (l + 2)), B (l + 1) k * c (Param.pos T.n (.weight (l + 1) j k))
        * (T.af (l + 1)).d1 (T.preact c G l j)) / T.divisor l

/-- The bias entries of the second backward pass. -/
structure Adjoint2 (T : NetShape) (c G : ℕ → ℝ) (i : ℕ) (B Q : ℕ → ℕ → ℝ) : Prop where
  top : ∀ k < T.n T.out, Q (T.out - 1) k
    = (T.af T.out).d2 (T.preact c G (T.out - 1) k) * T.dpre c G 0 (unit i) (T.out - 1) k
      / T.divisor (T.out - 1)
  step : ∀ l, l + 1 < T.out → ∀ j < T.n (l + 1), Q l j
    = (∑ k ∈ Finset.range (T.n (l + 2)), c (Param.pos T.n (.weight (l + 1) j k))
        * (Q (l + 1) k * (T.af (l + 1)).d1 (T.preact c G l j)
          + B (l + 1) k * (T.af (l + 1)).d2 (T.preact c G l j) * T.dpre c G 0 (unit i) l j))
      / T.divisor l

/-- No parameter in the blocks above `l` varies. -/
def ZeroAbove (T : NetShape) (c' : ℕ → ℝ) (l : ℕ) : Prop :=
  ∀ p : Param, p.Valid T.numLayers T.n → l < p.block → c' (p.pos T.n) = 0

theorem Sensible.divisor_ne {T : NetShape} (h : T.Sensible) {l : ℕ} (hl : l < T.numLayers) :
    T.divisor l ≠ 0 := by
  unfold divisor
  cases T.norm
  · simp
  · have := h.2.1 l hl
    simp only [if_true]
    exact_mod_cast this.ne'

theorem dpre_mul {c G c' G' : ℕ → ℝ} {l k : ℕ} (hd : T.divisor l ≠ 0) :
    T.dpre c G c' G' l k * T.divisor l
      = ∑ j ∈ Finset.range (T.n l), (c' (Param.pos T.n (.weight l j k)) * T.forward c G l j
        + c (Param.pos T.n (.weight l j k)) * T.tangent c G c' G' l j)
        + c' (Param.pos T.n (.bias l k)) := by
  unfold dpre; rw [div_mul_cancel₀ _ hd]

theorem dpre2_mul {c G c' : ℕ → ℝ} {i l k : ℕ} (hd : T.divisor l ≠ 0) :
    T.dpre2 c G c' i l k * T.divisor l
      = ∑ j ∈ Finset.range (T.n l), (c' (Param.pos T.n (.weight l j k))
          * T.tangent c G 0 (unit i) l j
        + c (Param.pos T.n (.weight l j k)) * T.tangent2 c G c' i l j) := by
  unfold dpre2; rw [div_mul_cancel₀ _ hd]

theorem adjoint_sum (hT : T.Sensible) {c G c' G' : ℕ → ℝ} {B : ℕ → ℕ → ℝ}
    (hB : T.Adjoint c G B) : ∀ l < T.out, T.ZeroAbove c' l →
    ∑ k ∈ Finset.range (T.n T.out), T.tangent c G c' G' T.out k
      = ∑ k ∈ Finset.range (T.n (l + 1)), T.dpre c G c' G' l k * T.divisor l * B l k := by
  have hL := hT.1
  have hout : T.out = T.numLayers - 1 := rfl
  suffices h : ∀ m l, l + 1 + m = T.out → T.ZeroAbove c' l →
      ∑ k ∈ Finset.range (T.n T.out), T.tangent c G c' G' T.out k
      = ∑ k ∈ Finset.range (T.n (l + 1)), T.dpre c G c' G' l k * T.divisor l * B l k by
    intro l hl hz
    exact h (T.out - (l + 1)) l (by omega) hz
  intro m
  induction m with
  | zero =>
    intro l hl hz
    have hl' : l + 1 = T.out := hl
    rw [hl']
    refine Finset.sum_congr rfl fun k hk => ?_
    have hd := hT.divisor_ne (l := l) (by omega)
    have := hB.top k (Finset.mem_range.mp hk)
    rw [show T.out - 1 = l by omega] at this
    rw [← hl'] at this ⊢
    rw [this, tangent_succ]
    field_simp
  | succ m ih =>
    intro l hl hz
    rw [ih (l + 1) (by omega) (fun p hp h => hz p hp (by omega))]
    have hd := hT.divisor_ne (l := l) (by omega)
    have hd' := hT.divisor_ne (l := l + 1) (by omega)
    have e1 : ∀ k ∈ Finset.range (T.n (l + 1 + 1)),
        T.dpre c G c' G' (l + 1) k * T.divisor (l + 1) * B (l + 1) k
          = ∑ j ∈ Finset.range (T.n (l + 1)), c (Param.pos T.n (.weight (l + 1) j k))
            * T.tangent c G c' G' (l + 1) j * B (l + 1) k := by
      intro k hk
      have hk := Finset.mem_range.mp hk
      rw [dpre_mul hd', hz (.bias (l + 1) k) ⟨by omega, hk⟩ (by simp [Param.block]), add_zero,
        Finset.sum_mul]
      refine Finset.sum_congr rfl fun j hj => ?_
      rw [hz (.weight (l + 1) j k) ⟨by omega, Finset.mem_range.mp hj, hk⟩ (by simp [Param.block])]
      ring
    rw [Finset.sum_congr rfl e1, Finset.sum_comm]
    refine Finset.sum_congr rfl fun j hj => ?_
    rw [hB.step l (by omega) j (Finset.mem_range.mp hj), tangent_succ, mul_assoc,
      mul_div_cancel₀ _ hd, Finset.mul_sum]
    exact Finset.sum_congr rfl fun k _ => by ring

theorem adjoint2_sum (hT : T.Sensible) {c G c' : ℕ → ℝ} {i : ℕ} {B Q : ℕ → ℕ → ℝ}
    (hB : T.Adjoint c G B) (hQ : T.Adjoint2 c G i B Q) : ∀ l < T.out, T.ZeroAbove c' l →
    ∑ k ∈ Finset.range (T.n T.out), T.tangent2 c G c' i T.out k
      = ∑ k ∈ Finset.range (T.n (l + 1)), (T.dpre c G c' 0 l k * T.divisor l * Q l k
        + T.dpre2 c G c' i l k * T.divisor l * B l k) := by
  have hL := hT.1
  have hout : T.out = T.numLayers - 1 := rfl
  suffices h : ∀ m l, l + 1 + m = T.out → T.ZeroAbove c' l →
      ∑ k ∈ Finset.range (T.n T.out), T.tangent2 c G c' i T.out k
      = ∑ k ∈ Finset.range (T.n (l + 1)), (T.dpre c G c' 0 l k * T.divisor l * Q l k
        + T.dpre2 c G c' i l k * T.divisor l * B l k) by
    intro l hl hz
    exact h (T.out - (l + 1)) l (by omega) hz
  intro m
  induction m with
  | zero =>
    intro l hl hz
    have hl' : l + 1 = T.out := hl
    rw [hl']
    refine Finset.sum_congr rfl fun k hk => ?_
    have hd := hT.divisor_ne (l := l) (by omega)
    have h1 := hB.top k (Finset.mem_range.mp hk)
    have h2 := hQ.top k (Finset.mem_range.mp hk)
    rw [show T.out - 1 = l by omega] at h1 h2
    rw [← hl'] at h1 h2 ⊢
    rw [h1, h2, tangent2_succ]
    field_simp
  | succ m ih =>
    intro l hl hz
    rw [ih (l + 1) (by omega) (fun p hp h => hz p hp (by omega))]
    have hd := hT.divisor_ne (l := l) (by omega)
    have hd' := hT.divisor_ne (l := l + 1) (by omega)
    have e1 : ∀ k ∈ Finset.range (T.n (l + 1 + 1)),
        T.dpre c G c' 0 (l + 1) k * T.divisor (l + 1) * Q (l + 1) k
          + T.dpre2 c G c' i (l + 1) k * T.divisor (l + 1) * B (l + 1) k
          = ∑ j ∈ Finset.range (T.n (l + 1)), (c (Param.pos T.n (.weight (l + 1) j k))
            * T.tangent c G c' 0 (l + 1) j * Q (l + 1) k
            + c (Param.pos T.n (.weight (l + 1) j k))
            * T.tangent2 c G c' i (l + 1) j * B (l + 1) k) := by
      intro k hk
      have hk := Finset.mem_range.mp hk
      rw [dpre_mul hd', dpre2_mul hd', hz (.bias (l + 1) k) ⟨by omega, hk⟩ (by simp [Param.block]),
        add_zero, Finset.sum_mul, Finset.sum_mul, ← Finset.sum_add_distrib]
      refine Finset.sum_congr rfl fun j hj => ?_
      rw [hz (.weight (l + 1) j k) ⟨by omega, Finset.mem_range.mp hj, hk⟩ (by simp [Param.block])]
      ring
    rw [Finset.sum_congr rfl e1, Finset.sum_comm]
    refine Finset.sum_congr rfl fun j hj => ?_
    rw [hB.step l (by omega) j (Finset.mem_range.mp hj),
      hQ.step l (by omega) j (Finset.mem_range.mp hj), tangent_succ, tangent2_succ,
      mul_assoc _ (T.divisor l), mul_div_cancel₀ _ hd, mul_assoc _ (T.divisor l),
      mul_div_cancel₀ _ hd, Finset.mul_sum, Finset.mul_sum, ← Finset.sum_add_distrib]
    exact Finset.sum_congr rfl fun k _ => by ring

/-! ### One varying parameter -/

/-- Direction of one parameter. -/
def unitAt (m : ℕ) : ℕ → ℝ := fun x => if x = m then 1 else 0

theorem hasDerivAt_update (c : ℕ → ℝ) (m p : ℕ) :
    HasDerivAt (fun t => Function.update c m t p) (unitAt m p) (c m) := by
  unfold unitAt
  by_cases h : p = m
  · subst h; simpa using hasDerivAt_id' (c p)
  · simpa [h] using hasDerivAt_const (c m) (c p)

theorem unitAt_pos {L : ℕ} {n : ℕ → ℕ} {p q : Param} (hp : p.Valid L n) (hq : q.Valid L n) :
    unitAt (p.pos n) (q.pos n) = if q = p then 1 else 0 := by
  unfold unitAt
  by_cases h : q = p
  · simp [h]
  · rw [if_neg h, if_neg fun e => h (Param.pos_inj hq hp e)]

theorem unitAt_w {L : ℕ} {n : ℕ → ℕ} {p : Param} {i j k : ℕ} (hp : p.Valid L n) (hi : i + 1 < L)
    (hj : j < n i) (hk : k < n (i + 1)) :
    unitAt (p.pos n) (Param.pos n (.weight i j k)) = if Param.weight i j k = p then 1 else 0 :=
  unitAt_pos (q := .weight i j k) hp ⟨hi, hj, hk⟩

theorem unitAt_b {L : ℕ} {n : ℕ → ℕ} {p : Param} {i k : ℕ} (hp : p.Valid L n) (hi : i + 1 < L)
    (hk : k < n (i + 1)) :
    unitAt (p.pos n) (Param.pos n (.bias i k)) = if Param.bias i k = p then 1 else 0 :=
  unitAt_pos (q := .bias i k) hp ⟨hi, hk⟩

theorem tangent_below {c G : ℕ → ℝ} {p : Param} (hp : p.Valid T.numLayers T.n) :
    ∀ l ≤ p.block, ∀ k < T.n l, T.tangent c G (unitAt (p.pos T.n)) 0 l k = 0 := by
  intro l
  have hb := hp.block_lt
  induction l with
  | zero => intro _ k _; rfl
  | succ l ih =>
    intro hl k hk
    rw [tangent_succ, dpre, unitAt_b hp (by omega) hk, if_neg (by
      intro e; rw [← e] at hl; simp [Param.block] at hl), add_zero]
    rw [Finset.sum_eq_zero, zero_div, mul_zero]
    intro j hj
    have hj := Finset.mem_range.mp hj
    rw [unitAt_w hp (by omega) hj hk, if_neg (by
      intro e; rw [← e] at hl; simp [Param.block] at hl), ih (by omega) j hj]
    ring

theorem tangent2_below {c G : ℕ → ℝ} {p : Param} {i : ℕ}
    (hp : p.Valid T.numLayers T.n) :
    ∀ l ≤ p.block, ∀ k < T.n l, T.tangent2 c G (unitAt (p.pos T.n)) i l k = 0 := by
  intro l
  have hb := hp.block_lt
  induction l with
  | zero => intro _ k _; rfl
  | succ l ih =>
    intro hl k hk
    have h1 : T.dpre c G (unitAt (p.pos T.n)) 0 l k = 0 := by
      rw [dpre, unitAt_b hp (by omega) hk, if_neg (by
        intro e; rw [← e] at hl; simp [Param.block] at hl), add_zero]
      rw [Finset.sum_eq_zero, zero_div]
      intro j hj
      have hj := Finset.mem_range.mp hj
      rw [unitAt_w hp (by omega) hj hk, if_neg (by
        intro e; rw [← e] at hl; simp [Param.block] at hl),
        tangent_below hp l (by omega) j hj]
      ring
    rw [tangent2_succ, h1, dpre2, Finset.sum_eq_zero]
    · simp
    intro j hj
    have hj := Finset.mem_range.mp hj
    rw [unitAt_w hp (by omega) hj hk, if_neg (by
      intro e; rw [← e] at hl; simp [Param.block] at hl), ih (by omega) j hj]
    ring

theorem zeroAbove_unitAt {p : Param} (hp : p.Valid T.numLayers T.n) :
    T.ZeroAbove (unitAt (p.pos T.n)) p.block := by
  intro q hq h
  rw [unitAt_pos hp hq, if_neg]
  intro e; rw [e] at h; exact lt_irrefl _ h

/-- Direction derivative along one parameter, by the backward pass. -/
theorem tangent_param (hT : T.Sensible) {c G : ℕ → ℝ} {B : ℕ → ℕ → ℝ} (hB : T.Adjoint c G B)
    {p : Param} (hp : p.Valid T.numLayers T.n) :
    ∑ k ∈ Finset.range (T.n T.out), T.tangent c G (unitAt (p.pos T.n)) 0 T.out k
      = match p with
        | .weight l j k => B l k * T.forward c G l j
        | .bias l k => B l k := by
  have hb := hp.block_lt
  have hout : T.out = T.numLayers - 1 := rfl
  rw [adjoint_sum hT hB p.block (by omega) (zeroAbove_unitAt hp)]
  have hd := hT.divisor_ne (l := p.block) (by omega)
  cases p with
  | weight l j k =>
    simp only [Param.block] at *
    rw [Finset.sum_eq_single k]
    · rw [dpre_mul hd, unitAt_b hp hb hp.2.2, if_neg (by simp), add_zero,
        Finset.sum_eq_single j]
      · rw [unitAt_pos hp hp, if_pos rfl, tangent_below hp l (by simp [Param.block]) j hp.2.1]
        ring
      · intro j' hj' hne
        rw [unitAt_w hp hb (Finset.mem_range.mp hj') hp.2.2, if_neg (by simpa using hne),
          tangent_below hp l (by simp [Param.block]) j' (Finset.mem_range.mp hj')]
        ring
      · intro h; exact absurd (Finset.mem_range.mpr hp.2.1) h
    · intro k' hk' hne
      rw [dpre_mul hd, unitAt_b hp hb (Finset.mem_range.mp hk'), if_neg (by simp), add_zero,
        Finset.sum_eq_zero, zero_mul]
      intro j' hj'
      rw [unitAt_w hp hb (Finset.mem_range.mp hj') (Finset.mem_range.mp hk'),
        if_neg (by simp [hne]),
        tangent_below hp l (by simp [Param.block]) j' (Finset.mem_range.mp hj')]
      ring
    · intro h; exact absurd (Finset.mem_range.mpr hp.2.2) h
  | bias l k =>
    simp only [Param.block] at *
    have hz : ∀ k' ∈ Finset.range (T.n (l + 1)), ∀ j ∈ Finset.range (T.n l),
        unitAt ((Param.bias l k).pos T.n) (Param.pos T.n (.weight l j k')) * T.forward c G l j
        + c (Param.pos T.n (.weight l j k'))
          * T.tangent c G (unitAt ((Param.bias l k).pos T.n)) 0 l j = 0 := by
      intro k' hk' j hj
      rw [unitAt_w hp hb (Finset.mem_range.mp hj) (Finset.mem_range.mp hk'), if_neg (by simp),
        tangent_below hp l (by simp [Param.block]) j (Finset.mem_range.mp hj)]
      ring
    rw [Finset.sum_eq_single k]
    · rw [dpre_mul hd, unitAt_pos hp hp, if_pos rfl,
        Finset.sum_eq_zero (hz k (Finset.mem_range.mpr hp.2))]
      ring
    · intro k' hk' hne
      rw [dpre_mul hd, unitAt_b hp hb (Finset.mem_range.mp hk'), if_neg (by simpa using hne),
        Finset.sum_eq_zero (hz k' hk')]
      ring
    · intro h; exact absurd (Finset.mem_range.mpr hp.2) h

/-- Second direction derivative along one parameter, by the second backward pass. -/
theorem tangent2_param (hT : T.Sensible) {c G : ℕ → ℝ} {i : ℕ} {B Q : ℕ → ℕ → ℝ}
    (hB : T.Adjoint c G B) (hQ : T.Adjoint2 c G i B Q) {p : Param}
    (hp : p.Valid T.numLayers T.n) :
    ∑ k ∈ Finset.range (T.n T.out), T.tangent2 c G (unitAt (p.pos T.n)) i T.out k
      = match p with
        | .weight l j k => Q l k * T.forward c G l j + B l k * T.tangent c G 0 (unit i) l j
        | .bias l k => Q l k := by
  have hb := hp.block_lt
  have hout : T.out = T.numLayers - 1 := rfl
  rw [adjoint2_sum hT hB hQ p.block (by omega) (zeroAbove_unitAt hp)]
  have hd := hT.divisor_ne (l := p.block) (by omega)
  cases p with
  | weight l j k =>
    simp only [Param.block] at *
    have ht := tangent_below (c := c) (G := G) hp l (by simp [Param.block])
    have ht2 := tangent2_below (c := c) (G := G) (i := i) hp l (by simp [Param.block])
    rw [Finset.sum_eq_single k]
    · rw [dpre_mul hd, dpre2_mul hd, unitAt_b hp hb hp.2.2, if_neg (by simp), add_zero,
        Finset.sum_eq_single j, Finset.sum_eq_single j]
      · rw [unitAt_pos hp hp, if_pos rfl, ht j hp.2.1, ht2 j hp.2.1]
        ring
      · intro j' hj' hne
        rw [unitAt_w hp hb (Finset.mem_range.mp hj') hp.2.2, if_neg (by simpa using hne),
          ht2 j' (Finset.mem_range.mp hj')]
        ring
      · intro h; exact absurd (Finset.mem_range.mpr hp.2.1) h
      · intro j' hj' hne
        rw [unitAt_w hp hb (Finset.mem_range.mp hj') hp.2.2, if_neg (by simpa using hne),
          ht j' (Finset.mem_range.mp hj')]
        ring
      · intro h; exact absurd (Finset.mem_range.mpr hp.2.1) h
    · intro k' hk' hne
      rw [dpre_mul hd, dpre2_mul hd, unitAt_b hp hb (Finset.mem_range.mp hk'),
        if_neg (by simp), add_zero, Finset.sum_eq_zero, Finset.sum_eq_zero, zero_mul, zero_mul,
        add_zero]
      · intro j' hj'
        rw [unitAt_w hp hb (Finset.mem_range.mp hj') (Finset.mem_range.mp hk'),
          if_neg (by simp [hne]), ht2 j' (Finset.mem_range.mp hj')]
        ring
      · intro j' hj'
        rw [unitAt_w hp hb (Finset.mem_range.mp hj') (Finset.mem_range.mp hk'),
          if_neg (by simp [hne]), ht j' (Finset.mem_range.mp hj')]
        ring
    · intro h; exact absurd (Finset.mem_range.mpr hp.2.2) h
  | bias l k =>
    simp only [Param.block] at *
    have ht := tangent_below (c := c) (G := G) hp l (by simp [Param.block])
    have ht2 := tangent2_below (c := c) (G := G) (i := i) hp l (by simp [Param.block])
    have hz : ∀ k' ∈ Finset.range (T.n (l + 1)), ∀ j ∈ Finset.range (T.n l),
        unitAt ((Param.bias l k).pos T.n) (Param.pos T.n (.weight l j k')) * T.forward c G l j
        + c (Param.pos T.n (.weight l j k'))
          * T.tangent c G (unitAt ((Param.bias l k).pos T.n)) 0 l j = 0 := by
      intro k' hk' j hj
      rw [unitAt_w hp hb (Finset.mem_range.mp hj) (Finset.mem_range.mp hk'), if_neg (by simp),
        ht j (Finset.mem_range.mp hj)]
      ring
    have hz2 : ∀ k' ∈ Finset.range (T.n (l + 1)), ∀ j ∈ Finset.range (T.n l),
        unitAt ((Param.bias l k).pos T.n) (Param.pos T.n (.weight l j k'))
          * T.tangent c G 0 (unit i) l j
        + c (Param.pos T.n (.weight l j k'))
          * T.tangent2 c G (unitAt ((Param.bias l k).pos T.n)) i l j = 0 := by
      intro k' hk' j hj
      rw [unitAt_w hp hb (Finset.mem_range.mp hj) (Finset.mem_range.mp hk'), if_neg (by simp),
        ht2 j (Finset.mem_range.mp hj)]
      ring
    rw [Finset.sum_eq_single k]
    · rw [dpre_mul hd, dpre2_mul hd, unitAt_pos hp hp, if_pos rfl,
        Finset.sum_eq_zero (hz k (Finset.mem_range.mpr hp.2)),
        Finset.sum_eq_zero (hz2 k (Finset.mem_range.mpr hp.2))]
      ring
    · intro k' hk' hne
      rw [dpre_mul hd, dpre2_mul hd, unitAt_b hp hb (Finset.mem_range.mp hk'),
        if_neg (by simpa using hne), Finset.sum_eq_zero (hz k' hk'),
        Finset.sum_eq_zero (hz2 k' hk')]
      ring
    · intro h; exact absurd (Finset.mem_range.mpr hp.2) h

end NetShape

end N2P2
