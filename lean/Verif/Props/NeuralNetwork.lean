import Verif.Lemma.NNGradient
import Mathlib.Analysis.Calculus.Deriv.Abs

/-! Properties C17-C22: neural network parameters, evaluation and derivatives. -/

namespace N2P2

open NetShape NeuralNetwork

/-- A network shape with two inputs, three hidden neurons and one output, used in the examples. -/
def exampleShape : NetShape where
  numLayers := 3
  n := fun l => if l = 0 then 2 else if l = 1 then 3 else 1
  af := fun l => if l = 2 then .IDENTITY else .TANH
  norm := true

theorem exampleShape_sensible : exampleShape.Sensible := by
  refine ⟨le_rfl, fun l hl => ?_, fun l hl h0 => ?_⟩
  · simp only [exampleShape]; split_ifs <;> omega
  · simp only [exampleShape]; split_ifs <;> simp

theorem exampleShape_regular (c G : Buf) : exampleShape.RegularAt c G := by
  intro l _ k _
  simp only [exampleShape]
  split_ifs <;> trivial

theorem exampleShape_prepared (c G : Buf) : ∃ nn, Prepared exampleShape c G nn := by
  have h : ∃ nn0, create exampleShape.numLayers exampleShape.n exampleShape.af = some nn0 :=
    ⟨_, rfl⟩
  obtain ⟨nn0, h0⟩ := h
  refine ⟨_, nn0, _, true, .create h0,
    .setNormalizeNeurons true (.propagate (.setInput (fun _ => 7) (.refl _))), rfl, .refl _⟩

/-! ### C17 -/

/-- C17: the constructor succeeds for three or more layers, and the number of parameters is the sum
over layers of (n_prev + 1) * n, the weights and biases added. -/
theorem C17_numConnections (L : ℕ) (n : ℕ → ℕ) (af : ℕ → Activation) :
    ((create L n af).isSome ↔ 3 ≤ L) ∧
    ∀ nn, Reachable L n af nn →
      nn.numConnections = ∑ l ∈ Finset.range (L - 1), (n l + 1) * n (l + 1) ∧
      nn.numWeights = ∑ l ∈ Finset.range (L - 1), n l * n (l + 1) ∧
      nn.numBiases = ∑ l ∈ Finset.range (L - 1), n (l + 1) ∧
      nn.numConnections = nn.numWeights + nn.numBiases := by
  constructor
  · unfold create
    by_cases h : L < 3
    · simp [h]
    · simp [h]; omega
  · intro nn hr
    have h := hr.hasShape
    refine ⟨h.numConn, h.numW, h.numB, ?_⟩
    rw [h.numConn, h.numW, h.numB, offset, ← Finset.sum_add_distrib]
    exact Finset.sum_congr rfl fun l _ => by ring

example : ∃ nn, Reachable exampleShape.numLayers exampleShape.n exampleShape.af nn ∧
    nn.numConnections = 13 := by
  have h : ∃ nn0, create exampleShape.numLayers exampleShape.n exampleShape.af = some nn0 :=
    ⟨_, rfl⟩
  obtain ⟨nn0, h0⟩ := h
  refine ⟨nn0, .create h0, ?_⟩
  rw [((C17_numConnections _ _ _).2 nn0 (.create h0)).1]
  simp [exampleShape, Finset.sum_range_succ]

/-- C17: setting all parameters and reading them back gives the same array; entries of the target
beyond the parameters are not touched. -/
theorem C17_set_get (L : ℕ) (n : ℕ → ℕ) (af : ℕ → Activation) (nn : NeuralNetwork)
    (h : Reachable L n af nn) (c target : Buf) (m : ℕ) :
    (nn.setConnections c).getConnections target m
      = if m < nn.numConnections then c m else target m := by
  have hs := h.hasShape
  have hs' := hs.of_same (sameTop_setConnections hs c)
  rw [hs.numConn]
  by_cases hm : m < offset n (L - 1)
  · rw [if_pos hm]
    obtain ⟨p, hp, rfl⟩ := Param.exists_pos hm
    rw [getConnections_pos hs' _ hp, read_setConnections hs c hp]
  · rw [if_neg hm, getConnections_ge hs' _ (by omega)]

/-- C17: each parameter goes to its documented position. -/
theorem C17_positions (L : ℕ) (n : ℕ → ℕ) (af : ℕ → Activation) (nn : NeuralNetwork)
    (h : Reachable L n af nn) :
    (∀ c (p : Param), p.Valid L n → p.read (nn.setConnections c) = c (p.pos n)) ∧
    (∀ target (p : Param), p.Valid L n → nn.getConnections target (p.pos n) = p.read nn) ∧
    (∀ p q : Param, p.Valid L n → q.Valid L n → p.pos n = q.pos n → p = q) ∧
    (∀ m, m < nn.numConnections ↔ ∃ p : Param, p.Valid L n ∧ p.pos n = m) := by
  have hs := h.hasShape
  refine ⟨fun c p hp => read_setConnections hs c hp, fun t p hp => getConnections_pos hs t hp,
    fun p q hp hq e => Param.pos_inj hp hq e, fun m => ?_⟩
  rw [hs.numConn]
  constructor
  · exact Param.exists_pos
  · rintro ⟨p, hp, rfl⟩
    exact Param.pos_lt_total hp

/-- C17: reading all parameters and setting them again leaves the network unchanged. -/
theorem C17_get_set (L : ℕ) (n : ℕ → ℕ) (af : ℕ → Activation) (nn : NeuralNetwork)
    (h : Reachable L n af nn) (target : Buf) :
    nn.setConnections (nn.getConnections target) = nn := by
  have hs := h.hasShape
  have hread : ∀ p : Param, p.read (nn.setConnections (nn.getConnections target)) = p.read nn := by
    intro p
    by_cases hp : p.Valid L n
    · rw [read_setConnections hs _ hp, getConnections_pos hs _ hp]
    · exact read_setConnections_invalid hs _ hp
  have hrest := rest_setConnections hs (nn.getConnections target)
  have htop := sameTop_setConnections hs (nn.getConnections target)
  have h0 := layer0_setConnections hs (nn.getConnections target)
  have hl : (nn.setConnections (nn.getConnections target)).layers = nn.layers := by
    funext i
    cases i with
    | zero => exact h0
    | succ i =>
      have h1 := htop.size (i + 1)
      have h2 := htop.prev (i + 1)
      have h3 := htop.act (i + 1)
      have h4 : ((nn.setConnections (nn.getConnections target)).layers (i + 1)).neurons
          = (nn.layers (i + 1)).neurons := by
        funext k
        have hb := hread (.bias i k)
        have hw := fun j => hread (.weight i j k)
        have hr := hrest (i + 1) k
        simp only [Param.read] at hb hw
        have hw := funext hw
        generalize ((nn.setConnections (nn.getConnections target)).layers (i + 1)).neurons k = a
          at *
        generalize (nn.layers (i + 1)).neurons k = b at *
        cases a; cases b
        simp_all [Neuron.rest]
      generalize (nn.setConnections (nn.getConnections target)).layers (i + 1) = a at *
      generalize nn.layers (i + 1) = b at *
      cases a; cases b
      simp_all
  have e : nn.setConnections (nn.getConnections target)
      = { nn with layers := (nn.setConnections (nn.getConnections target)).layers } := rfl
  rw [e, hl]

example : ∃ nn, Reachable exampleShape.numLayers exampleShape.n exampleShape.af nn ∧
    nn.getConnections (fun _ => 0) 12 = 5 := by
  have h : ∃ nn0, create exampleShape.numLayers exampleShape.n exampleShape.af = some nn0 :=
    ⟨_, rfl⟩
  obtain ⟨nn0, h0⟩ := h
  refine ⟨_, .setConnections (fun _ => 5) (.create h0), ?_⟩
  rw [C17_set_get _ _ _ _ (.create h0), if_pos]
  rw [((C17_numConnections _ _ _).2 nn0 (.create h0)).1]
  simp [exampleShape, Finset.sum_range_succ]

/-! ### C18 -/

/-- C18: the output is the layered feed-forward function of the last parameters and input, whatever
happened to the network before. -/
theorem C18_output (T : NetShape) (hT : T.Sensible) (c G : Buf) (nn : NeuralNetwork)
    (h : Prepared T c G nn) (target : Buf) (m : ℕ) :
    nn.getOutput target m = if m < T.n T.out then T.forward c G T.out m else target m := by
  have hc := h.computed hT
  have hL := hT.1
  rw [getOutput_eq, hc.shape.numLayers, hc.shape.size, show T.numLayers - 1 = T.out from rfl]
  by_cases hm : m < T.n T.out
  · rw [if_pos hm, if_pos hm]
    exact hc.value T.out (by unfold out; omega) m hm
  · rw [if_neg hm, if_neg hm]

/-- C18: the activation functions differ from the documented ones only by the cut tails, by at most
exp(-35), and not at all for neuron inputs between -35 and 35. -/
theorem C18_activation (a : Activation) (x : ℝ) :
    |a.fn x - a.ideal x| ≤ Real.exp (-35) ∧ (|x| ≤ 35 → a.fn x = a.ideal x) :=
  ⟨a.fn_ideal_le x, fun h => Activation.fn_eq_ideal (neg_le_of_abs_le h) (le_of_abs_le h)⟩

example : ∃ nn, Prepared exampleShape (fun _ => 2) (fun i => i) nn ∧
    nn.getOutput (fun _ => 0) 0
      = (∑ _j ∈ Finset.range 3, 2 * Real.tanh ((2 * 0 + 2 * 1 + 2) / 2) + 2) / 3 := by
  obtain ⟨nn, h⟩ := exampleShape_prepared (fun _ => 2) (fun i => i)
  refine ⟨nn, h, ?_⟩
  rw [C18_output _ exampleShape_sensible _ _ _ h]
  simp [exampleShape, out, forward, Finset.sum_range_succ, Activation.fn, Activation.ideal, divisor]

/-! ### C19 -/

/-- C19: `calculateDEdG` stores the partial derivatives of the (first) output with respect to the
inputs; entries beyond the inputs are not touched. -/
theorem C19_input_gradient (T : NetShape) (hT : T.Sensible) (c G : Buf) (nn : NeuralNetwork)
    (h : Prepared T c G nn) (hr : T.RegularAt c G) (target : Buf) :
    (∀ k < T.n 0, HasDerivAt (fun x => T.forward c (Function.update G k x) T.out 0)
      (nn.calculateDEdG target k) (G k)) ∧
    ∀ k, T.n 0 ≤ k → nn.calculateDEdG target k = target k := by
  have hc := h.computed hT
  have hL := hT.1
  constructor
  · intro k hk
    rw [calculateDEdG_eq hT hc, if_pos hk]
    have e : Function.update G k (G k) = G := Function.update_eq_self k G
    have := hasDerivAt_forward (T := T) (c := fun _ => c) (G := fun x => Function.update G k x)
      (c' := 0) (G' := unit k) (s := G k) (fun p => hasDerivAt_const _ _)
      (fun p => hasDerivAt_update G k p) (by rw [e]; exact hr) T.out le_rfl 0
      (hT.2.1 _ (by unfold out; omega))
    rw [e] at this
    exact this
  · intro k hk
    rw [calculateDEdG_eq hT hc, if_neg (by omega)]

example : ∃ nn c G, Prepared exampleShape c G nn ∧ exampleShape.RegularAt c G :=
  let ⟨nn, h⟩ := exampleShape_prepared (fun _ => 2) (fun i => i)
  ⟨nn, _, _, h, exampleShape_regular _ _⟩

/-! ### C20 -/

/-- C20: `calculateDEdc` stores at the position of each parameter the partial derivative of the
output (of the sum of outputs) with respect to that parameter; entries beyond are not touched. -/
theorem C20_parameter_gradient (T : NetShape) (hT : T.Sensible) (c G : Buf) (nn : NeuralNetwork)
    (h : Prepared T c G nn) (hr : T.RegularAt c G) (target : Buf) :
    (∀ m < nn.numConnections, HasDerivAt (fun x => T.energy (Function.update c m x) G)
      (nn.calculateDEdc target m) (c m)) ∧
    ∀ m, nn.numConnections ≤ m → nn.calculateDEdc target m = target m := by
  have hc := h.computed hT
  obtain ⟨h1, h2, h3⟩ := calculateDEdc_spec hT hc target
  rw [hc.shape.numConn]
  refine ⟨fun m hm => ?_, h3⟩
  obtain ⟨p, hp, rfl⟩ := Param.exists_pos hm
  have e : Function.update c (p.pos T.n) (c (p.pos T.n)) = c := Function.update_eq_self _ c
  have hd := hasDerivAt_energy (T := T) (c := fun x => Function.update c (p.pos T.n) x)
    (G := fun _ => G) (c' := unitAt (p.pos T.n)) (G' := 0) (s := c (p.pos T.n))
    (fun q => hasDerivAt_update c _ q) (fun q => hasDerivAt_const _ _) (by rw [e]; exact hr)
  rw [e, tangent_param hT h1 hp] at hd
  refine hd.congr_deriv ?_
  cases p with
  | weight l j k => exact (h2 l j k hp).symm
  | bias l k => rfl

/-- C20: for one output neuron the differentiated quantity is the output. -/
theorem C20_energy (T : NetShape) (c G : Buf) (h : T.n T.out = 1) :
    T.energy c G = T.forward c G T.out 0 := by
  simp [energy, h]

example : ∃ nn c G, Prepared exampleShape c G nn ∧ exampleShape.RegularAt c G ∧
    exampleShape.n exampleShape.out = 1 :=
  let ⟨nn, h⟩ := exampleShape_prepared (fun i => i) (fun i => i + 1)
  ⟨nn, _, _, h, exampleShape_regular _ _, rfl⟩

/-! ### C21 -/

/-- C21: `calculateDFdc` stores at the position of each parameter the partial derivative of
-Σ_k (∂E/∂G_k) (∂G_k/∂x) with respect to that parameter; entries beyond are not touched. -/
theorem C21_force_gradient (T : NetShape) (hT : T.Sensible) (c G : Buf) (nn : NeuralNetwork)
    (h : Prepared T c G nn) (hr : T.RegularAt c G) (dGdx target : Buf) :
    (∀ m < nn.numConnections, HasDerivAt
      (fun x => -∑ k ∈ Finset.range (T.n 0),
        deriv (fun y => T.energy (Function.update c m x) (Function.update G k y)) (G k) * dGdx k)
      ((nn.calculateDFdc target dGdx).2 m) (c m)) ∧
    ∀ m, nn.numConnections ≤ m → (nn.calculateDFdc target dGdx).2 m = target m := by
  have hc := h.computed hT
  obtain ⟨h1, h2⟩ := calculateDFdc_spec hT hc target dGdx
  rw [hc.shape.numConn]
  refine ⟨fun m hm => ?_, h2⟩
  obtain ⟨p, hp, rfl⟩ := Param.exists_pos hm
  rw [h1 p hp]
  have e : Function.update c (p.pos T.n) (c (p.pos T.n)) = c := Function.update_eq_self _ c
  have hcd := fun q => hasDerivAt_update c (p.pos T.n) q
  have hev := eventually_regular (T := T) (c := fun x => Function.update c (p.pos T.n) x)
    (G := fun _ => G) (c' := unitAt (p.pos T.n)) (G' := 0) (s := c (p.pos T.n)) hcd
    (fun q => hasDerivAt_const _ _) (by rw [e]; exact hr)
  have hinner : ∀ x, T.RegularAt (Function.update c (p.pos T.n) x) G → ∀ k,
      deriv (fun y => T.energy (Function.update c (p.pos T.n) x) (Function.update G k y)) (G k)
        = ∑ o ∈ Finset.range (T.n T.out),
          T.tangent (Function.update c (p.pos T.n) x) G 0 (unit k) T.out o := by
    intro x hx k
    have eG : Function.update G k (G k) = G := Function.update_eq_self k G
    have := hasDerivAt_energy (T := T) (c := fun _ => Function.update c (p.pos T.n) x)
      (G := fun y => Function.update G k y) (c' := 0) (G' := unit k) (s := G k)
      (fun p => hasDerivAt_const _ _) (fun p => hasDerivAt_update G k p) (by rw [eG]; exact hx)
    rw [eG] at this
    exact this.deriv
  have hout : HasDerivAt (fun x => -∑ k ∈ Finset.range (T.n 0),
      (∑ o ∈ Finset.range (T.n T.out),
        T.tangent (Function.update c (p.pos T.n) x) G 0 (unit k) T.out o) * dGdx k)
      (-∑ i ∈ Finset.range (T.n 0), (∑ k ∈ Finset.range (T.n T.out),
          T.tangent2 c G (unitAt (p.pos T.n)) i T.out k) * dGdx i) (c (p.pos T.n)) := by
    refine HasDerivAt.neg (HasDerivAt.fun_sum fun k _ => HasDerivAt.mul_const ?_ _)
    refine HasDerivAt.fun_sum fun o ho => ?_
    have := hasDerivAt_tangent (T := T) (c := fun x => Function.update c (p.pos T.n) x) (G := G)
      (c' := unitAt (p.pos T.n)) (s := c (p.pos T.n)) k hcd (by rw [e]; exact hr) T.out le_rfl o
      (Finset.mem_range.mp ho)
    rw [e] at this
    exact this
  refine hout.congr_of_eventuallyEq ?_
  filter_upwards [hev] with x hx
  congr 1
  exact Finset.sum_congr rfl fun k _ => by rw [hinner x hx k]

/-- C21: the function differentiated in `C21_force_gradient` is built from the true input
gradient. -/
theorem C21_inner (T : NetShape) (hT : T.Sensible) (c G : Buf) (nn : NeuralNetwork)
    (h : Prepared T c G nn) (hr : T.RegularAt c G) (h1 : T.n T.out = 1) (target : Buf) (k : ℕ)
    (hk : k < T.n 0) :
    deriv (fun y => T.energy c (Function.update G k y)) (G k) = nn.calculateDEdG target k := by
  have := ((C19_input_gradient T hT c G nn h hr target).1 k hk).deriv
  rw [← this]
  congr 1
  funext y
  exact C20_energy T _ _ h1

example : ∃ nn c G, Prepared exampleShape c G nn ∧ exampleShape.RegularAt c G ∧
    (1 : ℕ) < nn.numConnections := by
  obtain ⟨nn, h⟩ := exampleShape_prepared (fun i => i) (fun i => i + 1)
  refine ⟨nn, _, _, h, exampleShape_regular _ _, ?_⟩
  rw [(h.computed exampleShape_sensible).shape.numConn]
  simp [exampleShape, offset, Finset.sum_range_succ]

/-! ### C22 -/

/-- C22: what propagation computes for an activation function: its value, its derivative and its
second derivative, at each input which is not a jump of the cut tails or the kink of the
rectifier. -/
theorem C22_derivatives (a : Activation) (x : ℝ) (h : a.Regular x) :
    ∃ v, a.eval x = some v ∧ v.value = a.fn x ∧ HasDerivAt a.fn v.dfdx x ∧
      HasDerivAt (deriv a.fn) v.d2fdx2 x := by
  have hne : a ≠ .UNSET := by rintro rfl; exact h
  refine ⟨_, Activation.eval_eq hne x, rfl, Activation.hasDerivAt_fn h, ?_⟩
  exact (Activation.hasDerivAt_d1 h).congr_of_eventuallyEq (Activation.deriv_fn_eventually h)

/-- C22: after propagation each neuron holds input, value and derivatives of its activation
function at its input. -/
theorem C22_neurons (T : NetShape) (hT : T.Sensible) (c G : Buf) (nn : NeuralNetwork)
    (h : Prepared T c G nn) (l k : ℕ) (hl : l < T.out) (hk : k < T.n (l + 1))
    (hr : (T.af (l + 1)).Regular (T.preact c G l k)) :
    let q := (nn.layers (l + 1)).neurons k
    q.x = T.preact c G l k ∧ q.value = (T.af (l + 1)).fn q.x ∧
      HasDerivAt (T.af (l + 1)).fn q.dfdx q.x ∧
      HasDerivAt (deriv (T.af (l + 1)).fn) q.d2fdx2 q.x := by
  have hc := h.computed hT
  have hl' : l + 1 < T.numLayers := by unfold out at hl; omega
  have hx := hc.x l hl' k hk
  simp only
  rw [hx, hc.value (l + 1) hl' k hk, hc.dfdx l hl' k hk, hc.d2fdx2 l hl' k hk]
  refine ⟨rfl, forward_succ T c G l k, Activation.hasDerivAt_fn hr, ?_⟩
  exact (Activation.hasDerivAt_d1 hr).congr_of_eventuallyEq (Activation.deriv_fn_eventually hr)

/-- C22: the input excluded for the rectifier has no derivative. -/
theorem C22_relu_kink : ¬ DifferentiableAt ℝ (Activation.fn .RELU) 0 := by
  intro h
  have h' : DifferentiableAt ℝ (fun x : ℝ => |x|) 0 := by
    have e : (fun x : ℝ => |x|) = fun x => 2 * Activation.fn .RELU x - x := by
      funext x
      simp only [Activation.fn, Activation.ideal]
      rcases le_total 0 x with hx | hx
      · rw [abs_of_nonneg hx, max_eq_right hx]; ring
      · rw [abs_of_nonpos hx, max_eq_left hx]; ring
    rw [e]
    exact (h.const_mul 2).sub differentiableAt_id
  exact not_differentiableAt_abs_zero h'

example : (Activation.LOGISTIC).Regular 1 ∧ (Activation.RELU).Regular (-3) ∧
    (Activation.GAUSSIAN).Regular 40 := by
  simp only [Activation.Regular]; norm_num

end N2P2
