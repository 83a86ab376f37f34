import Verif.Lemma.Newton
import Verif.Spec.EwaldSetup

/-! Lemmas about the parameters of the Ewald summation. -/

namespace N2P2

open Filter Topology

/-! ### The two iterations are Newton iterations -/

theorem kCutNext_eq (eta y k : ℝ) : kCutNext eta y k = nwNext (eta ^ 2) y k := by
  have : (k * eta) ^ 2 = eta ^ 2 * k ^ 2 := by ring
  unfold kCutNext nwNext; rw [this]

theorem kCutBody_eq {eta y : ℝ} {st : NewtonState} : kCutBody eta y st = nwBody (eta ^ 2) y st := by
  unfold kCutBody nwBody
  rw [kCutNext_eq]
  split_ifs with h
  · rfl
  · push Not at h
    have e : -(nwNext (eta ^ 2) y st.x * eta) ^ 2 / 2 = -(eta ^ 2 * nwNext (eta ^ 2) y st.x ^ 2) / 2 := by
      ring
    rw [nwP_eq h, e]
    congr 2
    ring_nf

theorem sNext_eq (y s : ℝ) : s + sStep y s = nwNext 2 y s := by
  unfold sStep nwNext
  have e : Real.exp (2 * s ^ 2 / 2) = 1 / Real.exp (-s ^ 2) := by
    rw [one_div, ← Real.exp_neg]; congr 1; ring
  rw [e]; ring

theorem sBody_eq {y : ℝ} {st : NewtonState} : sBody y st = nwBody 2 y st := by
  unfold sBody nwBody
  have h0 : sStep y st.x = nwNext 2 y st.x - st.x := by rw [← sNext_eq]; ring
  by_cases h : nwNext 2 y st.x ≤ 0
  · rw [if_pos h, if_pos (by rw [h0]; linarith)]
  · rw [if_neg h, if_neg (by rw [h0]; intro h'; apply h; linarith)]
    push Not at h
    have e : -nwNext 2 y st.x ^ 2 = -(2 * nwNext 2 y st.x ^ 2) / 2 := by ring
    rw [sNext_eq, nwP_eq h, h0, e]

theorem calculateS_ok {prec C eta s : ℝ} (hp : 0 < prec) (hC : 0 < C) (he : 0 < eta) :
    ∃ t, calculateS prec C eta s = some t ∧ 0 < t ∧ prec / C * √(eta / 2) ≤ nwP 2 t ∧
      nwP 2 t ≤ prec / C * √(eta / 2) * (1 + acceptError) := by
  classical
  have hb : sBody (prec / C * √(eta / 2)) = nwBody 2 (prec / C * √(eta / 2)) := funext fun st => sBody_eq
  have hx : 0 < (if s ≤ 0 then 1 / 2 else s : ℝ) := by
    split_ifs with h
    · norm_num
    · push Not at h; exact h
  obtain ⟨st, h1, h2, h3, h4⟩ := nw_loop (a := 2) (y := prec / C * √(eta / 2)) (by norm_num) hx
    (by positivity)
  refine ⟨st.x, ?_, h2, h3, h4⟩
  unfold calculateS
  rw [hb]
  have : (if s ≤ 0 then 1 / 2 else s : ℝ) = @ite ℝ (s ≤ 0) (Classical.propDecidable _) (1 / 2) s := by
    congr
  rw [this] at h1
  rw [h1]; rfl

theorem fixRKCut_ok {C eta prec : ℝ} (hp : 0 < prec) (hC : 0 < C) (he : 0 < eta) :
    ∃ k, fixRKCut C eta prec = some k ∧ 0 < k ∧ fixRY C eta prec ≤ nwP (eta ^ 2) k ∧
      nwP (eta ^ 2) k ≤ fixRY C eta prec * (1 + acceptError) := by
  have hb : kCutBody eta (fixRY C eta prec) = nwBody (eta ^ 2) (fixRY C eta prec) :=
    funext fun st => kCutBody_eq
  obtain ⟨st, h1, h2, h3, h4⟩ := nw_loop (a := eta ^ 2) (y := fixRY C eta prec) (x := 1 / eta)
    (by positivity) (by positivity) (by unfold fixRY; positivity)
  refine ⟨st.x, ?_, h2, h3, h4⟩
  unfold fixRKCut
  rw [hb, h1]; rfl

/-! ### The outer loop ends -/

/-- A sixth of the logarithm of the correction. -/
noncomputable def etaH (s : ℝ) : ℝ := Real.log (1 + 1 / (2 * s ^ 2)) / 6

theorem log_nextEta {eta0 s : ℝ} (h0 : 0 < eta0) (hs : 0 < s) :
    Real.log (nextEta eta0 s) = Real.log eta0 + etaH s := by
  unfold nextEta etaH
  have : (0 : ℝ) < 1 + 1 / (2 * s ^ 2) := by positivity
  rw [Real.log_mul h0.ne' (by positivity), Real.log_rpow this]; ring

theorem nextEta_pos {eta0 s : ℝ} (h0 : 0 < eta0) (hs : 0 < s) : 0 < nextEta eta0 s := by
  unfold nextEta; positivity

theorem etaH_hasDeriv {s : ℝ} (hs : 0 < s) : HasDerivAt etaH (-(1 / (3 * s * (2 * s ^ 2 + 1)))) s := by
  have h1 : HasDerivAt (fun s : ℝ => 1 + 1 / (2 * s ^ 2)) (-(1 / s ^ 3)) s := by
    have h2 := ((((hasDerivAt_id s).pow 2).const_mul 2).inv (by simpa using hs.ne')).const_add 1
    refine HasDerivAt.congr_deriv (h2.congr_of_eventuallyEq (Eventually.of_forall ?_)) ?_
    · intro z; simp
    · norm_num; field_simp
  have h3 : (1 + 1 / (2 * s ^ 2)) ≠ 0 := by positivity
  refine HasDerivAt.congr_deriv ((h1.log h3).div_const 6) ?_
  field_simp
  ring

/-- How much the correction changes compared to the logarithm of the function. -/
noncomputable def etaK (m : ℝ) : ℝ := 2 / 3 / ((2 * m ^ 2 + 1) * (4 * m ^ 2 + 1))

theorem etaK_pos (m : ℝ) : 0 < etaK m := by unfold etaK; positivity

theorem etaK_zero : etaK 0 = 2 / 3 := by unfold etaK; norm_num

theorem etaK_lt {m : ℝ} (hm : 0 < m) : etaK m < 2 / 3 := by
  unfold etaK
  rw [div_lt_iff₀ (by positivity)]
  have : 0 < m ^ 2 := by positivity
  nlinarith

theorem etaH_le {m s t : ℝ} (hm : 0 ≤ m) (hs0 : 0 < s) (hs : m ≤ s) (hst : s ≤ t) :
    0 ≤ etaH s - etaH t ∧ etaH s - etaH t ≤ etaK m * (nwL 2 t - nwL 2 s) := by
  have hpos : ∀ x ∈ Set.Icc s t, 0 < x := fun x hx => lt_of_lt_of_le hs0 hx.1
  have hint : ∀ x ∈ interior (Set.Icc s t), s < x := fun x hx => by
    rw [interior_Icc] at hx; exact hx.1
  have a1 : AntitoneOn etaH (Set.Icc s t) := by
    refine antitoneOn_of_hasDerivWithinAt_nonpos (convex_Icc s t)
      (f' := fun s => -(1 / (3 * s * (2 * s ^ 2 + 1)))) ?_ ?_ ?_
    · exact fun x hx => (etaH_hasDeriv (hpos x hx)).continuousAt.continuousWithinAt
    · exact fun x hx => (etaH_hasDeriv (lt_trans hs0 (hint x hx))).hasDerivWithinAt
    · intro x hx
      have := lt_trans hs0 (hint x hx)
      have : 0 < 1 / (3 * x * (2 * x ^ 2 + 1)) := by positivity
      linarith
  have a2 : MonotoneOn (fun x => etaH x + etaK m * nwL 2 x) (Set.Icc s t) := by
    have hd : ∀ x, 0 < x → HasDerivAt (fun x => etaH x + etaK m * nwL 2 x)
        (-(1 / (3 * x * (2 * x ^ 2 + 1))) + etaK m * (2 * x + 1 / (2 * x))) x :=
      fun x hx => (etaH_hasDeriv hx).add ((nwL_hasDeriv hx).const_mul _)
    refine monotoneOn_of_hasDerivWithinAt_nonneg (convex_Icc s t)
      (f' := fun x => -(1 / (3 * x * (2 * x ^ 2 + 1))) + etaK m * (2 * x + 1 / (2 * x))) ?_ ?_ ?_
    · exact fun x hx => (hd x (hpos x hx)).continuousAt.continuousWithinAt
    · exact fun x hx => (hd x (lt_trans hs0 (hint x hx))).hasDerivWithinAt
    · intro x hx
      have hx0 := lt_trans hs0 (hint x hx)
      have hmx : m ≤ x := le_trans hs (hint x hx).le
      have k1 : etaK x ≤ etaK m := by
        unfold etaK
        have : m ^ 2 ≤ x ^ 2 := by nlinarith
        have : (2 * m ^ 2 + 1) * (4 * m ^ 2 + 1) ≤ (2 * x ^ 2 + 1) * (4 * x ^ 2 + 1) := by
          have := sq_nonneg m
          nlinarith
        exact div_le_div_of_nonneg_left (by norm_num) (by positivity) this
      have k2 : etaK x * (2 * x + 1 / (2 * x)) = 1 / (3 * x * (2 * x ^ 2 + 1)) := by
        unfold etaK; field_simp; ring
      have k3 : 0 ≤ 2 * x + 1 / (2 * x) := by positivity
      have := mul_le_mul_of_nonneg_right k1 k3
      linarith
  have m1 : s ∈ Set.Icc s t := ⟨le_refl _, hst⟩
  have m2 : t ∈ Set.Icc s t := ⟨hst, le_refl _⟩
  have h1 := a1 m1 m2 hst
  have h2 := a2 m1 m2 hst
  simp only at h2
  exact ⟨by linarith, by linarith⟩

theorem etaH_abs {m s t : ℝ} (hm : 0 ≤ m) (hs0 : 0 < s) (ht0 : 0 < t) (hs : m ≤ s) (ht : m ≤ t) :
    |etaH s - etaH t| ≤ etaK m * |nwL 2 s - nwL 2 t| := by
  have mono := (nwL_strictMono (a := 2) (by norm_num)).monotoneOn
  rcases le_total s t with h | h
  · have h1 := etaH_le hm hs0 hs h
    have h2 := mono hs0 ht0 h
    rw [abs_of_nonneg h1.1, abs_of_nonpos (by linarith)]
    linarith [h1.2]
  · have h1 := etaH_le hm ht0 ht h
    have h2 := mono ht0 hs0 h
    rw [abs_of_nonpos (by linarith [h1.1]), abs_of_nonneg (by linarith)]
    linarith [h1.2]

/-- The widths come close to each other. -/
theorem eta_seq {c eta0 : ℝ} (hc : 0 < c) (h0 : 0 < eta0) {eta s : ℕ → ℝ} (he0 : 0 < eta 0)
    (hs : ∀ n, 0 < s n ∧ c * √(eta n / 2) ≤ nwP 2 (s n) ∧
      nwP 2 (s n) ≤ c * √(eta n / 2) * (1 + acceptError))
    (he : ∀ n, eta (n + 1) = nextEta eta0 (s n)) :
    ∃ n, |eta n - eta (n + 1)| / eta (n + 1) ≤ acceptError := by
  have epos : ∀ n, 0 < eta n := by
    intro n
    cases n with
    | zero => exact he0
    | succ n => rw [he]; exact nextEta_pos h0 (hs n).1
  set δ := Real.log (1 + acceptError) with hδ
  have δpos : 0 < δ := Real.log_pos (by linarith [acceptError_pos])
  set u : ℕ → ℝ := fun n => Real.log (eta n) with hu
  set A := -Real.log c + Real.log 2 / 2 with hA
  have hlog : ∀ n, Real.log (c * √(eta n / 2)) = -A + u n / 2 := by
    intro n
    have := epos n
    rw [Real.log_mul hc.ne' (by positivity), Real.log_sqrt (by positivity),
      Real.log_div this.ne' (by norm_num)]
    simp only [hA, hu]; ring
  have hP : ∀ n, A - u n / 2 - δ ≤ nwL 2 (s n) ∧ nwL 2 (s n) ≤ A - u n / 2 := by
    intro n
    have hy : 0 < c * √(eta n / 2) := by have := epos n; positivity
    obtain ⟨_, h2, h3⟩ := hs n
    have l2 := Real.log_le_log hy h2
    have l3 := Real.log_le_log (nwP_pos 2 (s n)) h3
    rw [Real.log_mul hy.ne' (by linarith [acceptError_pos]), hlog] at l3
    rw [hlog] at l2
    have : Real.log (nwP 2 (s n)) = -nwL 2 (s n) := by rw [nwP, Real.log_exp]
    rw [this] at l2 l3
    exact ⟨by linarith, by linarith⟩
  have hPd : ∀ i j, |nwL 2 (s i) - nwL 2 (s j)| ≤ |u i - u j| / 2 + δ := by
    intro i j
    have hi := hP i
    have hj := hP j
    rw [abs_le]
    have h1 := le_abs_self (u i - u j)
    have h2 := neg_abs_le (u i - u j)
    exact ⟨by linarith [hi.1, hj.2], by linarith [hi.2, hj.1]⟩
  have hu1 : ∀ n, u (n + 1) = Real.log eta0 + etaH (s n) := by
    intro n
    simp only [hu]; rw [he, log_nextEta h0 (hs n).1]
  have hstep : ∀ m, 0 ≤ m → (∀ n, m ≤ s n) → ∀ i j,
      |u (i + 1) - u (j + 1)| ≤ etaK m * (|u i - u j| / 2 + δ) := by
    intro m hm hms i j
    have h1 := etaH_abs hm (hs i).1 (hs j).1 (hms i) (hms j)
    have h2 := mul_le_mul_of_nonneg_left (hPd i j) (etaK_pos m).le
    have e : u (i + 1) - u (j + 1) = etaH (s i) - etaH (s j) := by rw [hu1, hu1]; ring
    rw [e]; linarith
  -- The widths stay bounded.
  set M := 3 * |u 1 - u 0| / 2 + δ with hM
  have hb : ∀ n, |u n - u 0| ≤ M := by
    intro n
    induction n with
    | zero => simp only [sub_self, abs_zero, hM]; have := abs_nonneg (u 1 - u 0); linarith
    | succ n ih =>
      have h1 := hstep 0 (le_refl _) (fun n => (hs n).1.le) n 0
      rw [etaK_zero] at h1
      have h2 : |u (n + 1) - u 0| ≤ |u (n + 1) - u (0 + 1)| + |u 1 - u 0| := by
        have e : u (n + 1) - u 0 = (u (n + 1) - u (0 + 1)) + (u 1 - u 0) := by simp
        rw [e]; exact abs_add_le _ _
      linarith
  -- The solutions stay away from zero.
  set B := A - u 0 / 2 - M / 2 - δ with hB
  set m := min 1 (Real.exp (2 * (B - 1))) with hm
  have mpos : 0 < m := lt_min one_pos (Real.exp_pos _)
  have hms : ∀ n, m ≤ s n := by
    intro n
    by_cases h1 : 1 ≤ s n
    · exact le_trans (min_le_left _ _) h1
    · refine le_trans (min_le_right _ _) ?_
      push Not at h1
      have hsn := (hs n).1
      have h2 := (hP n).1
      have h3 := (abs_le.mp (hb n)).2
      have h4 : B ≤ nwL 2 (s n) := by simp only [hB]; linarith
      unfold nwL at h4
      have h5 : s n ^ 2 ≤ 1 := by nlinarith
      rw [← Real.exp_log hsn, Real.exp_le_exp]
      linarith
  -- Successive widths.
  by_contra hcon
  push Not at hcon
  have hD : ∀ n, δ < |u n - u (n + 1)| := by
    intro n
    by_contra hle
    push Not at hle
    have h1 := hcon n
    have e : |eta n - eta (n + 1)| / eta (n + 1) = |Real.exp (u n - u (n + 1)) - 1| := by
      have p1 := epos n
      have p2 := epos (n + 1)
      simp only [hu]
      rw [Real.exp_sub, Real.exp_log p1, Real.exp_log p2, ← abs_of_pos p2, ← abs_div, abs_of_pos p2]
      congr 1; field_simp
    rw [e] at h1
    have h2 := abs_le.mp hle
    have h3 : Real.exp (u n - u (n + 1)) ≤ 1 + acceptError := by
      rw [← Real.exp_log (show (0 : ℝ) < 1 + acceptError by linarith [acceptError_pos]), Real.exp_le_exp]
      exact h2.2
    have h4 : 1 - acceptError ≤ Real.exp (u n - u (n + 1)) := by
      have h5 : Real.exp (-δ) ≤ Real.exp (u n - u (n + 1)) := Real.exp_le_exp.mpr h2.1
      have h6 : 1 - acceptError ≤ Real.exp (-δ) := by
        rw [Real.exp_neg, hδ, Real.exp_log (by linarith [acceptError_pos])]
        rw [← one_div, le_div_iff₀ (by linarith [acceptError_pos])]
        nlinarith [acceptError_pos]
      linarith
    have : |Real.exp (u n - u (n + 1)) - 1| ≤ acceptError := abs_le.mpr ⟨by linarith, by linarith⟩
    linarith
  set r := 3 / 2 * etaK m with hr
  have r1 : r < 1 := by have := etaK_lt mpos; simp only [hr]; linarith
  have r0 : 0 ≤ r := by have := etaK_pos m; simp only [hr]; linarith
  have hgeo : ∀ n, |u n - u (n + 1)| ≤ r ^ n * |u 0 - u 1| := by
    intro n
    induction n with
    | zero => simp
    | succ n ih =>
      have h1 := hstep m mpos.le hms n (n + 1)
      have h2 : etaK m * (|u n - u (n + 1)| / 2 + δ) ≤ r * |u n - u (n + 1)| := by
        have := hD n
        have := etaK_pos m
        simp only [hr]; nlinarith
      have h3 := mul_le_mul_of_nonneg_left ih r0
      rw [pow_succ]
      calc |u (n + 1) - u (n + 1 + 1)| ≤ r * (r ^ n * |u 0 - u 1|) := by linarith
        _ = r ^ n * r * |u 0 - u 1| := by ring
  have hlim : Tendsto (fun n : ℕ => r ^ n * |u 0 - u 1|) atTop (𝓝 0) := by
    simpa using (tendsto_pow_atTop_nhds_zero_of_lt_one r0 r1).mul_const |u 0 - u 1|
  obtain ⟨n, hn⟩ := (hlim.eventually (gt_mem_nhds δpos)).exists
  linarith [hgeo n, hD n]

/-- What is known about the state of the outer loop. -/
def EtaInv (c eta0 : ℝ) (t : EtaState) : Prop :=
  0 < t.eta ∧ (t.relError = 1 ∨ ∃ old, 0 < old ∧ 0 < t.s ∧ t.eta = nextEta eta0 t.s ∧
    c * √(old / 2) ≤ nwP 2 t.s ∧ nwP 2 t.s ≤ c * √(old / 2) * (1 + acceptError) ∧
    t.relError = |old - t.eta| / t.eta)

theorem calculateEta_ok {prec C V : ℝ} (hp : 0 < prec) (hC : 0 < C) (hV : 0 < V) :
    ∃ t old, calculateEta prec C V = some t ∧ 0 < old ∧ 0 < t.s ∧ 0 < t.eta ∧
      t.eta = nextEta (optEta0 V) t.s ∧
      prec / C * √(old / 2) ≤ nwP 2 t.s ∧ nwP 2 t.s ≤ prec / C * √(old / 2) * (1 + acceptError) ∧
      |old - t.eta| ≤ acceptError * t.eta := by
  have h0 : 0 < optEta0 V := by
    unfold optEta0 trOverTk; have := Real.pi_pos; positivity
  have hc : 0 < prec / C := by positivity
  have hbody : ∀ t : EtaState, 0 < t.eta → ∃ s, 0 < s ∧ prec / C * √(t.eta / 2) ≤ nwP 2 s ∧
      nwP 2 s ≤ prec / C * √(t.eta / 2) * (1 + acceptError) ∧ etaBody prec C (optEta0 V) (some t)
        = some ⟨nextEta (optEta0 V) s, s, |t.eta - nextEta (optEta0 V) s| / nextEta (optEta0 V) s⟩ := by
    intro t ht
    obtain ⟨s, h1, h2, h3, h4⟩ := calculateS_ok (s := t.s) hp hC ht
    refine ⟨s, h2, h3, h4, ?_⟩
    unfold etaBody
    rw [Option.bind_some, h1, Option.map_some]
  have hiter : ∀ n : ℕ, ∃ t, (etaBody prec C (optEta0 V))^[n] (some ⟨optEta0 V, 1, 1⟩) = some t ∧
      EtaInv (prec / C) (optEta0 V) t := by
    intro n
    induction n with
    | zero => exact ⟨_, rfl, h0, Or.inl rfl⟩
    | succ n ih =>
      obtain ⟨t, ht, hi⟩ := ih
      obtain ⟨s, h2, h3, h4, h5⟩ := hbody t hi.1
      rw [Function.iterate_succ_apply', ht, h5]
      exact ⟨_, rfl, nextEta_pos h0 h2, Or.inr ⟨t.eta, hi.1, h2, rfl, h3, h4, rfl⟩⟩
  have hend : ∃ n, ¬ etaGoesOn ((etaBody prec C (optEta0 V))^[n] (some ⟨optEta0 V, 1, 1⟩)) := by
    choose T hT hI using hiter
    have hsucc : ∀ n, ∃ s, 0 < s ∧ prec / C * √((T n).eta / 2) ≤ nwP 2 s ∧
        nwP 2 s ≤ prec / C * √((T n).eta / 2) * (1 + acceptError) ∧
        T (n + 1) = ⟨nextEta (optEta0 V) s, s,
          |(T n).eta - nextEta (optEta0 V) s| / nextEta (optEta0 V) s⟩ := by
      intro n
      obtain ⟨s, h2, h3, h4, h5⟩ := hbody (T n) (hI n).1
      refine ⟨s, h2, h3, h4, ?_⟩
      have h6 := hT (n + 1)
      rw [Function.iterate_succ_apply', hT n, h5] at h6
      exact (Option.some.inj h6).symm
    choose s h2 h3 h4 h5 using hsucc
    obtain ⟨n, hn⟩ := eta_seq (eta := fun n => (T n).eta) (s := s) hc h0 (hI 0).1
      (fun n => ⟨h2 n, h3 n, h4 n⟩) (fun n => by rw [h5 n])
    refine ⟨n + 1, ?_⟩
    rintro ⟨t, ht, hlt⟩
    rw [hT (n + 1)] at ht
    have ht := Option.some.inj ht
    subst ht
    have : (T (n + 1)).relError = |(T n).eta - (T (n + 1)).eta| / (T (n + 1)).eta := by rw [h5 n]
    rw [this] at hlt
    linarith
  obtain ⟨n, h1, hstop⟩ := whileLoop_of_ends hend
  obtain ⟨t, ht, hpos, hi⟩ := hiter n
  rw [ht] at h1 hstop
  have hle : t.relError ≤ acceptError := by
    by_contra hcon
    exact hstop ⟨t, rfl, not_le.mp hcon⟩
  rcases hi with hi | ⟨old, g1, g2, g3, g4, g5, g6⟩
  · have := acceptError_lt; linarith
  · refine ⟨t, old, ?_, g1, g2, hpos, g3, g4, g5, ?_⟩
    · unfold calculateEta; rw [h1]; rfl
    · rw [g6, div_le_iff₀ hpos] at hle; exact hle

/-! ### The estimates -/

theorem optEta_errors {q e V eta' s old prec : ℝ} {N : ℕ} {eta : ℝ} (hq : q ≠ 0) (he : 0 < e)
    (hV : 0 < V) (hN : 0 < N) (hs : 0 < s) (heta : 0 < eta) (hf : eta ≤ eta') (hold : 0 < old)
    (hp : 0 < prec)
    (h1 : prec / (2 ^ (3 / 4 : ℝ) * q ^ 2 * √(N / V) / e) * √(old / 2) ≤ nwP 2 s)
    (h2 : nwP 2 s ≤ prec / (2 ^ (3 / 4 : ℝ) * q ^ 2 * √(N / V) / e) * √(old / 2) * (1 + acceptError))
    (hrel : |old - eta| ≤ acceptError * eta) :
    realSpaceError q e V N eta' (√2 * eta' * s) = kSpaceError q e V N eta' (√2 * s / eta') ∧
      realSpaceError q e V N eta' (√2 * eta' * s) ≤ prec * (1 + 2 * acceptError) ∧
      (eta' = eta → prec * (1 - acceptError) ≤ realSpaceError q e V N eta' (√2 * eta' * s)) := by
  have heta' : 0 < eta' := lt_of_lt_of_le heta hf
  have hNV : 0 < √((N : ℝ) / V) := by have : (0 : ℝ) < N := by exact_mod_cast hN
                                      positivity
  have hq2 : 0 < q ^ 2 := by positivity
  set D := 2 * q ^ 2 * √(N / V) / e with hD
  have hDpos : 0 < D := by positivity
  -- the fourth root of two
  set w : ℝ := 2 ^ (1 / 4 : ℝ) with hw
  have wpos : 0 < w := by positivity
  have hw2 : w * w = √2 := by
    rw [hw, ← Real.rpow_add (by norm_num), Real.sqrt_eq_rpow]; norm_num
  have hw3 : (2 : ℝ) ^ (3 / 4 : ℝ) * w = 2 := by
    rw [hw, ← Real.rpow_add (by norm_num)]; norm_num
  have hopt : (2 : ℝ) ^ (3 / 4 : ℝ) * q ^ 2 * √(N / V) / e = D / w := by
    have : (2 : ℝ) ^ (3 / 4 : ℝ) = 2 / w := by rw [eq_div_iff wpos.ne']; exact hw3
    rw [hD, this]; field_simp
  rw [hopt] at h1 h2
  have hs2 : √(√2) = w := by
    rw [← hw2]; exact Real.sqrt_mul_self wpos.le
  have hpos2 : 0 < √2 := by positivity
  -- both estimates
  have key : realSpaceError q e V N eta' (√2 * eta' * s) = D * w / √eta' * nwP 2 s := by
    unfold realSpaceError
    rw [← hD, nwP_eq hs]
    have e1 : -(√2 * eta' * s / eta') ^ 2 / 2 = -(2 * s ^ 2) / 2 := by
      have : √2 * eta' * s / eta' = √2 * s := by field_simp
      rw [this, mul_pow, Real.sq_sqrt (by norm_num)]
    have e2 : √(2 / (√2 * eta' * s)) = w / (√eta' * √s) := by
      have : (2 : ℝ) / (√2 * eta' * s) = √2 / (eta' * s) := by
        have : (2 : ℝ) = √2 * √2 := (Real.mul_self_sqrt (by norm_num)).symm
        rw [div_eq_div_iff (by positivity) (by positivity)]
        nth_rewrite 1 [this]; ring
      rw [this, Real.sqrt_div (by positivity), hs2, Real.sqrt_mul heta'.le]
    rw [e1, e2]; field_simp
  have key2 : kSpaceError q e V N eta' (√2 * s / eta') = D * w / √eta' * nwP 2 s := by
    unfold kSpaceError
    rw [← hD, nwP_eq hs]
    have e1 : -(√2 * s / eta' * eta') ^ 2 / 2 = -(2 * s ^ 2) / 2 := by
      have : √2 * s / eta' * eta' = √2 * s := by field_simp
      rw [this, mul_pow, Real.sq_sqrt (by norm_num)]
    have e2 : √2 / (eta' * √(√2 * s / eta')) = w / (√eta' * √s) := by
      rw [Real.sqrt_div (by positivity), Real.sqrt_mul hpos2.le, hs2, ← hw2]
      have : eta' = √eta' * √eta' := (Real.mul_self_sqrt heta'.le).symm
      have h3 : 0 < √eta' := by positivity
      have h4 : 0 < √s := by positivity
      rw [div_eq_div_iff (by positivity) (by positivity)]
      nth_rewrite 2 [this]
      field_simp
    rw [e1, e2]; field_simp
  have hratio : D * w / √eta' * (prec / (D / w) * √(old / 2)) = prec * √(old / eta') := by
    rw [Real.sqrt_div hold.le, Real.sqrt_div hold.le]
    have h3 : 0 < √eta' := by positivity
    field_simp
    rw [pow_two, hw2]
  have hA := acceptError_pos
  have hA1 := acceptError_lt
  have hr := abs_le.mp hrel
  have ho1 : old / eta ≤ 1 + acceptError := by rw [div_le_iff₀ heta]; linarith [hr.2]
  have ho2 : 1 - acceptError ≤ old / eta := by rw [le_div_iff₀ heta]; linarith [hr.1]
  have hDw : 0 < D * w / √eta' := by positivity
  refine ⟨by rw [key, key2], ?_, ?_⟩
  · rw [key]
    have h3 := mul_le_mul_of_nonneg_left h2 hDw.le
    rw [← mul_assoc, hratio] at h3
    have h4 : √(old / eta') ≤ 1 + acceptError / 2 := by
      rw [show 1 + acceptError / 2 = √((1 + acceptError / 2) ^ 2) from
        (Real.sqrt_sq (by linarith)).symm]
      refine Real.sqrt_le_sqrt ?_
      have : old / eta' ≤ old / eta := div_le_div_of_nonneg_left hold.le heta hf
      nlinarith
    have h5 : √(old / eta') * (1 + acceptError) ≤ 1 + 2 * acceptError := by nlinarith
    nlinarith
  · intro heq
    rw [key]
    have h3 := mul_le_mul_of_nonneg_left h1 hDw.le
    rw [hratio] at h3
    have h4 : 1 - acceptError ≤ √(old / eta) := by
      rw [show 1 - acceptError = √((1 - acceptError) ^ 2) from (Real.sqrt_sq (by linarith)).symm]
      refine Real.sqrt_le_sqrt ?_
      nlinarith
    have := mul_le_mul_of_nonneg_left h4 hp.le
    rw [← heq] at this
    linarith

theorem fixR_errors {q e V r prec : ℝ} {N : ℕ} (hq : q ≠ 0) (he : 0 < e) (hV : 0 < V) (hN : 0 < N)
    (hr : 0 < r) (hp : 0 < prec) (hx : fixRX (2 * q ^ 2 * √(N / V) / e) r prec < 1) :
    0 < fixREta (2 * q ^ 2 * √(N / V) / e) r prec ∧
      realSpaceError q e V N (fixREta (2 * q ^ 2 * √(N / V) / e) r prec) r = prec := by
  have hNV : 0 < √((N : ℝ) / V) := by have : (0 : ℝ) < N := by exact_mod_cast hN
                                      positivity
  have hq2 : 0 < q ^ 2 := by positivity
  unfold realSpaceError
  set D := 2 * q ^ 2 * √(N / V) / e with hD
  have hDpos : 0 < D := by positivity
  have hxpos : 0 < fixRX D r prec := by unfold fixRX; positivity
  have hlog : 0 < -2 * Real.log (fixRX D r prec) := by
    have := Real.log_neg hxpos hx; linarith
  have hs : 0 < √(-2 * Real.log (fixRX D r prec)) := Real.sqrt_pos.mpr hlog
  refine ⟨by unfold fixREta; positivity, ?_⟩
  have e1 : -(r / fixREta D r prec) ^ 2 / 2 = Real.log (fixRX D r prec) := by
    have : r / fixREta D r prec = √(-2 * Real.log (fixRX D r prec)) := by
      unfold fixREta; field_simp
    rw [this, Real.sq_sqrt hlog.le]; ring
  rw [e1, Real.exp_log hxpos, fixRX, Real.sqrt_div hr.le, Real.sqrt_div (by norm_num)]
  have h1 : 0 < √r := by positivity
  field_simp

theorem fixR_kError {q e V eta k prec : ℝ} {N : ℕ} (hq : q ≠ 0) (he : 0 < e) (hV : 0 < V) (hN : 0 < N)
    (heta : 0 < eta) (hk : 0 < k)
    (h1 : fixRY (2 * q ^ 2 * √(N / V) / e) eta prec ≤ nwP (eta ^ 2) k)
    (h2 : nwP (eta ^ 2) k ≤ fixRY (2 * q ^ 2 * √(N / V) / e) eta prec * (1 + acceptError)) :
    prec ≤ kSpaceError q e V N eta k ∧ kSpaceError q e V N eta k ≤ prec * (1 + acceptError) := by
  have hNV : 0 < √((N : ℝ) / V) := by have : (0 : ℝ) < N := by exact_mod_cast hN
                                      positivity
  have hq2 : 0 < q ^ 2 := by positivity
  unfold kSpaceError
  set D := 2 * q ^ 2 * √(N / V) / e with hD
  have hDpos : 0 < D := by positivity
  have hF : 0 < D * √2 / eta := by positivity
  have key : D * (√2 / (eta * √k)) * Real.exp (-(k * eta) ^ 2 / 2) = D * √2 / eta * nwP (eta ^ 2) k := by
    rw [nwP_eq hk]
    have : -(k * eta) ^ 2 / 2 = -(eta ^ 2 * k ^ 2) / 2 := by ring
    rw [this]; field_simp
  have hy : D * √2 / eta * fixRY D eta prec = prec := by unfold fixRY; field_simp
  rw [key]
  have h3 := mul_le_mul_of_nonneg_left h1 hF.le
  have h4 := mul_le_mul_of_nonneg_left h2 hF.le
  rw [← mul_assoc, hy] at h4
  rw [hy] at h3
  exact ⟨h3, h4⟩

/-! ### Other units -/

theorem whileLoop_conj {σ τ : Type} {c : σ → Prop} {b : σ → σ} {c' : τ → Prop} {b' : τ → τ} (f : σ → τ)
    (hb : ∀ s, b' (f s) = f (b s)) (hc : ∀ s, c' (f s) ↔ c s) (s : σ) :
    whileLoop c' b' (f s) = (whileLoop c b s).map f := by
  have hi : ∀ n, b'^[n] (f s) = f (b^[n] s) := by
    intro n
    induction n with
    | zero => rfl
    | succ n ih => rw [Function.iterate_succ_apply', Function.iterate_succ_apply', ih, hb]
  unfold whileLoop
  have : (fun n => c' (b'^[n] (f s))) = fun n => c (b^[n] s) := by
    funext n; rw [hi]; exact propext (hc _)
  rw [this, Option.map_map]
  congr 1
  funext n; exact hi n

theorem kCutNext_unit {c eta y k : ℝ} (hc : 0 < c) :
    kCutNext (c * eta) (y * √c) (k / c) = kCutNext eta y k / c := by
  unfold kCutNext
  have e1 : k / c * (c * eta) = k * eta := by field_simp
  have e2 : √(k / c) * Real.exp ((k * eta) ^ 2 / 2) * (y * √c) = √k * Real.exp ((k * eta) ^ 2 / 2) * y := by
    rw [Real.sqrt_div' _ hc.le]
    have : 0 < √c := by positivity
    field_simp
  rw [e1, e2]; ring

/-- The state in the other unit. -/
noncomputable def NewtonState.inUnit (c : ℝ) (st : NewtonState) : NewtonState := { st with x := st.x / c }

theorem kCutBody_unit {c eta y : ℝ} (hc : 0 < c) (st : NewtonState) :
    kCutBody (c * eta) (y * √c) (st.inUnit c) = (kCutBody eta y st).inUnit c := by
  have hs : 0 < √c := by positivity
  unfold kCutBody NewtonState.inUnit
  simp only
  rw [kCutNext_unit hc]
  have hiff : kCutNext eta y st.x / c ≤ 0 ↔ kCutNext eta y st.x ≤ 0 := by
    rw [div_le_iff₀ hc, zero_mul]
  by_cases h : kCutNext eta y st.x ≤ 0
  · rw [if_pos h, if_pos (hiff.mpr h)]
    simp only
    congr 1; ring
  · rw [if_neg h, if_neg (fun h' => h (hiff.mp h'))]
    simp only
    have e1 : (kCutNext eta y st.x / c - st.x / c) / (kCutNext eta y st.x / c)
        = (kCutNext eta y st.x - st.x) / kCutNext eta y st.x := by
      rw [← sub_div, div_div_div_cancel_right₀ hc.ne']
    have e2 : kCutNext eta y st.x / c * (c * eta) = kCutNext eta y st.x * eta := by field_simp
    have e3 : ∀ z : ℝ, (1 / √(kCutNext eta y st.x / c) * z - y * √c) / (y * √c)
        = (1 / √(kCutNext eta y st.x) * z - y) / y := by
      intro z
      rw [Real.sqrt_div' _ hc.le, ← mul_div_mul_right (1 / √(kCutNext eta y st.x) * z - y) y hs.ne']
      congr 1
      rw [one_div_div]; ring
    rw [e1, e2, e3]

theorem fixRKCut_unit {c C eta prec C' prec' : ℝ} (hc : 0 < c)
    (hy : fixRY C' (c * eta) prec' = fixRY C eta prec * √c) :
    fixRKCut C' (c * eta) prec' = (fixRKCut C eta prec).map (· / c) := by
  unfold fixRKCut
  rw [hy]
  have : (⟨1 / (c * eta), 1, 1⟩ : NewtonState) = NewtonState.inUnit c ⟨1 / eta, 1, 1⟩ := by
    unfold NewtonState.inUnit; simp only; congr 1; rw [div_div, mul_comm]
  rw [this, whileLoop_conj (NewtonState.inUnit c) (kCutBody_unit hc) (c := NewtonState.goesOn)
    (fun s => Iff.rfl), Option.map_map, Option.map_map]
  rfl

/-- The state of the outer loop in the other unit. -/
def EtaState.inUnit (c : ℝ) (t : EtaState) : EtaState := { t with eta := c * t.eta }

theorem calculateEta_unit {c C prec V C' prec' : ℝ} (hc : 0 < c)
    (h : ∀ eta, prec' / C' * √(c * eta / 2) = prec / C * √(eta / 2))
    (h0 : optEta0 (c ^ 3 * V) = c * optEta0 V) :
    calculateEta prec' C' (c ^ 3 * V) = (calculateEta prec C V).map (EtaState.inUnit c) := by
  unfold calculateEta
  have hb : ∀ t : Option EtaState, etaBody prec' C' (optEta0 (c ^ 3 * V)) (t.map (EtaState.inUnit c))
      = (etaBody prec C (optEta0 V) t).map (EtaState.inUnit c) := by
    intro t
    cases t with
    | none => rfl
    | some t =>
      have hS : calculateS prec' C' (c * t.eta) t.s = calculateS prec C t.eta t.s := by
        unfold calculateS; rw [h]
      show (calculateS prec' C' (c * t.eta) t.s).map _ = ((calculateS prec C t.eta t.s).map _).map _
      rw [hS, Option.map_map]
      congr 1
      funext s
      have hn : nextEta (optEta0 (c ^ 3 * V)) s = c * nextEta (optEta0 V) s := by
        unfold nextEta; rw [h0]; ring
      simp only [Function.comp, EtaState.inUnit]
      rw [hn]
      congr 1
      rw [← mul_sub, abs_mul, abs_of_pos hc, mul_div_mul_left _ _ hc.ne']
  have hg : ∀ t : Option EtaState, etaGoesOn (t.map (EtaState.inUnit c)) ↔ etaGoesOn t := by
    intro t
    cases t with
    | none => exact Iff.rfl
    | some t => 
      constructor
      · rintro ⟨z, hz, hl⟩
        have := Option.some.inj hz
        subst this
        exact ⟨t, rfl, hl⟩
      · rintro ⟨z, hz, hl⟩
        have := Option.some.inj hz
        subst this
        exact ⟨_, rfl, hl⟩
  have hst : (some ⟨optEta0 (c ^ 3 * V), 1, 1⟩ : Option EtaState)
      = (some ⟨optEta0 V, 1, 1⟩ : Option EtaState).map (EtaState.inUnit c) := by
    rw [h0]; rfl
  rw [hst, whileLoop_conj (fun t : Option EtaState => t.map (EtaState.inUnit c)) hb hg]
  cases whileLoop etaGoesOn (etaBody prec C (optEta0 V)) (some ⟨optEta0 V, 1, 1⟩) with
  | none => rfl
  | some t => rfl

theorem optEta0_unit {c V : ℝ} (hc : 0 < c) (hV : 0 < V) : optEta0 (c ^ 3 * V) = c * optEta0 V := by
  unfold optEta0 trOverTk
  have hpi := Real.pi_pos
  have e : 1 / (3.676 : ℝ) * (c ^ 3 * V) ^ 2 / (2 * Real.pi) ^ 3
      = c ^ 6 * (1 / 3.676 * V ^ 2 / (2 * Real.pi) ^ 3) := by ring
  rw [e, Real.mul_rpow (by positivity) (by positivity)]
  congr 1
  rw [← Real.rpow_natCast c 6, ← Real.rpow_mul hc.le]
  norm_num

theorem jacksonEta_unit {c V : ℝ} (hc : 0 < c) (hV : 0 < V) : jacksonEta (c ^ 3 * V) = c * jacksonEta V := by
  unfold jacksonEta
  rw [Real.mul_rpow (by positivity) hV.le]
  have : (c ^ 3) ^ (1 / 3 : ℝ) = c := by
    rw [← Real.rpow_natCast c 3, ← Real.rpow_mul hc.le]; norm_num
  rw [this]; ring

/-- Settings in the other units. -/
noncomputable def EwaldSettings.inUnits (S : EwaldSettings) (cE cL : ℝ) : EwaldSettings :=
  { precision := S.precision * (cE / cL)
    maxCharge := S.maxCharge
    maxQSigma := cL * S.maxQSigma
    fourPiEps := S.fourPiEps / (cL * cE) }

/-- Parameters in the other unit. -/
noncomputable def EwaldParameters.inUnit' (p : EwaldParameters) (c : ℝ) : EwaldParameters :=
  ⟨c * p.eta, c * p.rCut, p.kCut / c⟩

theorem sqrt_NV_unit {c V : ℝ} {N : ℕ} (hc : 0 < c) : √((N : ℝ) / (c ^ 3 * V)) = √(N / V) / (c * √c) := by
  have : (N : ℝ) / (c ^ 3 * V) = N / V / (c ^ 2 * c) := by rw [div_div]; congr 1; ring
  rw [this, Real.sqrt_div' _ (by positivity), Real.sqrt_mul (by positivity), Real.sqrt_sq hc.le]

theorem fixRParameters_unit {S : EwaldSettings} {cE cL V : ℝ} {N : ℕ} {p : EwaldParameters}
    (hE : 0 < cE) (hL : 0 < cL) :
    fixRParameters (S.inUnits cE cL) (cL ^ 3 * V) N (p.inUnit' cL)
      = ((fixRParameters S V N p).1.inUnit' cL, (fixRParameters S V N p).2) := by
  have hs : 0 < √cL := by positivity
  have hss : √cL * √cL = cL := Real.mul_self_sqrt hL.le
  have hC : fixRC (S.inUnits cE cL) (cL ^ 3 * V) N = fixRC S V N * (cE / √cL) := by
    unfold fixRC EwaldSettings.inUnits
    simp only
    rw [sqrt_NV_unit hL]
    by_cases h0 : S.fourPiEps = 0
    · simp [h0]
    · field_simp
  have hX : fixRX (fixRC S V N * (cE / √cL)) (cL * p.rCut) (S.precision * (cE / cL))
      = fixRX (fixRC S V N) p.rCut S.precision := by
    unfold fixRX
    have : cL * p.rCut / 2 = cL * (p.rCut / 2) := by ring
    rw [this, Real.sqrt_mul hL.le]
    by_cases h0 : fixRC S V N = 0
    · simp [h0]
    · field_simp
      rw [pow_two, hss]; ring
  have hEta : fixREta (fixRC S V N * (cE / √cL)) (cL * p.rCut) (S.precision * (cE / cL))
      = cL * fixREta (fixRC S V N) p.rCut S.precision := by
    unfold fixREta; rw [hX]; ring
  have hK := fixRKCut_unit (c := cL) (C := fixRC S V N)
    (eta := fixREta (fixRC S V N) p.rCut S.precision) (prec := S.precision)
    (C' := fixRC S V N * (cE / √cL)) (prec' := S.precision * (cE / cL)) hL (by
      unfold fixRY
      by_cases h0 : fixRC S V N = 0
      · simp [h0]
      · field_simp)
  unfold fixRParameters
  rw [hC]
  have hp : (S.inUnits cE cL).precision = S.precision * (cE / cL) := rfl
  have hr : (p.inUnit' cL).rCut = cL * p.rCut := rfl
  rw [hp, hr, hX, hEta, hK]
  have i1 : cL * p.rCut = 0 ↔ p.rCut = 0 := by simp [hL.ne']
  have i2 : cL * p.rCut < 0 ↔ p.rCut < 0 := by
    constructor
    · intro h; by_contra h'; push Not at h'; have := mul_nonneg hL.le h'; linarith
    · intro h; exact mul_neg_of_pos_of_neg hL h
  have i3 : fixRC S V N * (cE / √cL) = 0 ↔ fixRC S V N = 0 := by
    have : cE / √cL ≠ 0 := by positivity
    simp [this]
  simp only [i1, i2, i3]
  by_cases a1 : p.rCut = 0
  · rw [if_pos a1, if_pos a1]
  rw [if_neg a1, if_neg a1]
  by_cases a2 : p.rCut < 0
  · rw [if_pos a2, if_pos a2]
  rw [if_neg a2, if_neg a2]
  by_cases a3 : fixRC S V N = 0 ∨ 1 ≤ fixRX (fixRC S V N) p.rCut S.precision
  · rw [if_pos a3, if_pos a3]
  rw [if_neg a3, if_neg a3]
  cases fixRKCut (fixRC S V N) (fixREta (fixRC S V N) p.rCut S.precision) S.precision with
  | none => rfl
  | some k => rfl

theorem optEtaParameters_unit {S : EwaldSettings} {cE cL V : ℝ} {N : ℕ} {p : EwaldParameters}
    (hE : 0 < cE) (hL : 0 < cL) (hV : 0 < V) :
    optEtaParameters (S.inUnits cE cL) (cL ^ 3 * V) N (p.inUnit' cL)
      = ((optEtaParameters S V N p).1.inUnit' cL, (optEtaParameters S V N p).2) := by
  have hs : 0 < √cL := by positivity
  have hss : √cL * √cL = cL := Real.mul_self_sqrt hL.le
  have hC : optC (S.inUnits cE cL) (cL ^ 3 * V) N = optC S V N * (cE / √cL) := by
    unfold optC EwaldSettings.inUnits
    simp only
    rw [sqrt_NV_unit hL]
    by_cases h0 : S.fourPiEps = 0
    · simp [h0]
    · field_simp
  have hy : ∀ eta, S.precision * (cE / cL) / (optC S V N * (cE / √cL)) * √(cL * eta / 2)
      = S.precision / optC S V N * √(eta / 2) := by
    intro eta
    have : cL * eta / 2 = cL * (eta / 2) := by ring
    rw [this, Real.sqrt_mul hL.le]
    by_cases h0 : optC S V N = 0
    · simp [h0]
    · field_simp
      rw [pow_two, hss]
  unfold optEtaParameters
  rw [hC]
  have i3 : optC S V N * (cE / √cL) = 0 ↔ optC S V N = 0 := by
    have : cE / √cL ≠ 0 := by positivity
    simp [this]
  simp only [i3]
  by_cases a3 : optC S V N = 0
  · rw [if_pos a3, if_pos a3]
  rw [if_neg a3, if_neg a3]
  have hp : (S.inUnits cE cL).precision = S.precision * (cE / cL) := rfl
  have hq : (S.inUnits cE cL).maxQSigma = cL * S.maxQSigma := rfl
  rw [hp, hq, calculateEta_unit hL hy (optEta0_unit hL hV)]
  cases calculateEta S.precision (optC S V N) V with
  | none => rfl
  | some t =>
    have e : max (cL * t.eta) (cL * S.maxQSigma) = cL * max t.eta S.maxQSigma :=
      (mul_max_of_nonneg _ _ hL.le).symm
    simp only [Option.map_some, EtaState.inUnit, EwaldParameters.inUnit']
    rw [e]
    congr 2
    · ring
    · rw [div_div, mul_comm cL]

theorem jacksonParameters_unit {S : EwaldSettings} {cL V : ℝ} {p : EwaldParameters} {w : ℝ}
    (hL : 0 < cL) (hV : 0 < V) :
    jacksonParameters { S with maxQSigma := w } (cL ^ 3 * V) (p.inUnit' cL)
      = ((jacksonParameters S V p).1.inUnit' cL, (jacksonParameters S V p).2) := by
  unfold jacksonParameters
  simp only
  rw [jacksonEta_unit hL hV]
  have i : cL * jacksonEta V ≤ 0 ↔ jacksonEta V ≤ 0 := by
    constructor
    · intro h; by_contra h'; push Not at h'; have := mul_pos hL h'; linarith
    · intro h; exact mul_nonpos_of_nonneg_of_nonpos hL.le h
  simp only [i]
  by_cases a1 : 1 ≤ S.precision
  · rw [if_pos a1, if_pos a1]
  rw [if_neg a1, if_neg a1]
  by_cases a2 : jacksonEta V ≤ 0
  · rw [if_pos a2, if_pos a2]; rfl
  rw [if_neg a2, if_neg a2]
  simp only [EwaldParameters.inUnit', jacksonRCut, jacksonKCut]
  congr 2
  · ring
  · rw [div_div, mul_comm cL]

theorem maxWidth_unit {cL : ℝ} (hL : 0 < cL) (widths : List ℝ) (c : ℝ) :
    maxWidth true cL widths = cL * maxWidth false c widths := by
  unfold maxWidth
  have : ∀ (l : List ℝ) (a : ℝ), l.foldl (fun m w => max (if true = true then w * cL else w) m) (cL * a)
      = cL * l.foldl (fun m w => max (if false = true then w * c else w) m) a := by
    intro l
    induction l with
    | nil => intro a; rfl
    | cons w l ih =>
      intro a
      simp only [List.foldl_cons, if_true, Bool.false_eq_true, if_false]
      have e : max (w * cL) (cL * a) = cL * max w a := by
        rw [mul_max_of_nonneg _ _ hL.le, mul_comm w]
      rw [e]
      have := ih (max w a)
      simpa using this
  have := this widths 0
  rwa [mul_zero] at this

/-! ### The order of the structures -/

theorem fixR_keeps (S : EwaldSettings) (V : ℝ) (N : ℕ) (p : EwaldParameters) :
    (fixRParameters S V N p).1.rCut = p.rCut := by
  unfold fixRParameters
  split_ifs
  · rfl
  · rfl
  · rfl
  · split <;> rfl

theorem newParameters_congr {c : TruncClass} {S : EwaldSettings} {V : ℝ} {N : ℕ} {p p' : EwaldParameters}
    (h : c = .kolafaFixR → p'.rCut = p.rCut) :
    (newParameters c S V N p').2 = (newParameters c S V N p).2 ∧
      ((newParameters c S V N p).2 = none → newParameters c S V N p' = newParameters c S V N p) := by
  cases c with
  | jackson =>
    simp only [newParameters, jacksonParameters]
    split_ifs <;> simp
  | kolafaFixR =>
    have h := h rfl
    simp only [newParameters, fixRParameters, h]
    split_ifs
    · simp
    · simp
    · simp
    · split <;> simp
  | kolafaOptEta =>
    simp only [newParameters, optEtaParameters]
    split_ifs
    · simp
    · split <;> simp

/-- What is true after some structures have been handled without an error. -/
def EwaldSetup.Follows (E F : EwaldSetup) (c : TruncClass) : Prop :=
  F.sett = E.sett ∧ (c = .kolafaFixR → F.params.rCut = E.params.rCut) ∧
    ∃ V N b, F.truncImpl = some ⟨c, V, N, b⟩ ∧
      (V = 0 ∨ newParameters c E.sett V N E.params = (F.params, none))

theorem Follows_step {E F G : EwaldSetup} {c : TruncClass} {V : ℝ} {N : ℕ} (h : E.Follows F c)
    (hV : 0 < V) (hc : F.calculateParameters V N = (G, none)) :
    E.Follows G c ∧ newParameters c E.sett V N E.params = (G.params, none) := by
  obtain ⟨h1, h2, V0, N0, b, h3, h4⟩ := h
  unfold EwaldSetup.calculateParameters at hc
  rw [h3] at hc
  simp only at hc
  by_cases hn : (⟨c, V0, N0, b⟩ : TruncImpl).newCutoffs V N
  · rw [if_pos hn] at hc
    obtain ⟨hg, he⟩ := Prod.mk.inj hc
    have hcg := newParameters_congr (c := c) (S := E.sett) (V := V) (N := N) h2
    rw [h1] at he hg
    have hnone : (newParameters c E.sett V N E.params).2 = none := by rw [← hcg.1, he]
    have heq := hcg.2 hnone
    have hp : newParameters c E.sett V N E.params = (G.params, none) := by
      rw [← hg]; simp only; rw [heq, ← hnone]
    refine ⟨⟨by rw [← hg], ?_, V, N, false, by rw [← hg], Or.inr hp⟩, hp⟩
    intro hfix
    rw [← hg]
    simp only
    subst hfix
    rw [← h2 rfl]
    exact fixR_keeps _ _ _ _
  · rw [if_neg hn] at hc
    have hg := (Prod.mk.inj hc).1
    subst hg
    have hv : V = V0 := by
      unfold TruncImpl.newCutoffs at hn
      cases c <;> simp only [ne_eq, not_or, not_not] at hn
      · exact hn
      · exact hn.1
      · exact hn.1
    have hp : newParameters c E.sett V N E.params = (F.params, none) := by
      rcases h4 with h4 | h4
      · rw [hv, h4] at hV; exact absurd hV (lt_irrefl _)
      · rw [← h4, hv]
        unfold TruncImpl.newCutoffs at hn
        cases c with
        | jackson => rfl
        | kolafaFixR => simp only [ne_eq, not_or, not_not] at hn; rw [hn.2]
        | kolafaOptEta => simp only [ne_eq, not_or, not_not] at hn; rw [hn.2]
    exact ⟨⟨h1, h2, V0, N0, b, h3, h4⟩, hp⟩

theorem Follows_list {E F G : EwaldSetup} {c : TruncClass} {l : List (ℝ × ℕ)} (h : E.Follows F c)
    (hl : F.Handles l G) : E.Follows G c := by
  induction hl with
  | nil => exact h
  | cons hV hc _ ih => exact ih (Follows_step h hV hc).1

theorem Follows_start {E : EwaldSetup} {c : TruncClass} (h : E.truncImpl = some (TruncImpl.new c)) :
    E.Follows E c := ⟨rfl, fun _ => rfl, 0, 0, false, h, Or.inl rfl⟩

/-- A new setup: the parameters are calculated. -/
theorem calculateParameters_new {E : EwaldSetup} {c : TruncClass} {V : ℝ} {N : ℕ}
    (h : E.truncImpl = some (TruncImpl.new c)) (hV : 0 < V) :
    E.calculateParameters V N
      = ({ E with
            params := (newParameters c E.sett V N E.params).1
            truncImpl := some ⟨c, V, N, false⟩ }, (newParameters c E.sett V N E.params).2) := by
  unfold EwaldSetup.calculateParameters
  rw [h]
  have hn : (TruncImpl.new c).newCutoffs V N := by
    unfold TruncImpl.newCutoffs TruncImpl.new
    cases c
    · exact hV.ne'
    · exact Or.inl hV.ne'
    · exact Or.inl hV.ne'
  exact if_pos hn

end N2P2
