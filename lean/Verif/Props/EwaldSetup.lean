import Verif.Lemma.EwaldSetup

/-! C96: the parameters of the Ewald summation. -/

namespace N2P2

/-! ### Setups -/

theorem setup_jackson {norm : Bool} {cE cL prec : ℝ} {widths : List ℝ} {method : Option Str}
    (hm : method = none ∨ method = some "0".toList) (hp : 0 < prec) :
    ∃ E, EwaldSetup.init.setup norm cE cL widths method (some [prec]) = .ok E ∧
      E.truncImpl = some (TruncImpl.new .jackson) ∧ E.sett.precision = prec ∧ E.params = ⟨0, 0, 0⟩ ∧
      E.sett = ⟨prec, 1, maxWidth norm cL widths, 1⟩ := by
  have hc : EwaldSetup.init.chooseMethod method = EwaldSetup.init := by
    rcases hm with rfl | rfl <;> rfl
  unfold EwaldSetup.setup
  simp only
  rw [hc]
  have hr : EwaldSetup.init.readFromArgs [prec] = .ok
      { EwaldSetup.init with
        sett := ⟨prec, 1, 1, 1⟩
        truncImpl := some (TruncImpl.new .jackson) } := by
    unfold EwaldSetup.readFromArgs
    rw [if_neg (by simp [EwaldSetup.init, argConsistent]), if_neg (by simpa using hp)]
    rfl
  rw [hr]
  simp only
  refine ⟨_, rfl, ?_⟩
  cases norm
  · exact ⟨rfl, rfl, rfl, rfl⟩
  · exact ⟨rfl, rfl, rfl, rfl⟩

theorem kolafa_args {prec q r : ℝ} (hp : 0 < prec) :
    ({ EwaldSetup.init with truncMethod := .kolafaPerram }).readFromArgs [prec, q, r] = .ok
      ⟨⟨0, r, 0⟩, .kolafaPerram, ⟨prec, q, 1, 1⟩, some (TruncImpl.new .kolafaFixR)⟩ ∧
    ({ EwaldSetup.init with truncMethod := .kolafaPerram }).readFromArgs [prec, q] = .ok
      ⟨⟨0, 0, 0⟩, .kolafaPerram, ⟨prec, q, 1, 1⟩, some (TruncImpl.new .kolafaOptEta)⟩ ∧
    ({ EwaldSetup.init with truncMethod := .kolafaPerram }).readFromArgs [prec] = .ok
      ⟨⟨0, 0, 0⟩, .kolafaPerram, ⟨prec, 1, 1, 1⟩, none⟩ := by
  refine ⟨?_, ?_, ?_⟩
  · unfold EwaldSetup.readFromArgs
    rw [if_neg (by simp [argConsistent]), if_neg (by simpa using hp)]
    rfl
  · unfold EwaldSetup.readFromArgs
    rw [if_neg (by simp [argConsistent]), if_neg (by simpa using hp)]
    rfl
  · unfold EwaldSetup.readFromArgs
    rw [if_neg (by simp [argConsistent]), if_neg (by simpa using hp)]
    rfl

theorem setup_fixR {cE cL prec q r : ℝ} {widths : List ℝ} (hp : 0 < prec) :
    EwaldSetup.init.setup false cE cL widths (some "1".toList) (some [prec, q, r]) = .ok
      ⟨⟨0, r, 0⟩, .kolafaPerram, ⟨prec, q, maxWidth false cL widths, 1⟩,
        some (TruncImpl.new .kolafaFixR)⟩ := by
  show (match ({ EwaldSetup.init with truncMethod := .kolafaPerram }).readFromArgs [prec, q, r] with
    | .error e => _ | .ok F => _) = _
  rw [(kolafa_args hp).1]
  rfl

theorem setup_optEta {cE cL prec q : ℝ} {widths : List ℝ} (hp : 0 < prec) :
    EwaldSetup.init.setup false cE cL widths (some "1".toList) (some [prec, q]) = .ok
      ⟨⟨0, 0, 0⟩, .kolafaPerram, ⟨prec, q, maxWidth false cL widths, 1⟩,
        some (TruncImpl.new .kolafaOptEta)⟩ := by
  show (match ({ EwaldSetup.init with truncMethod := .kolafaPerram }).readFromArgs [prec, q] with
    | .error e => _ | .ok F => _) = _
  rw [(kolafa_args (r := 0) hp).2.1]
  rfl

theorem maxWidth_spec (cL : ℝ) (widths : List ℝ) :
    0 ≤ maxWidth false cL widths ∧ ∀ w ∈ widths, w ≤ maxWidth false cL widths := by
  unfold maxWidth
  have : ∀ (l : List ℝ) (a : ℝ), a ≤ l.foldl (fun m w => max (if false = true then w * cL else w) m) a ∧
      ∀ w ∈ l, w ≤ l.foldl (fun m w => max (if false = true then w * cL else w) m) a := by
    intro l
    induction l with
    | nil => intro a; exact ⟨le_refl _, by simp⟩
    | cons v l ih =>
      intro a
      have h := ih (max (if false = true then v * cL else v) a)
      simp only [List.foldl_cons]
      refine ⟨le_trans (le_max_right _ _) h.1, ?_⟩
      intro w hw
      rcases List.mem_cons.mp hw with rfl | hw
      · exact le_trans (le_max_left _ _) h.1
      · exact h.2 w hw
  exact this widths 0

/-! ### The property -/

/-- Method 0: with a precision between 0 and 1 the parameters of every structure are found. Both sums are
cut off where the Gaussian has fallen to the precision, and the width is that of the volume. -/
theorem C96_jackson {norm : Bool} {cE cL prec V : ℝ} {N : ℕ} {widths : List ℝ} {method : Option Str}
    (hm : method = none ∨ method = some "0".toList) (hp : 0 < prec) (hp1 : prec < 1) (hV : 0 < V) :
    ∃ E F, EwaldSetup.init.setup norm cE cL widths method (some [prec]) = .ok E ∧
      E.calculateParameters V N = (F, none) ∧ F.params.Usable ∧
      Real.exp (-(F.params.rCut / F.params.eta) ^ 2 / 2) = prec ∧
      Real.exp (-(F.params.kCut * F.params.eta) ^ 2 / 2) = prec ∧
      (√(2 * Real.pi) * F.params.eta) ^ 3 = V := by
  obtain ⟨E, hE, hi, hpr, hpa, hs⟩ := setup_jackson (norm := norm) (cE := cE) (cL := cL) (widths := widths)
    hm hp
  have hpi := Real.pi_pos
  have heta : 0 < jacksonEta V := by unfold jacksonEta; positivity
  have hlog : 0 < -2 * Real.log prec := by have := Real.log_neg hp hp1; linarith
  have hsq : 0 < √(-2 * Real.log prec) := Real.sqrt_pos.mpr hlog
  have hc : newParameters .jackson E.sett V N E.params
      = (⟨jacksonEta V, jacksonRCut (jacksonEta V) prec, jacksonKCut (jacksonEta V) prec⟩, none) := by
    unfold newParameters jacksonParameters
    simp only
    rw [hpr, if_neg (not_le.mpr hp1), if_neg (not_le.mpr heta)]
  have h := calculateParameters_new (N := N) hi hV
  rw [hc] at h
  refine ⟨E, _, hE, h, ⟨heta, ?_, ?_⟩, ?_, ?_, ?_⟩
  · exact mul_pos hsq heta
  · exact div_pos hsq heta
  · have e : -(jacksonRCut (jacksonEta V) prec / jacksonEta V) ^ 2 / 2 = Real.log prec := by
      have : jacksonRCut (jacksonEta V) prec / jacksonEta V = √(-2 * Real.log prec) := by
        unfold jacksonRCut; field_simp
      rw [this, Real.sq_sqrt hlog.le]; ring
    show Real.exp (-(jacksonRCut (jacksonEta V) prec / jacksonEta V) ^ 2 / 2) = prec
    rw [e, Real.exp_log hp]
  · have e : -(jacksonKCut (jacksonEta V) prec * jacksonEta V) ^ 2 / 2 = Real.log prec := by
      have : jacksonKCut (jacksonEta V) prec * jacksonEta V = √(-2 * Real.log prec) := by
        unfold jacksonKCut; field_simp
      rw [this, Real.sq_sqrt hlog.le]; ring
    show Real.exp (-(jacksonKCut (jacksonEta V) prec * jacksonEta V) ^ 2 / 2) = prec
    rw [e, Real.exp_log hp]
  · show (√(2 * Real.pi) * jacksonEta V) ^ 3 = V
    have : √(2 * Real.pi) * jacksonEta V = V ^ (1 / 3 : ℝ) := by
      unfold jacksonEta
      have : 0 < √(2 * Real.pi) := by positivity
      field_simp
    rw [this, ← Real.rpow_natCast, ← Real.rpow_mul hV.le]
    norm_num

/-- Method 1 with a given cutoff in real space. The loop always ends. Either the precision is so low that
no width gives it, and there is an error message; or the cutoff is the given one, the estimated error in
real space is the precision and the one in reciprocal space is the precision up to a relative error of
`10⁻¹⁰`. Missing: the estimates are those for `four_pi_epsilon 1`. -/
theorem C96_fixed_partial {cE cL prec q r V : ℝ} {N : ℕ} {widths : List ℝ} (hp : 0 < prec) (hq : q ≠ 0)
    (hr : 0 < r) (hV : 0 < V) (hN : 0 < N) :
    ∃ E F e, EwaldSetup.init.setup false cE cL widths (some "1".toList) (some [prec, q, r]) = .ok E ∧
      E.calculateParameters V N = (F, e) ∧
      ((e = some .badPrecision ∧ ∀ eta, 0 < eta → realSpaceError q 1 V N eta r < prec) ∨
       (e = none ∧ F.params.Usable ∧ F.params.rCut = r ∧
        realSpaceError q 1 V N F.params.eta r = prec ∧
        prec ≤ kSpaceError q 1 V N F.params.eta F.params.kCut ∧
        kSpaceError q 1 V N F.params.eta F.params.kCut ≤ prec * (1 + 1 / 10 ^ 10))) := by
  have hE := setup_fixR (cE := cE) (cL := cL) (q := q) (r := r) (widths := widths) hp
  have h := calculateParameters_new (E := ⟨⟨0, r, 0⟩, .kolafaPerram, ⟨prec, q, maxWidth false cL widths, 1⟩,
        some (TruncImpl.new .kolafaFixR)⟩) (N := N) rfl hV
  have hNV : 0 < √((N : ℝ) / V) := by have : (0 : ℝ) < N := by exact_mod_cast hN
                                      positivity
  have hq2 : 0 < q ^ 2 := by positivity
  have hC : 0 < 2 * q ^ 2 * √(N / V) / 1 := by positivity
  refine ⟨_, _, _, hE, h, ?_⟩
  simp only [newParameters]
  have hCe : fixRC ⟨prec, q, maxWidth false cL widths, 1⟩ V N = 2 * q ^ 2 * √(N / V) / 1 := rfl
  unfold fixRParameters
  simp only [hCe]
  rw [if_neg hr.ne', if_neg (not_lt.mpr hr.le)]
  by_cases hx : fixRX (2 * q ^ 2 * √(N / V) / 1) r prec < 1
  · rw [if_neg (by push Not; exact ⟨hC.ne', hx⟩)]
    obtain ⟨he, hre⟩ := fixR_errors hq one_pos hV hN hr hp hx
    obtain ⟨k, hk, hk0, hk1, hk2⟩ := fixRKCut_ok hp hC he
    obtain ⟨g1, g2⟩ := fixR_kError hq one_pos hV hN he hk0 hk1 hk2
    rw [hk]
    exact Or.inr ⟨rfl, ⟨he, hr, hk0⟩, rfl, hre, g1, g2⟩
  · rw [if_pos (Or.inr (not_lt.mp hx))]
    refine Or.inl ⟨rfl, ?_⟩
    intro eta heta
    push Not at hx
    unfold fixRX at hx
    rw [le_div_iff₀ hC, one_mul] at hx
    unfold realSpaceError
    have h1 : Real.exp (-(r / eta) ^ 2 / 2) < 1 := by
      rw [Real.exp_lt_one_iff]
      have : 0 < (r / eta) ^ 2 := by positivity
      linarith
    have h2 : √(2 / r) * √(r / 2) = 1 := by
      rw [← Real.sqrt_mul (by positivity)]
      have : 2 / r * (r / 2) = 1 := by field_simp
      rw [this, Real.sqrt_one]
    have h3 : 0 < √(2 / r) := by positivity
    have h4 : 2 * q ^ 2 * √(N / V) / 1 * √(2 / r) ≤ prec := by
      calc 2 * q ^ 2 * √(N / V) / 1 * √(2 / r) ≤ √(r / 2) * prec * √(2 / r) :=
            mul_le_mul_of_nonneg_right hx h3.le
        _ = prec * (√(2 / r) * √(r / 2)) := by ring
        _ = prec := by rw [h2, mul_one]
    have h5 : 0 < 2 * q ^ 2 * √(N / V) / 1 * √(2 / r) := by positivity
    calc 2 * q ^ 2 * √(N / V) / 1 * √(2 / r) * Real.exp (-(r / eta) ^ 2 / 2)
        < 2 * q ^ 2 * √(N / V) / 1 * √(2 / r) * 1 := mul_lt_mul_of_pos_left h1 h5
      _ ≤ prec := by rw [mul_one]; exact h4

/-- Method 1 without a given cutoff. Both loops always end. Both estimated errors are equal and at most
the precision, up to a relative error of `2 · 10⁻¹⁰`. The width is not smaller than any width of the
charges. If it is not the largest of them the errors are not smaller than asked for, and the width
balances the two sums. Missing: the estimates are those for `four_pi_epsilon 1`. -/
theorem C96_optimal_partial {cE cL prec q V : ℝ} {N : ℕ} {widths : List ℝ} (hp : 0 < prec) (hq : q ≠ 0)
    (hV : 0 < V) (hN : 0 < N) :
    ∃ E F, EwaldSetup.init.setup false cE cL widths (some "1".toList) (some [prec, q]) = .ok E ∧
      E.calculateParameters V N = (F, none) ∧ F.params.Usable ∧
      realSpaceError q 1 V N F.params.eta F.params.rCut = kSpaceError q 1 V N F.params.eta F.params.kCut ∧
      realSpaceError q 1 V N F.params.eta F.params.rCut ≤ prec * (1 + 2 / 10 ^ 10) ∧
      (∀ w ∈ widths, w ≤ F.params.eta) ∧
      (F.params.eta ∈ widths ∨
        (prec * (1 - 1 / 10 ^ 10) ≤ realSpaceError q 1 V N F.params.eta F.params.rCut ∧
          F.params.eta ^ 6
            = V ^ 2 / (3.676 * (2 * Real.pi) ^ 3) * (1 + (F.params.eta / F.params.rCut) ^ 2))) := by
  have hE := setup_optEta (cE := cE) (cL := cL) (q := q) (widths := widths) hp
  have h := calculateParameters_new (E := ⟨⟨0, 0, 0⟩, .kolafaPerram, ⟨prec, q, maxWidth false cL widths, 1⟩,
        some (TruncImpl.new .kolafaOptEta)⟩) (N := N) rfl hV
  have hNV : 0 < √((N : ℝ) / V) := by have : (0 : ℝ) < N := by exact_mod_cast hN
                                      positivity
  have hq2 : 0 < q ^ 2 := by positivity
  have hC : 0 < 2 ^ (3 / 4 : ℝ) * q ^ 2 * √(N / V) / 1 := by positivity
  have hCe : optC ⟨prec, q, maxWidth false cL widths, 1⟩ V N = 2 ^ (3 / 4 : ℝ) * q ^ 2 * √(N / V) / 1 := rfl
  obtain ⟨t, old, ht, ho, hs, heta, hn, h1, h2, h3⟩ := calculateEta_ok hp hC hV
  have hnew : newParameters .kolafaOptEta ⟨prec, q, maxWidth false cL widths, 1⟩ V N ⟨0, 0, 0⟩
      = (⟨max t.eta (maxWidth false cL widths), √2 * max t.eta (maxWidth false cL widths) * t.s,
          √2 * t.s / max t.eta (maxWidth false cL widths)⟩, none) := by
    unfold newParameters optEtaParameters
    simp only [hCe]
    rw [if_neg hC.ne', ht]
  rw [hnew] at h
  have hmw := maxWidth_spec cL widths
  set eta' := max t.eta (maxWidth false cL widths) with heta'
  have hge : t.eta ≤ eta' := le_max_left _ _
  have hpos' : 0 < eta' := lt_of_lt_of_le heta hge
  obtain ⟨g1, g2, g3⟩ := optEta_errors hq one_pos hV hN hs heta hge ho hp h1 h2 h3
  refine ⟨_, _, hE, h, ⟨hpos', ?_, ?_⟩, g1, ?_, ?_, ?_⟩
  · show 0 < √2 * eta' * t.s
    positivity
  · show 0 < √2 * t.s / eta'
    positivity
  · have : 2 * acceptError = 2 / 10 ^ 10 := by unfold acceptError; ring
    rw [← this]; exact g2
  · intro w hw
    exact le_trans (hmw.2 w hw) (le_max_right _ _)
  · by_cases hle : maxWidth false cL widths ≤ t.eta
    · have heq : eta' = t.eta := max_eq_left hle
      refine Or.inr ⟨g3 heq, ?_⟩
      show eta' ^ 6 = V ^ 2 / (3.676 * (2 * Real.pi) ^ 3) * (1 + (eta' / (√2 * eta' * t.s)) ^ 2)
      have hpi := Real.pi_pos
      have e1 : (eta' / (√2 * eta' * t.s)) ^ 2 = 1 / (2 * t.s ^ 2) := by
        have : eta' / (√2 * eta' * t.s) = 1 / (√2 * t.s) := by field_simp
        rw [this, div_pow, mul_pow, Real.sq_sqrt (by norm_num)]; norm_num
      have six : ∀ x : ℝ, 0 < x → (x ^ (1 / 6 : ℝ)) ^ 6 = x := by
        intro x hx
        rw [← Real.rpow_natCast, ← Real.rpow_mul hx.le]; norm_num
      rw [e1, heq, hn, nextEta, mul_pow, six _ (by positivity), optEta0, six _ (by
        unfold trOverTk; positivity)]
      unfold trOverTk
      congr 1
      field_simp
    · refine Or.inl ?_
      push Not at hle
      have heq : eta' = maxWidth false cL widths := max_eq_right hle.le
      show eta' ∈ widths
      rw [heq]
      have : ∀ (l : List ℝ) (a : ℝ),
          l.foldl (fun m w => max (if false = true then w * cL else w) m) a = a ∨
          l.foldl (fun m w => max (if false = true then w * cL else w) m) a ∈ l := by
        intro l
        induction l with
        | nil => intro a; exact Or.inl rfl
        | cons v l ih =>
          intro a
          simp only [List.foldl_cons, Bool.false_eq_true, if_false]
          rcases ih (max v a) with h' | h'
          · simp only [Bool.false_eq_true, if_false] at h'
            rw [h']
            rcases max_choice v a with hm | hm
            · right; rw [hm]; exact List.mem_cons_self
            · left; exact hm
          · right
            simp only [Bool.false_eq_true, if_false] at h'
            exact List.mem_cons_of_mem _ h'
      rcases this widths 0 with h0 | h0
      · have h0 : maxWidth false cL widths = 0 := h0
        rw [h0] at hle; linarith
      · exact h0

/-! ### Any setup -/

/-- What the setup gives: no method, or a new object. -/
theorem setup_impl {norm : Bool} {cE cL : ℝ} {widths : List ℝ} {method : Option Str}
    {args : Option (List ℝ)} {E : EwaldSetup}
    (hE : EwaldSetup.init.setup norm cE cL widths method args = .ok E) :
    E.truncImpl = none ∨ ∃ c, E.truncImpl = some (TruncImpl.new c) := by
  have hch : (EwaldSetup.init.chooseMethod method).truncImpl = none := by
    unfold EwaldSetup.chooseMethod
    cases method with
    | none => rfl
    | some t => simp only; split_ifs <;> rfl
  cases args with
  | none =>
    unfold EwaldSetup.setup at hE
    simp only at hE
    split_ifs at hE
    rw [← Except.ok.inj hE]; exact Or.inl hch
  | some a =>
    unfold EwaldSetup.setup at hE
    simp only at hE
    cases hr : (EwaldSetup.init.chooseMethod method).readFromArgs a with
    | error e => rw [hr] at hE; exact absurd hE (by simp)
    | ok F =>
      rw [hr] at hE
      have hF : F.truncImpl = none ∨ ∃ c, F.truncImpl = some (TruncImpl.new c) := by
        unfold EwaldSetup.readFromArgs at hr
        split_ifs at hr
        rw [← Except.ok.inj hr]
        unfold EwaldSetup.readRest
        split
        · exact Or.inr ⟨_, rfl⟩
        · exact Or.inr ⟨_, rfl⟩
        · exact Or.inr ⟨_, rfl⟩
        · exact Or.inl hch
      have hE := Except.ok.inj hE
      cases norm with
      | false => rw [← hE]; exact hF
      | true =>
        rw [← hE]
        simp only [if_true]
        unfold EwaldSetup.toNormalizedUnits
        split_ifs <;> exact hF

/-- The parameters do not depend on the structures handled before: those of the last structure are the
ones found if it is the only structure. -/
theorem C96_history {norm : Bool} {cE cL V : ℝ} {N : ℕ} {widths : List ℝ} {method : Option Str}
    {args : Option (List ℝ)} {E F G : EwaldSetup} {l : List (ℝ × ℕ)}
    (hE : EwaldSetup.init.setup norm cE cL widths method args = .ok E) (hl : E.Handles l F) (hV : 0 < V)
    (hF : F.calculateParameters V N = (G, none)) :
    (E.calculateParameters V N).2 = none ∧ (E.calculateParameters V N).1.params = G.params := by
  rcases setup_impl hE with h | ⟨c, h⟩
  · have hn : ∀ V N, (E.calculateParameters V N).2 = some .undefinedMethod := by
      intro V N; unfold EwaldSetup.calculateParameters; rw [h]
    have hEF : F = E := by
      cases hl with
      | nil => rfl
      | @cons _ _ _ V1 N1 _ hV h' _ => have := hn V1 N1; rw [h'] at this; exact absurd this (by simp)
    rw [hEF] at hF
    have := hn V N; rw [hF] at this; exact absurd this (by simp)
  · have h1 := (Follows_step (Follows_list (Follows_start h) hl) hV hF).2
    rw [calculateParameters_new h hV, h1]
    exact ⟨rfl, rfl⟩

/-- Normalised units: setup and structure converted to other units of energy and length give the same
error, if there is one, and otherwise the same parameters in the other unit of length. -/
theorem C96_units {cE cL V : ℝ} {N : ℕ} {widths : List ℝ} {method : Option Str} {args : Option (List ℝ)}
    {E : EwaldSetup} (hcE : 0 < cE) (hcL : 0 < cL)
    (hE : EwaldSetup.init.setup false cE cL widths method args = .ok E) (hV : 0 < V) :
    ∃ E', EwaldSetup.init.setup true cE cL widths method args = .ok E' ∧
      (E'.calculateParameters (cL ^ 3 * V) N).2 = (E.calculateParameters V N).2 ∧
      (E.calculateParameters V N).1.params.InUnit (E'.calculateParameters (cL ^ 3 * V) N).1.params cL := by
  have hV' : 0 < cL ^ 3 * V := by positivity
  have hunit : ∀ p : EwaldParameters, p.InUnit (p.inUnit' cL) cL := fun p =>
    ⟨rfl, rfl, by simp only [EwaldParameters.inUnit']; field_simp⟩
  have hzero : (⟨0, 0, 0⟩ : EwaldParameters).inUnit' cL = ⟨0, 0, 0⟩ := by
    unfold EwaldParameters.inUnit'; simp
  have none_case : ∀ E E' : EwaldSetup, E.truncImpl = none → E'.truncImpl = none →
      E'.params = E.params.inUnit' cL →
      (E'.calculateParameters (cL ^ 3 * V) N).2 = (E.calculateParameters V N).2 ∧
      (E.calculateParameters V N).1.params.InUnit (E'.calculateParameters (cL ^ 3 * V) N).1.params cL := by
    intro E E' h h' hp
    unfold EwaldSetup.calculateParameters
    rw [h, h']
    refine ⟨rfl, ?_⟩
    show E.params.InUnit E'.params cL
    rw [hp]; exact hunit _
  have some_case : ∀ (E E' : EwaldSetup) (c : TruncClass), E.truncImpl = some (TruncImpl.new c) →
      E'.truncImpl = some (TruncImpl.new c) →
      newParameters c E'.sett (cL ^ 3 * V) N E'.params
        = ((newParameters c E.sett V N E.params).1.inUnit' cL, (newParameters c E.sett V N E.params).2) →
      (E'.calculateParameters (cL ^ 3 * V) N).2 = (E.calculateParameters V N).2 ∧
      (E.calculateParameters V N).1.params.InUnit (E'.calculateParameters (cL ^ 3 * V) N).1.params cL := by
    intro E E' c h h' hp
    rw [calculateParameters_new h hV, calculateParameters_new h' hV', hp]
    exact ⟨rfl, hunit _⟩
  have hinit : EwaldSetup.init.params = ⟨0, 0, 0⟩ := rfl
  have hch : (EwaldSetup.init.chooseMethod method) = EwaldSetup.init ∨
      (EwaldSetup.init.chooseMethod method) = { EwaldSetup.init with truncMethod := .kolafaPerram } := by
    unfold EwaldSetup.chooseMethod
    cases method with
    | none => exact Or.inl rfl
    | some t =>
      simp only
      split_ifs
      · exact Or.inl rfl
      · exact Or.inr rfl
      · exact Or.inl rfl
  cases args with
  | none =>
    unfold EwaldSetup.setup at hE ⊢
    simp only at hE ⊢
    split_ifs at hE ⊢ with hk
    refine ⟨_, rfl, ?_⟩
    rw [← Except.ok.inj hE]
    rcases hch with h | h
    · rw [h]; exact none_case _ _ rfl rfl (by rw [hinit, hzero])
    · rw [h] at hk; exact absurd rfl hk
  | some a =>
    unfold EwaldSetup.setup at hE ⊢
    simp only at hE ⊢
    cases hr : (EwaldSetup.init.chooseMethod method).readFromArgs a with
    | error e => rw [hr] at hE; exact absurd hE (by simp)
    | ok F =>
      rw [hr] at hE
      simp only at hE ⊢
      refine ⟨_, rfl, ?_⟩
      rw [← Except.ok.inj hE]
      simp only [if_true, Bool.false_eq_true, if_false]
      unfold EwaldSetup.readFromArgs at hr
      split_ifs at hr with hk hp
      have hF := Except.ok.inj hr
      rcases hch with h | h
      · rw [h] at hF
        rw [← hF]
        unfold EwaldSetup.readRest EwaldSetup.toNormalizedUnits
        simp only [EwaldSetup.init]
        refine some_case _ _ .jackson rfl rfl ?_
        have := jacksonParameters_unit (S := ⟨a.headD 0, 1, maxWidth false cL widths, 1⟩)
          (p := ⟨0, 0, 0⟩) (w := maxWidth true cL widths) hcL hV
        rw [hzero] at this
        exact this
      · rw [h] at hF hk
        have hw := maxWidth_unit hcL widths cL
        rw [← hF]
        have hsett : ∀ x q : ℝ, EwaldSettings.inUnits ⟨x, q, maxWidth false cL widths, 1⟩ cE cL
            = ⟨x * (cE / cL), q, maxWidth true cL widths, 1 / (cL * cE)⟩ := by
          intro x q; unfold EwaldSettings.inUnits; simp only; rw [hw]
        have hnorm : ∀ p : EwaldParameters, p.toNormalizedUnits cL = p.inUnit' cL := by
          intro p
          unfold EwaldParameters.toNormalizedUnits EwaldParameters.toPhysicalUnits EwaldParameters.inUnit'
          congr 1
          · field_simp
          · field_simp
          · rw [mul_one_div]
        match a, hk with
        | [], hk => exact absurd hk (by simp [argConsistent])
        | [x], _ =>
          refine none_case _ _ rfl rfl ?_
          show EwaldParameters.toNormalizedUnits ⟨0, 0, 0⟩ cL = _
          exact hnorm _
        | [x, q], _ =>
          refine some_case _ _ .kolafaOptEta rfl rfl ?_
          show optEtaParameters ⟨x * (cE / cL), q, maxWidth true cL widths, 1 / (cL * cE)⟩ (cL ^ 3 * V) N
              (EwaldParameters.toNormalizedUnits ⟨0, 0, 0⟩ cL) = _
          rw [hnorm, ← hsett]
          exact optEtaParameters_unit hcE hcL hV
        | [x, q, r], _ =>
          refine some_case _ _ .kolafaFixR rfl rfl ?_
          show fixRParameters ⟨x * (cE / cL), q, maxWidth true cL widths, 1 / (cL * cE)⟩ (cL ^ 3 * V) N
              (EwaldParameters.toNormalizedUnits ⟨0, r, 0⟩ cL) = _
          rw [hnorm, ← hsett]
          exact fixRParameters_unit hcE hcL
        | _ :: _ :: _ :: _ :: _, hk =>
          exact absurd hk (by simp [argConsistent])

/-- Which settings are accepted: with method 0 exactly one argument, with method 1 one to three, and a
positive precision. -/
theorem C96_accepted {norm : Bool} {cE cL : ℝ} {widths a : List ℝ} :
    ((∃ E, EwaldSetup.init.setup norm cE cL widths (some "0".toList) (some a) = .ok E) ↔
      ∃ prec, 0 < prec ∧ a = [prec]) ∧
    ((∃ E, EwaldSetup.init.setup norm cE cL widths (some "1".toList) (some a) = .ok E) ↔
      ∃ prec, 0 < prec ∧ (a = [prec] ∨ (∃ q, a = [prec, q]) ∨ ∃ q r, a = [prec, q, r])) := by
  have key : ∀ method, (∃ E, EwaldSetup.init.setup norm cE cL widths method (some a) = .ok E) ↔
      argConsistent (EwaldSetup.init.chooseMethod method).truncMethod a.length ∧ 0 < a.headD 0 := by
    intro method
    unfold EwaldSetup.setup EwaldSetup.readFromArgs
    simp only
    by_cases h1 : argConsistent (EwaldSetup.init.chooseMethod method).truncMethod a.length
    · rw [if_neg (not_not.mpr h1)]
      by_cases h2 : a.headD 0 ≤ 0
      · rw [if_pos h2]
        constructor
        · rintro ⟨E, hE⟩; exact absurd hE (by simp)
        · rintro ⟨_, h3⟩; linarith
      · rw [if_neg h2]
        push Not at h2
        exact ⟨fun _ => ⟨h1, h2⟩, fun _ => ⟨_, rfl⟩⟩
    · rw [if_pos h1]
      constructor
      · rintro ⟨E, hE⟩; exact absurd hE (by simp)
      · rintro ⟨h3, _⟩; exact absurd h3 h1
  refine ⟨(key _).trans ?_, (key _).trans ?_⟩
  · show a.length = 1 ∧ _ ↔ _
    constructor
    · rintro ⟨h1, h2⟩
      obtain ⟨x, rfl⟩ := List.length_eq_one_iff.mp h1
      exact ⟨x, h2, rfl⟩
    · rintro ⟨x, h, rfl⟩; exact ⟨rfl, h⟩
  · show (1 ≤ a.length ∧ a.length ≤ 3) ∧ _ ↔ _
    constructor
    · rintro ⟨h1, h2⟩
      match a, h1, h2 with
      | [], h1, _ => simp at h1
      | [x], _, h2 => exact ⟨x, h2, Or.inl rfl⟩
      | [x, q], _, h2 => exact ⟨x, h2, Or.inr (Or.inl ⟨q, rfl⟩)⟩
      | [x, q, r], _, h2 => exact ⟨x, h2, Or.inr (Or.inr ⟨q, r, rfl⟩)⟩
      | _ :: _ :: _ :: _ :: _, h1, _ => simp only [List.length_cons] at h1; omega
    · rintro ⟨x, h, rfl | ⟨q, rfl⟩ | ⟨q, r, rfl⟩⟩ <;> exact ⟨by simp, h⟩

/-- The parameters are printed once, in physical units: not again until they have changed. -/
theorem C96_printed {E : EwaldSetup} {c : TruncClass} {cL V : ℝ} {N : ℕ} {b : Bool}
    (hE : E.truncImpl = some ⟨c, V, N, b⟩) {V' : ℝ} {N' : ℕ}
    (hnew : V' ≠ V) {F : EwaldSetup} (hF : E.calculateParameters V' N' = (F, none)) (hcL : 0 < cL) :
    ∃ p G, F.logEwaldCutoffs cL = .ok (G, some p) ∧ p.InUnit F.params cL ∧ G.params = F.params ∧
      G.calculateParameters V' N' = (G, none) ∧ G.logEwaldCutoffs cL = .ok (G, none) := by
  unfold EwaldSetup.calculateParameters at hF
  rw [hE] at hF
  have hn : (⟨c, V, N, b⟩ : TruncImpl).newCutoffs V' N' := by
    unfold TruncImpl.newCutoffs
    cases c
    · exact hnew
    · exact Or.inl hnew
    · exact Or.inl hnew
  simp only at hF
  rw [if_pos hn] at hF
  have hF := (Prod.mk.inj hF).1
  have hi : F.truncImpl = some ⟨c, V', N', false⟩ := by rw [← hF]
  refine ⟨F.params.toPhysicalUnits cL, { F with truncImpl := some ⟨c, V', N', true⟩ }, ?_, ?_, rfl, ?_, ?_⟩
  · unfold EwaldSetup.logEwaldCutoffs; rw [hi]; rfl
  · unfold EwaldParameters.toPhysicalUnits
    exact ⟨by field_simp, by field_simp, by ring⟩
  · unfold EwaldSetup.calculateParameters
    simp only
    rw [if_neg]
    unfold TruncImpl.newCutoffs
    cases c <;> simp
  · unfold EwaldSetup.logEwaldCutoffs; rfl

/-! ### Where the code does not do what its user expects -/

/-- Settings which are accepted although no periodic structure can be handled, and printing the cutoffs
(nnp-predict always does) dereferences a null pointer: no line `ewald_prec` with method 0, one argument with
method 1. -/
theorem C96_unusable {norm : Bool} {cE cL prec : ℝ} {widths : List ℝ} (hp : 0 < prec)
    {method : Option Str} {args : Option (List ℝ)}
    (h : (args = none ∧ (method = none ∨ method = some "0".toList)) ∨
      (args = some [prec] ∧ method = some "1".toList)) :
    ∃ E, EwaldSetup.init.setup norm cE cL widths method args = .ok E ∧
      (∀ V N, E.calculateParameters V N = (E, some .undefinedMethod)) ∧
      ∀ c, E.logEwaldCutoffs c = .error .nullPointer := by
  have hno : ∀ E : EwaldSetup, E.truncImpl = none →
      (∀ V N, E.calculateParameters V N = (E, some .undefinedMethod)) ∧
      ∀ c, E.logEwaldCutoffs c = .error .nullPointer := by
    intro E hE
    refine ⟨fun V N => ?_, fun c => ?_⟩
    · unfold EwaldSetup.calculateParameters; rw [hE]
    · unfold EwaldSetup.logEwaldCutoffs; rw [hE]
  rcases h with ⟨rfl, hm⟩ | ⟨rfl, rfl⟩
  · refine ⟨EwaldSetup.init, ?_, hno _ rfl⟩
    rcases hm with rfl | rfl <;> rfl
  · cases norm with
    | false =>
      refine ⟨⟨⟨0, 0, 0⟩, .kolafaPerram, ⟨prec, 1, maxWidth false cL widths, 1⟩, none⟩, ?_, hno _ rfl⟩
      show (match ({ EwaldSetup.init with truncMethod := .kolafaPerram }).readFromArgs [prec] with
        | .error e => _ | .ok F => _) = _
      rw [(kolafa_args (q := 0) (r := 0) hp).2.2]
      rfl
    | true =>
      refine ⟨(⟨⟨0, 0, 0⟩, .kolafaPerram, ⟨prec, 1, maxWidth true cL widths, 1⟩, none⟩ :
        EwaldSetup).toNormalizedUnits cE cL, ?_, hno _ rfl⟩
      show (match ({ EwaldSetup.init with truncMethod := .kolafaPerram }).readFromArgs [prec] with
        | .error e => _ | .ok F => _) = _
      rw [(kolafa_args (q := 0) (r := 0) hp).2.2]
      rfl

/-- Any other text than "0" and "1" is accepted as method and means method 0. -/
theorem C96_method {norm : Bool} {cE cL : ℝ} {widths : List ℝ} {text : Str} {args : Option (List ℝ)}
    (h : text ≠ "1".toList) :
    EwaldSetup.init.setup norm cE cL widths (some text) args
      = EwaldSetup.init.setup norm cE cL widths none args := by
  have : EwaldSetup.init.chooseMethod (some text) = EwaldSetup.init.chooseMethod none := by
    unfold EwaldSetup.chooseMethod
    simp only
    rw [if_neg h]
    split_ifs <;> rfl
  unfold EwaldSetup.setup
  rw [this]

/-- An error is reported only once: the same structure again is accepted, with parameters which are all
zero. -/
theorem C96_error_once {norm : Bool} {cE cL prec V : ℝ} {N : ℕ} {widths : List ℝ} (hp : 1 ≤ prec)
    (hV : 0 < V) :
    ∃ E F, EwaldSetup.init.setup norm cE cL widths none (some [prec]) = .ok E ∧
      E.calculateParameters V N = (F, some .jacksonPrecision) ∧
      F.calculateParameters V N = (F, none) ∧ F.params = ⟨0, 0, 0⟩ := by
  obtain ⟨E, hE, hi, hpr, hpa, hs⟩ := setup_jackson (norm := norm) (cE := cE) (cL := cL) (widths := widths)
    (method := none) (Or.inl rfl) (lt_of_lt_of_le one_pos hp)
  have hc : newParameters .jackson E.sett V N E.params = (E.params, some .jacksonPrecision) := by
    unfold newParameters jacksonParameters
    simp only
    rw [hpr, if_pos hp]
  have h := calculateParameters_new (N := N) hi hV
  rw [hc] at h
  refine ⟨E, _, hE, h, ?_, hpa⟩
  unfold EwaldSetup.calculateParameters
  simp only
  rw [if_neg]
  unfold TruncImpl.newCutoffs
  simp

/-- The keyword `four_pi_epsilon` is not taken into account: with the value `e` the estimated error is
not the precision but the precision divided by `e`. -/
theorem C96_epsilon {cE cL prec q r V e : ℝ} {N : ℕ} {widths : List ℝ} (hp : 0 < prec) (hq : q ≠ 0)
    (hr : 0 < r) (hV : 0 < V) (hN : 0 < N) {E F : EwaldSetup}
    (hE : EwaldSetup.init.setup false cE cL widths (some "1".toList) (some [prec, q, r]) = .ok E)
    (hF : E.calculateParameters V N = (F, none)) :
    realSpaceError q e V N F.params.eta F.params.rCut = prec / e := by
  obtain ⟨E', F', err, h1, h2, h3⟩ := C96_fixed_partial (cE := cE) (cL := cL) (widths := widths) hp hq hr
    hV hN
  rw [hE] at h1
  have := Except.ok.inj h1
  subst this
  rw [hF] at h2
  obtain ⟨rfl, rfl⟩ := Prod.mk.inj h2
  rcases h3 with ⟨h3, _⟩ | ⟨_, _, h4, h5, _⟩
  · exact absurd h3 (by simp)
  · rw [h4]
    rw [← h5]
    unfold realSpaceError
    ring

/-! ### Cases -/

/-- Method 0, two structures of different volume and the first one again. -/
example : ∃ E F, EwaldSetup.init.setup false 1 1 [1 / 2] none (some [1 / 10]) = .ok E ∧
    E.Handles [(8, 2), (27, 3), (8, 5)] F ∧ F.params.Usable := by
  obtain ⟨E, hE, hi, hpr, hpa, hs⟩ := setup_jackson (norm := false) (cE := 1) (cL := 1) (prec := 1 / 10)
    (widths := [1 / 2]) (method := none) (Or.inl rfl) (by norm_num)
  have ok : ∀ F : EwaldSetup, E.Follows F .jackson → ∀ (V : ℝ) (N : ℕ), 0 < V →
      ∃ G, F.calculateParameters V N = (G, none) ∧ E.Follows G .jackson ∧ G.params.Usable := by
    intro F hF V N hV
    obtain ⟨E', F', h1, h2, h3, -⟩ := C96_jackson (norm := false) (cE := 1) (cL := 1) (prec := 1 / 10)
      (widths := [1 / 2]) (method := none) (N := N) (Or.inl rfl) (by norm_num) (by norm_num) hV
    rw [hE] at h1
    have := Except.ok.inj h1
    subst this
    have h4 := calculateParameters_new (N := N) hi hV
    rw [h2] at h4
    have h5 : (newParameters .jackson E.sett V N E.params).2 = none := (Prod.mk.inj h4).2.symm
    have h6 : (F.calculateParameters V N).2 = none := by
      obtain ⟨g1, g2, V0, N0, b, g3, g4⟩ := hF
      unfold EwaldSetup.calculateParameters
      rw [g3]
      simp only
      split_ifs
      · simp only; rw [g1, (newParameters_congr g2).1]; exact h5
      · rfl
    have h7 : F.calculateParameters V N = ((F.calculateParameters V N).1, none) := by rw [← h6]
    have h8 := Follows_step hF hV h7
    refine ⟨_, h7, h8.1, ?_⟩
    have h9 : F'.params = (newParameters .jackson E.sett V N E.params).1 := by
      rw [(Prod.mk.inj h4).1]
    rw [h8.2] at h9
    have h9 : F'.params = (F.calculateParameters V N).1.params := h9
    rw [← h9]; exact h3
  obtain ⟨F1, a1, b1, -⟩ := ok E (Follows_start hi) 8 2 (by norm_num)
  obtain ⟨F2, a2, b2, -⟩ := ok F1 b1 27 3 (by norm_num)
  obtain ⟨F3, a3, b3, c3⟩ := ok F2 b2 8 5 (by norm_num)
  exact ⟨E, F3, hE, .cons (by norm_num) a1 (.cons (by norm_num) a2 (.cons (by norm_num) a3 (.nil _))), c3⟩

/-- Method 1, given cutoff: two charges in a cell of volume 8, precision 1/100, cutoff 2. -/
example : ∃ E F, EwaldSetup.init.setup false 1 1 [1 / 2] (some "1".toList) (some [1 / 100, 1, 2]) = .ok E ∧
    E.calculateParameters 8 2 = (F, none) ∧ F.params.rCut = 2 ∧
    realSpaceError 1 1 8 2 F.params.eta 2 = 1 / 100 := by
  obtain ⟨E, F, e, h1, h2, h3⟩ := C96_fixed_partial (cE := 1) (cL := 1) (prec := 1 / 100) (q := 1) (r := 2)
    (V := 8) (N := 2) (widths := [1 / 2]) (by norm_num) (by norm_num) (by norm_num) (by norm_num)
    (by norm_num)
  rcases h3 with ⟨_, h4⟩ | ⟨rfl, _, h5, h6, _⟩
  · exfalso
    have h5 := h4 2 (by norm_num)
    unfold realSpaceError at h5
    have e1 : √((2 : ℕ) / 8 : ℝ) = 1 / 2 := by
      rw [show ((2 : ℕ) / 8 : ℝ) = (1 / 2) ^ 2 by norm_num]
      exact Real.sqrt_sq (by norm_num)
    have e2 : √(2 / 2 : ℝ) = 1 := by norm_num
    rw [e1, e2] at h5
    have h6 : (1 / 2 : ℝ) ≤ Real.exp (-(2 / 2) ^ 2 / 2) := by
      have := Real.add_one_le_exp (-(2 / 2 : ℝ) ^ 2 / 2)
      linarith
    norm_num at h5 h6
    linarith
  · exact ⟨E, F, h1, h2, h5, h6⟩

/-- Method 1, optimal width, with charges as wide as 1/2 and 3/4. -/
example : ∃ E F, EwaldSetup.init.setup false 1 1 [1 / 2, 3 / 4] (some "1".toList) (some [1 / 100, 1]) = .ok E ∧
    E.calculateParameters 8 2 = (F, none) ∧ 3 / 4 ≤ F.params.eta := by
  obtain ⟨E, F, h1, h2, _, _, _, h3, _⟩ := C96_optimal_partial (cE := 1) (cL := 1) (prec := 1 / 100) (q := 1)
    (V := 8) (N := 2) (widths := [1 / 2, 3 / 4]) (by norm_num) (by norm_num) (by norm_num) (by norm_num)
  exact ⟨E, F, h1, h2, h3 _ (by simp)⟩

end N2P2
