import Verif.Lemma.SymFncOrder

/-! Validity of accepted parameter lines and change of the length unit. -/

namespace N2P2

theorem mkCutoff_configured {t : CutoffType} {rc α : ℝ} (h : 0 ≤ α ∧ α < 1) :
    (mkCutoff t rc α).Configured t rc α := by
  refine ⟨[.type t, .radius rc, .parameter α], ⟨⟨[], [.radius rc, .parameter α], rfl, ?_⟩,
    [.type t], [], [], rfl, ?_, ?_⟩, ?_⟩
  · simp
  · simp
  · simp
  · have : ¬ (α < 0 ∨ α ≥ 1) := by push Not; exact h
    cases t <;> simp [CutoffOp.run, CutoffOp.apply, CutoffFunction.setCutoffParameter, this,
      CutoffFunction.setCutoffRadius, CutoffFunction.setCutoffType, CutoffFunction.init,
      mkCutoff, coreOfCutoff] <;> norm_num

theorem mkCompact_configured {t : CoreType} {as : Bool} {l r : ℝ} (h : l < r) :
    (mkCompact ⟨t, as⟩ l r).Configured t as l r :=
  ⟨rfl, Or.inl ⟨⟨0, 0, 0, 0, 0, ⟨t, as⟩⟩, setLeftRight_some _ h⟩⟩

theorem SymFnc.Consistent.valid {E : SFEnv} {c α : ℝ} {t : CutoffType} {S : SymFnc}
    (h : S.Consistent E c t α) (hα : S.IsExp → 0 ≤ α ∧ α < 1) (hrc : 0 < S.rc)
    (hz : S.IsExp → S.IsAng → 0 < S.zeta ∧
      (|S.zeta - roundInt S.zeta| ≤ DBL_MIN → S.zeta = roundInt S.zeta)) : S.Valid where
  rc_pos := hrc
  fc hx := ⟨t, α, by rw [h.fc hx]; exact mkCutoff_configured (hα hx)⟩
  cr hx := by
    obtain ⟨h1, core, -, h3⟩ := h.cr hx
    exact ⟨core.1, core.2, by rw [h3]; exact mkCompact_configured h1⟩
  ca hx ha := by
    obtain ⟨h1, h2⟩ := h.ca hx ha
    exact ⟨_, false, by rw [h2]; exact mkCompact_configured h1⟩
  zeta hx ha := (hz hx ha).1
  pow hx ha hu := by
    obtain ⟨h1, h2, h3⟩ := h.zeta hx ha
    refine ⟨?_, ?_⟩
    · rw [h1]; exact (hz hx ha).2 (h3.1 hu)
    · rw [h1]; exact lt_of_le_of_lt (le_abs_self _) h2

/-! ### Change of the length unit -/

theorem norm_smul3 {c : ℝ} (hc : 0 ≤ c) (v : Vec3) : Vec3.norm (c • v) = c * Vec3.norm v := by
  simp only [Vec3.norm, Pi.smul_apply, smul_eq_mul]
  rw [show c * v 0 * (c * v 0) + c * v 1 * (c * v 1) + c * v 2 * (c * v 2) =
    c ^ 2 * (v 0 * v 0 + v 1 * v 1 + v 2 * v 2) by ring, Real.sqrt_mul (sq_nonneg _),
    Real.sqrt_sq hc]

/-- `T` is `S` with lengths given in another unit. -/
structure SymFnc.InUnits (c : ℝ) (S T : SymFnc) : Prop where
  kind : T.kind = S.kind
  e1 : T.e1 = S.e1
  e2 : T.e2 = S.e2
  eta : T.eta = S.eta / (c * c)
  rs : T.rs = S.rs * c
  rc : T.rc = S.rc * c
  rl : T.rl = S.rl * c
  lambda : T.lambda = S.lambda
  zeta : T.zeta = S.zeta
  left : T.angleLeftRadians = S.angleLeftRadians
  right : T.angleRightRadians = S.angleRightRadians
  ca : T.ca = S.ca
  atomicNumber : T.atomicNumber = S.atomicNumber
  fc : S.IsExp → ∀ r, T.fc.f (c * r) = S.fc.f r
  cr : ¬ S.IsExp → ∀ r, T.cr.f (c * r) = S.cr.f r
  cutoffType : S.IsExp → T.fc.cutoffType = S.fc.cutoffType
  sigma : T.sc.Gsigma = S.sc.Gsigma

theorem cosAngle_smul {c : ℝ} (hc : 0 < c) (u v : Vec3) :
    cosAngle (c • u) (c • v) = cosAngle u v := by
  unfold cosAngle
  rw [norm_smul3 hc.le, norm_smul3 hc.le]
  have : Vec3.dot (c • u) (c • v) = (c * c) * u.dot v := by
    simp only [Vec3.dot, Pi.smul_apply, smul_eq_mul]; ring
  rw [this, show c * u.norm * (c * v.norm) = (c * c) * (u.norm * v.norm) by ring,
    mul_div_mul_left _ _ (mul_pos hc hc).ne']

namespace SymFnc.InUnits

variable {c : ℝ} {S T : SymFnc}

theorem gauss (h : S.InUnits c T) (hc : 0 < c) (r : ℝ) : T.gauss (c * r) = S.gauss r := by
  unfold SymFnc.gauss
  rw [h.eta, h.rs]
  congr 1
  field_simp

theorem angularFactor (h : S.InUnits c T) (x : ℝ) : T.angularFactor x = S.angularFactor x := by
  unfold SymFnc.angularFactor
  rw [h.zeta, h.lambda]

theorem radial (h : S.InUnits c T) (hc : 0 < c) (hx : ¬ S.IsExp) (r : ℝ) :
    T.radial (c * r) = S.radial r := by
  unfold SymFnc.radial compact
  rw [h.rl, h.rc, h.cr hx, mul_comm S.rl, mul_comm S.rc]
  simp only [mul_lt_mul_iff_right₀ hc]

theorem angular (h : S.InUnits c T) (hc : 0 < c) (u v : Vec3) :
    T.angular (c • u) (c • v) = S.angular u v := by
  unfold SymFnc.angular
  rw [cosAngle_smul hc, h.left, h.right, h.ca]

theorem siteTerm (h : S.InUnits c T) (hc : 0 < c) (x : Site) :
    T.siteTerm ⟨x.element, c • x.dr⟩ = S.siteTerm x := by
  have hx := h.fc
  have hn := h.radial hc
  unfold IsExp at hx hn
  unfold SymFnc.siteTerm
  simp only [norm_smul3 hc.le, h.gauss hc, SymFnc.Z, h.atomicNumber, h.kind, h.e1]
  rcases hk : S.kind <;> simp [hk] at hx hn ⊢ <;> simp [hx, hn]

theorem pairTerm (h : S.InUnits c T) (hc : 0 < c) (x y : Site) :
    T.pairTerm ⟨x.element, c • x.dr⟩ ⟨y.element, c • y.dr⟩ = S.pairTerm x y := by
  have hx := h.fc
  have hn := h.radial hc
  unfold IsExp at hx hn
  unfold SymFnc.pairTerm
  simp only [norm_smul3 hc.le, h.gauss hc, SymFnc.Z, h.atomicNumber, h.kind, ← smul_sub,
    h.angular hc, cosAngle_smul hc, h.angularFactor, SymFnc.ofPair, h.e1, h.e2]
  rcases hk : S.kind <;> simp [hk] at hx hn ⊢ <;> simp [hx, hn]

theorem formula (h : S.InUnits c T) (hc : 0 < c) (env : List Site) :
    T.formula (scaleEnv c env) = S.formula env := by
  unfold SymFnc.formula scaleEnv
  congr 1
  · rw [List.map_map]
    congr 1
    exact List.map_congr_left fun x _ => h.siteTerm hc x
  · induction env with
    | nil => rfl
    | cons x xs ih =>
      simp only [List.map_cons, pairSum, List.map_map]
      rw [ih]
      congr 2
      exact List.map_congr_left fun y _ => h.pairTerm hc x y

end SymFnc.InUnits

theorem mkCutoff_scale {c : ℝ} (hc : 0 < c) (t : CutoffType) (rc α r : ℝ) :
    (mkCutoff t (rc * c) α).f (c * r) = (mkCutoff t rc α).f r := by
  have h1 : (c * r ≥ rc * c) ↔ (r ≥ rc) := by
    rw [mul_comm rc, ge_iff_le, ge_iff_le, mul_le_mul_iff_right₀ hc]
  have h2 : (c * r < rc * c * α) ↔ (r < rc * α) := by
    rw [show rc * c * α = c * (rc * α) by ring, mul_lt_mul_iff_right₀ hc]
  have h3 : (c * r - rc * c * α) * (1 / (rc * c - rc * c * α)) =
      (r - rc * α) * (1 / (rc - rc * α)) := by
    rw [show c * r - rc * c * α = c * (r - rc * α) by ring,
      show rc * c - rc * c * α = c * (rc - rc * α) by ring, mul_one_div, mul_one_div,
      mul_div_mul_left _ _ hc.ne']
  have h4 : c * r * (1 / (rc * c)) = r * (1 / rc) := by
    rw [mul_one_div, mul_one_div, mul_comm rc, mul_div_mul_left _ _ hc.ne']
  cases t <;> simp only [CutoffFunction.f, CutoffFunction.fInner, mkCutoff, h1, h2, h3, h4] <;>
    congr

theorem mkCompact_scale {c : ℝ} (hc : 0 < c) (core : CoreFunction) (l r x : ℝ) :
    (mkCompact core (l * c) (r * c)).f (c * x) = (mkCompact core l r).f x := by
  have : (c * x - (r * c + l * c) / 2) * (1 / ((r * c - l * c) / 2)) =
      (x - (r + l) / 2) * (1 / ((r - l) / 2)) := by
    rw [show c * x - (r * c + l * c) / 2 = c * (x - (r + l) / 2) by ring,
      show (r * c - l * c) / 2 = c * ((r - l) / 2) by ring, mul_one_div, mul_one_div,
      mul_div_mul_left _ _ hc.ne']
  simp only [CompactFunction.f, mkCompact, this]

/-- The function of a line after a change of the unit. -/
theorem SymFnc.SetUpFrom.inUnits {E : SFEnv} {c : ℝ} {t : CutoffType} {α : ℝ} {tok : List Str}
    {i j : ℕ} {S T : SymFnc} (hc : 0 < c) (hS : SymFnc.SetUpFrom E none t α tok i S)
    (hT : SymFnc.SetUpFrom E (some c) t α tok j T) : S.InUnits c T := by
  have cS := hS.consistent.1
  have cT := hT.consistent.1
  obtain ⟨S0, U, h1, h2, h3⟩ := hS
  obtain ⟨T0, V, k1, k2, k3⟩ := hT
  cases h2
  have e : T0 = S0 := by
    obtain ⟨ty, k, a1, a2, a3⟩ := h1
    obtain ⟨ty', k', b1, b2, b3⟩ := k1
    rw [a1] at b1; cases b1
    rw [a2] at b2; cases b2
    rw [a3] at b3; cases b3; rfl
  subst e
  by_cases hx : T0.IsExp
  · obtain ⟨-, rfl⟩ := setCutoffFunction_exp (S := T0.setIndex i) hx h3
    obtain ⟨-, rfl⟩ := changeLengthUnit_exp hx k2
    obtain ⟨-, rfl⟩ := setCutoffFunction_exp (by exact hx) k3
    refine ⟨rfl, rfl, rfl, rfl, rfl, rfl, ?_, rfl, rfl, rfl, rfl, rfl, rfl, fun _ r => ?_,
      fun hn => absurd hx hn, fun _ => ?_, rfl⟩
    · have := (FromLine.consistent h1).unusedExp hx
      simp only [SymFnc.setIndex, this.1, zero_mul]
    · rw [cS.fc hx, cT.fc hx]
      exact mkCutoff_scale hc t _ α r
    · rw [cS.fc hx, cT.fc hx]
      rfl
  · have e1 := setCutoffFunction_comp (S := T0.setIndex i) hx h3
    subst e1
    obtain ⟨-, rfl⟩ := changeLengthUnit_comp hx k2
    have e2 := setCutoffFunction_comp (by exact hx) k3
    subst e2
    have hu := (FromLine.consistent h1).unusedComp hx
    refine ⟨rfl, rfl, rfl, ?_, ?_, rfl, rfl, rfl, rfl, rfl, rfl, rfl, rfl, fun hn => absurd hn hx,
      fun _ r => ?_, fun hn => absurd hn hx, rfl⟩
    · simp only [SymFnc.setIndex, hu.1, zero_div]
    · simp only [SymFnc.setIndex, hu.2.1, zero_mul]
    · obtain ⟨-, core, a2, a3⟩ := (FromLine.consistent h1).cr hx
      have := mkCompact_scale hc ⟨core.1, core.2⟩ T0.rl T0.rc r
      simp only [SymFnc.setIndex, a3]
      exact this

theorem changeLengthUnit_lt {c : ℝ} (hc : 0 < c) {S T S' T' : SymFnc}
    (hS : S.sc.type = S.kind.number) (hT : T.sc.type = T.kind.number)
    (h : S.changeLengthUnit c = some S') (h' : T.changeLengthUnit c = some T') :
    S'.lt T' ↔ S.lt T := by
  have hcc := mul_pos hc hc
  by_cases hk : T.kind = S.kind
  · by_cases hx : S.IsExp
    · have hxT : T.IsExp := by unfold SymFnc.IsExp; rw [hk]; exact hx
      obtain ⟨-, rfl⟩ := changeLengthUnit_exp hx h
      obtain ⟨-, rfl⟩ := changeLengthUnit_exp hxT h'
      unfold SymFnc.lt SymFnc.lexStep
      simp only [mul_lt_mul_iff_left₀ hc, div_lt_div_iff_of_pos_right hcc]
    · have hxT : ¬ T.IsExp := by unfold SymFnc.IsExp; rw [hk]; exact hx
      obtain ⟨-, rfl⟩ := changeLengthUnit_comp hx h
      obtain ⟨-, rfl⟩ := changeLengthUnit_comp hxT h'
      unfold SymFnc.IsExp at hx
      unfold SymFnc.lt SymFnc.lexStep
      rcases hk' : S.kind <;> simp [hk'] at hx <;> simp only [mul_lt_mul_iff_left₀ hc]
  · have hty : S.sc.type ≠ T.sc.type := by
      rw [hS, hT]; exact fun e => hk (number_injective e.symm)
    have key : ∀ A B : SymFnc, A.sc.ec = S.sc.ec → A.sc.type = S.sc.type → B.sc.ec = T.sc.ec →
        B.sc.type = T.sc.type → (A.lt B ↔ S.sc.ec < T.sc.ec ∨ (¬ T.sc.ec < S.sc.ec ∧
          S.sc.type < T.sc.type)) := by
      intro A B h1 h2 h3 h4
      unfold SymFnc.lt SymFnc.lexStep
      rw [h1, h2, h3, h4]
      have : ∀ P : Prop, (S.sc.type < T.sc.type ∨ ¬ T.sc.type < S.sc.type ∧ P) ↔
          S.sc.type < T.sc.type := by
        intro P
        constructor
        · rintro (h | ⟨h, -⟩)
          · exact h
          · omega
        · exact Or.inl
      rw [this]
    have hsc : ∀ {A B : SymFnc}, A.changeLengthUnit c = some B → B.sc = A.sc := by
      intro A B hAB
      by_cases hx : A.IsExp
      · obtain ⟨-, rfl⟩ := changeLengthUnit_exp hx hAB; rfl
      · obtain ⟨-, rfl⟩ := changeLengthUnit_comp hx hAB; rfl
    rw [key S T rfl rfl rfl rfl, key S' T' (by rw [hsc h]) (by rw [hsc h]) (by rw [hsc h'])
      (by rw [hsc h'])]

/-- Setting up the same lines with another unit of length gives the same functions in the other
unit, in the same order. -/
theorem setupSymmetryFunctions_units {E : SFEnv} {lines : List (List Str)} {c : ℝ}
    {t : CutoffType} {α : ℝ} {Ts Ts' : List SymFnc} (hc : 0 < c)
    (h : SetupSymmetryFunctions E lines none t α Ts)
    (h' : SetupSymmetryFunctions E lines (some c) t α Ts') :
    List.Forall₂ (SymFnc.InUnits c) Ts Ts' := by
  obtain ⟨Ss, Us, Vs, h1, h2, ⟨l, hl, hs, rfl⟩, h4⟩ := h
  obtain ⟨Ss', Us', Vs', h1', h2', ⟨l', hl', hs', rfl⟩, h4'⟩ := h'
  cases h2
  rw [h1] at h1'
  cases h1'
  obtain ⟨_, e, hadd⟩ := addSymmetryFunction_forall2 h1
  simp only [List.nil_append] at e
  subst e
  have hch := mapM_forall2 h2'
  -- the changed functions in the order of `l`
  obtain ⟨k, hk1, hk2⟩ : ∃ k : List SymFnc,
      List.Forall₂ (fun S U : SymFnc => S.changeLengthUnit c = some U) l k ∧ k.Perm Us' :=
    (List.forall₂_comp_perm_eq_perm_comp_forall₂ (r := fun S U : SymFnc =>
      S.changeLengthUnit c = some U)).ge l Us' ⟨Ss, hl, hch⟩
  have hline : ∀ S ∈ Ss, ∃ tok, SymFnc.FromLine E tok S := by
    intro S hS
    obtain ⟨i, hi, rfl⟩ := List.getElem_of_mem hS
    exact ⟨_, (List.forall₂_iff_get.1 hadd).2 i (by rw [hadd.length_eq]; exact hi) hi⟩
  have hUs : ∀ U ∈ Us', U.Consistent E c .HARD 0 ∧ U.sc.index = 0 := by
    intro U hU
    obtain ⟨i, hi, rfl⟩ := List.getElem_of_mem hU
    have a2 := (List.forall₂_iff_get.1 hch).2 i (by rw [hch.length_eq]; exact hi) hi
    obtain ⟨tok, a4⟩ := hline _ (List.get_mem Ss ⟨i, by rw [hch.length_eq]; exact hi⟩)
    have a3 := FromLine.consistent' a4
    refine ⟨a3.1.change a2, ?_⟩
    generalize Ss.get ⟨i, _⟩ = S at a2 a3
    by_cases hx : S.IsExp
    · exact (congrArg (fun U : SymFnc => U.sc.index) (changeLengthUnit_exp hx a2).2).trans a3.2
    · exact (congrArg (fun U : SymFnc => U.sc.index) (changeLengthUnit_comp hx a2).2).trans a3.2
  have hks : k.Pairwise fun S T => ¬ T.lt S := by
    have hty : ∀ S ∈ l, S.sc.type = S.kind.number := fun S hS => by
      obtain ⟨tok, a⟩ := hline S (hl.mem_iff.1 hS)
      exact (FromLine.consistent a).type
    clear hl hk2 h4
    induction hk1 with
    | nil => exact .nil
    | @cons S U l k hSU hlk ih =>
      rw [List.pairwise_cons] at hs ⊢
      refine ⟨fun V hV => ?_, ih hs.2 fun S hS => hty S (List.mem_cons_of_mem _ hS)⟩
      obtain ⟨i, hi, rfl⟩ := List.getElem_of_mem hV
      have hi' : i < l.length := by rw [hlk.length_eq]; exact hi
      have a2 := (List.forall₂_iff_get.1 hlk).2 i hi' hi
      simp only [List.get_eq_getElem] at a2
      rw [changeLengthUnit_lt hc (hty _ (List.mem_cons_of_mem _ (List.getElem_mem hi')))
        (hty S (List.mem_cons_self ..)) a2 hSU]
      exact hs.1 _ (List.getElem_mem hi')
  have hkl : k = l' := sorted_unique hUs (hk2.trans (List.Perm.refl _)) hl' hks hs'
  subst hkl
  have b1 := mapM_forall2 h4
  have b2 := mapM_forall2 h4'
  have n1 : l.length = Ts.length := by rw [← b1.length_eq]; simp
  have n2 : l.length = Ts'.length := by rw [hk1.length_eq, ← b2.length_eq]; simp
  refine List.forall₂_iff_get.2 ⟨n1.symm.trans n2, fun i hi hi' => ?_⟩
  have m1 : i < l.length := by omega
  have m2 : i < k.length := by rw [← hk1.length_eq]; omega
  have c1 := (List.forall₂_iff_get.1 b1).2 i (by simpa using m1) hi
  have c2 := (List.forall₂_iff_get.1 b2).2 i (by simpa using m2) hi'
  have c3 := (List.forall₂_iff_get.1 hk1).2 i m1 m2
  simp only [List.get_eq_getElem, List.getElem_mapIdx] at c1 c2 c3 ⊢
  obtain ⟨tok, htok⟩ := hline _ (hl.mem_iff.1 (List.getElem_mem m1))
  exact SymFnc.SetUpFrom.inUnits (i := i) (j := i) hc ⟨_, _, htok, rfl, c1⟩ ⟨_, _, htok, c3, c2⟩

end N2P2
