import Verif.Lemma.CurveDeriv

/-! The derivatives added by the loops are the derivatives of the formulas. -/

namespace N2P2

/-- Derivative along a curve from the three prefactors. -/
def gradOf (p1 p2 p3 : ℝ) (u v U V : Vec3) : ℝ :=
  p1 * u.dot U + p2 * v.dot V - p3 * (v - u).dot (V - U)

theorem diff_dot (u v U V : Vec3) :
    (v - u).dot (V - U) = u.dot U + v.dot V - (U.dot v + u.dot V) := by
  simp [Vec3.dot]; ring

section Product

variable {u v : ℝ → Vec3} {U V : Vec3} {t : ℝ}

/-- Product of an angular part and functions of the two distances to the central atom. -/
theorem wide_deriv {A fi fk : ℝ → ℝ} {a' di dk : ℝ} (hu : HasDerivAt u U t) (hv : HasDerivAt v V t)
    (h : 0 < (u t).norm) (h' : 0 < (v t).norm)
    (hA : HasDerivAt A (a' * cosDeriv (u t) (v t) U V) t)
    (hi : HasDerivAt fi di (u t).norm) (hk : HasDerivAt fk dk (v t).norm) :
    HasDerivAt (fun s => A s * (fi (u s).norm * fk (v s).norm))
      (gradOf
        (fi (u t).norm * fk (v t).norm * a' * (1 / (u t).norm / (v t).norm
          - cosAngle (u t) (v t) / ((u t).norm * (u t).norm)) + A t * di * fk (v t).norm / (u t).norm)
        (fi (u t).norm * fk (v t).norm * a' * (1 / (u t).norm / (v t).norm
          - cosAngle (u t) (v t) / ((v t).norm * (v t).norm)) + A t * fi (u t).norm * dk / (v t).norm)
        (fi (u t).norm * fk (v t).norm * a' * (1 / (u t).norm / (v t).norm))
        (u t) (v t) U V) t := by
  have h1 := HasDerivAt.comp (h := fun s => (u s).norm) t hi (hasDerivAt_norm hu h)
  have h2 := HasDerivAt.comp (h := fun s => (v s).norm) t hk (hasDerivAt_norm hv h')
  refine HasDerivAt.congr_deriv (hA.mul (h1.mul h2)) ?_
  unfold gradOf cosDeriv
  rw [diff_dot]
  simp only [Function.comp_apply]
  generalize cosAngle (u t) (v t) = c
  ring

/-- The same with a function of the distance between the two neighbours. -/
theorem narrow_deriv {A fi fk fj : ℝ → ℝ} {a' di dk dj : ℝ} (hu : HasDerivAt u U t)
    (hv : HasDerivAt v V t) (h : 0 < (u t).norm) (h' : 0 < (v t).norm)
    (huv : 0 < (u t - v t).norm) (hA : HasDerivAt A (a' * cosDeriv (u t) (v t) U V) t)
    (hi : HasDerivAt fi di (u t).norm) (hk : HasDerivAt fk dk (v t).norm)
    (hj : HasDerivAt fj dj (u t - v t).norm) :
    HasDerivAt (fun s => A s * (fi (u s).norm * fk (v s).norm) * fj (u s - v s).norm)
      (gradOf
        (fj (u t - v t).norm * (fi (u t).norm * fk (v t).norm * a' * (1 / (u t).norm / (v t).norm
          - cosAngle (u t) (v t) / ((u t).norm * (u t).norm)) + A t * di * fk (v t).norm / (u t).norm))
        (fj (u t - v t).norm * (fi (u t).norm * fk (v t).norm * a' * (1 / (u t).norm / (v t).norm
          - cosAngle (u t) (v t) / ((v t).norm * (v t).norm)) + A t * fi (u t).norm * dk / (v t).norm))
        (fj (u t - v t).norm * (fi (u t).norm * fk (v t).norm * a' * (1 / (u t).norm / (v t).norm))
          - A t * fi (u t).norm * fk (v t).norm * dj / (u t - v t).norm)
        (u t) (v t) U V) t := by
  have hw := wide_deriv hu hv h h' hA hi hk
  have huv' : HasDerivAt (fun s => u s - v s) (U - V) t := hu.sub hv
  have h1 := HasDerivAt.comp (h := fun s => (u s - v s).norm) t hj (hasDerivAt_norm huv' huv)
  refine HasDerivAt.congr_deriv (hw.mul h1) ?_
  have e : (u t - v t).dot (U - V) = (v t - u t).dot (V - U) := by simp [Vec3.dot]; ring
  unfold gradOf
  rw [e]
  ring

end Product

/-! ### Factors -/

theorem SymFnc.Valid.fc_deriv {S : SymFnc} (h : S.Valid) (he : S.IsExp) {r : ℝ}
    (hr : S.fc.cutoffType = .HARD → r ≠ S.rc) :
    HasDerivAt (fun r => S.gauss r * S.fc.f r)
      (S.gauss r * (S.fc.df r - 2 * S.eta * (r - S.rs) * S.fc.f r)) r := by
  obtain ⟨k, α, hc⟩ := h.fc he
  have h1 := C14_derivative _ _ _ _ r hc h.rc_pos (fun e => hr (by rw [hc.cfg.type, e]))
  have h2 : HasDerivAt S.gauss (-2 * S.eta * (r - S.rs) * S.gauss r) r := by
    have h3 : HasDerivAt (fun r => -S.eta * (r - S.rs) ^ 2) (-S.eta * (2 * (r - S.rs))) r := by
      refine ((((hasDerivAt_id r).sub_const S.rs).pow 2).const_mul (-S.eta)).congr_deriv ?_
      simp
    refine HasDerivAt.congr_deriv h3.exp ?_
    unfold SymFnc.gauss
    ring
  refine HasDerivAt.congr_deriv (h2.mul h1) ?_
  ring

theorem SymFnc.Valid.fc_zero {S : SymFnc} (h : S.Valid) (he : S.IsExp) {r : ℝ} (hr : S.rc ≤ r) :
    S.fc.f r = 0 ∧ S.fc.df r = 0 := by
  obtain ⟨k, α, hc⟩ := h.fc he
  exact ⟨(C13_zero_beyond _ _ _ _ r hc hr).1, (C13_zero_beyond _ _ _ _ r hc hr).2.1⟩

/-- Derivative of the compact radial function. -/
noncomputable def SymFnc.radialDeriv (S : SymFnc) (r : ℝ) : ℝ := compactDeriv S.cr S.rl S.rc r

theorem SymFnc.Valid.cr_deriv {S : SymFnc} (h : S.Valid) (he : ¬ S.IsExp) (r : ℝ) :
    HasDerivAt S.radial (S.radialDeriv r) r := by
  obtain ⟨k, as, hc⟩ := h.cr he
  exact hasDerivAt_compact hc r

theorem SymFnc.Valid.cr_fdf' {S : SymFnc} (h : S.Valid) (he : ¬ S.IsExp) (r : ℝ) (h1 : S.rl < r)
    (h2 : r < S.rc) : S.cr.fdf r = (S.radial r, S.radialDeriv r) := by
  refine Prod.ext (h.cr_fdf he r h1 h2) ?_
  unfold SymFnc.radialDeriv compactDeriv
  rw [if_pos ⟨h1, h2⟩]

theorem radialDeriv_zero (S : SymFnc) (r : ℝ) (h : ¬ (S.rl < r ∧ r < S.rc)) :
    S.radialDeriv r = 0 := by
  unfold SymFnc.radialDeriv compactDeriv
  exact if_neg h

/-! ### Pairs -/

/-- Derivative from the prefactors of a contribution. -/
def tgrad (u v U V : Vec3) : Option SymFnc.PairTerm → ℝ
  | none => 0
  | some t => gradOf t.p1 t.p2 t.p3 u v U V

/-- What is required of a pair of neighbours. -/
structure SymFnc.SmoothPair (S : SymFnc) (x y : Site) : Prop where
  hard : S.IsExp → S.fc.cutoffType = .HARD → x.dr.norm ≠ S.rc ∧ y.dr.norm ≠ S.rc ∧
    (x.dr - y.dr).norm ≠ S.rc
  apart : 0 < (x.dr - y.dr).norm
  power : S.IsExp → 1 < S.zeta ∨ (1 ≤ S.zeta ∧ |S.lambda| ≤ 1) ∨
    1 + S.lambda * cosAngle x.dr y.dr ≠ 0

theorem angularFactor_eq {S : SymFnc} (h : S.Valid) (he : S.IsExp) (ha : S.IsAng) (c : ℝ) :
    S.angularFactor c = 2 ^ (1 - S.zeta) *
      (posPow S.zeta (1 + S.lambda * c) * (1 + S.lambda * c)) := by
  have := SymFnc.expAng_factor h he ha 1 c
  simp only [one_mul] at this
  rw [← this]
  unfold posPow
  ring

theorem power_eq (zeta w p : ℝ) :
    (open Classical in if p ≤ 0 then 0 else w * p ^ (zeta - 1)) = w * posPow zeta p := by
  unfold posPow
  split <;> simp

section Pairs

variable {u v : ℝ → Vec3} {U V : Vec3} {t : ℝ}

theorem SymFnc.expAngn_deriv {S : SymFnc} (h : S.Valid) (he : S.IsExp) (ha : S.IsAng)
    (w : Neighbor → Neighbor → ℝ) {n n' : Neighbor} (hd : n.d = n.dr.norm)
    (hd' : n'.d = n'.dr.norm) (hp : 0 < n.d) (hp' : 0 < n'.d)
    (hs : S.SmoothPair n.site n'.site) (hu : HasDerivAt u U t) (hv : HasDerivAt v V t)
    (hut : u t = n.dr) (hvt : v t = n'.dr) :
    ∃ T, S.bodyExpAngn w n n' (S.fc.fdf n.d) (S.fc.fdf n'.d) = some (some T) ∧
      ((S.rc ≤ n.d ∨ S.rc ≤ n'.d ∨ S.rc ≤ (n.dr - n'.dr).norm) →
        tgrad n.dr n'.dr U V (some T) = 0) ∧
      HasDerivAt (fun s => w n n' * (S.angularFactor (cosAngle (u s) (v s))
        * (S.gauss (u s).norm * S.gauss (v s).norm) * (S.fc.f (u s).norm * S.fc.f (v s).norm)
        * S.gauss (u s - v s).norm * S.fc.f (u s - v s).norm))
        (tgrad n.dr n'.dr U V (some T)) t := by
  unfold SymFnc.bodyExpAngn
  obtain ⟨fg, e, hfg⟩ := SymFnc.expAngPower_spec h he ha
    (w n n' * Real.exp (-S.eta * ((n.d - S.rs) * (n.d - S.rs) + (n'.d - S.rs) * (n'.d - S.rs)
      + (√(n'.dr - n.dr).norm2 - S.rs) * (√(n'.dr - n.dr).norm2 - S.rs))))
    (1 + S.lambda * (n.dr.dot n'.dr * (1 / n.d / n'.d)))
  simp only [e, Option.bind_eq_bind, Option.bind_some]
  refine ⟨_, rfl, ?_⟩
  rw [power_eq, cos_eq hd hd', gauss3, dist_symm] at hfg
  have hA := hasDerivAt_angularFactor (S := S) (h.zeta he ha) hu hv
    (by rw [hut, ← hd]; exact hp) (by rw [hvt, ← hd']; exact hp')
    (by rw [hut, hvt]; exact hs.power he)
  have hA' : HasDerivAt (fun s => S.angularFactor (cosAngle (u s) (v s)))
      ((2 ^ (1 - S.zeta) * (S.zeta * S.lambda *
        posPow S.zeta (1 + S.lambda * cosAngle (u t) (v t)))) * cosDeriv (u t) (v t) U V) t := by
    refine hA.congr_deriv ?_
    ring
  have hh := hs.hard he
  have key := narrow_deriv hu hv (by rw [hut, ← hd]; exact hp) (by rw [hvt, ← hd']; exact hp')
    (by rw [hut, hvt]; exact hs.apart) hA'
    (h.fc_deriv he (r := (u t).norm) (fun k => by rw [hut]; exact (hh k).1))
    (h.fc_deriv he (r := (v t).norm) (fun k => by rw [hvt]; exact (hh k).2.1))
    (h.fc_deriv he (r := (u t - v t).norm) (fun k => by rw [hut, hvt]; exact (hh k).2.2))
  rw [hut, hvt, angularFactor_eq h he ha] at key
  constructor
  · intro hz
    simp only [tgrad, gradOf]
    rw [cos_eq hd hd', dist_symm, (h.fc_fdf he).1, (h.fc_fdf he).1, (h.fc_fdf he).1]
    rcases hz with hz | hz | hz
    · obtain ⟨z1, z2⟩ := h.fc_zero he hz
      simp only [z1, z2]
      ring
    · obtain ⟨z1, z2⟩ := h.fc_zero he hz
      simp only [z1, z2]
      ring
    · obtain ⟨z1, z2⟩ := h.fc_zero he hz
      simp only [z1, z2]
      ring
  · have hfun : (fun s => w n n' * (S.angularFactor (cosAngle (u s) (v s))
        * (S.gauss (u s).norm * S.gauss (v s).norm) * (S.fc.f (u s).norm * S.fc.f (v s).norm)
        * S.gauss (u s - v s).norm * S.fc.f (u s - v s).norm)) = fun s => w n n' *
        (S.angularFactor (cosAngle (u s) (v s)) * ((S.gauss (u s).norm * S.fc.f (u s).norm) *
          (S.gauss (v s).norm * S.fc.f (v s).norm)) *
          (S.gauss (u s - v s).norm * S.fc.f (u s - v s).norm)) := by
      funext s; ring
    rw [hfun]
    refine HasDerivAt.congr_deriv (key.const_mul (w n n')) ?_
    simp only [tgrad, gradOf]
    rw [cos_eq hd hd', dist_symm, (h.fc_fdf he).1, (h.fc_fdf he).1, (h.fc_fdf he).1, hfg, hd, hd']
    dsimp only
    ring

theorem SymFnc.expAngw_deriv {S : SymFnc} (h : S.Valid) (he : S.IsExp) (ha : S.IsAng)
    {n n' : Neighbor} (hd : n.d = n.dr.norm)
    (hd' : n'.d = n'.dr.norm) (hp : 0 < n.d) (hp' : 0 < n'.d)
    (hs : S.SmoothPair n.site n'.site) (hu : HasDerivAt u U t) (hv : HasDerivAt v V t)
    (hut : u t = n.dr) (hvt : v t = n'.dr) :
    ∃ T, S.bodyExpAngw n n' (S.fc.fdf n.d) (S.fc.fdf n'.d) = some (some T) ∧
      ((S.rc ≤ n.d ∨ S.rc ≤ n'.d) → tgrad n.dr n'.dr U V (some T) = 0) ∧
      HasDerivAt (fun s => S.angularFactor (cosAngle (u s) (v s))
        * (S.gauss (u s).norm * S.gauss (v s).norm) * (S.fc.f (u s).norm * S.fc.f (v s).norm))
        (tgrad n.dr n'.dr U V (some T)) t := by
  unfold SymFnc.bodyExpAngw
  obtain ⟨fg, e, hfg⟩ := SymFnc.expAngPower_spec h he ha
    (Real.exp (-S.eta * ((n.d - S.rs) * (n.d - S.rs) + (n'.d - S.rs) * (n'.d - S.rs))))
    (1 + S.lambda * (n.dr.dot n'.dr * (1 / n.d / n'.d)))
  simp only [e, Option.bind_eq_bind, Option.bind_some]
  refine ⟨_, rfl, ?_⟩
  rw [power_eq, cos_eq hd hd', gauss2] at hfg
  have hA := hasDerivAt_angularFactor (S := S) (h.zeta he ha) hu hv
    (by rw [hut, ← hd]; exact hp) (by rw [hvt, ← hd']; exact hp')
    (by rw [hut, hvt]; exact hs.power he)
  have hA' : HasDerivAt (fun s => S.angularFactor (cosAngle (u s) (v s)))
      ((2 ^ (1 - S.zeta) * (S.zeta * S.lambda *
        posPow S.zeta (1 + S.lambda * cosAngle (u t) (v t)))) * cosDeriv (u t) (v t) U V) t := by
    refine hA.congr_deriv ?_
    ring
  have hh := hs.hard he
  have key := wide_deriv hu hv (by rw [hut, ← hd]; exact hp) (by rw [hvt, ← hd']; exact hp') hA'
    (h.fc_deriv he (r := (u t).norm) (fun k => by rw [hut]; exact (hh k).1))
    (h.fc_deriv he (r := (v t).norm) (fun k => by rw [hvt]; exact (hh k).2.1))
  rw [hut, hvt, angularFactor_eq h he ha] at key
  constructor
  · intro hz
    simp only [tgrad, gradOf]
    rw [cos_eq hd hd', (h.fc_fdf he).1, (h.fc_fdf he).1]
    rcases hz with hz | hz
    · obtain ⟨z1, z2⟩ := h.fc_zero he hz
      simp only [z1, z2]
      ring
    · obtain ⟨z1, z2⟩ := h.fc_zero he hz
      simp only [z1, z2]
      ring
  · have hfun : (fun s => S.angularFactor (cosAngle (u s) (v s))
        * (S.gauss (u s).norm * S.gauss (v s).norm) * (S.fc.f (u s).norm * S.fc.f (v s).norm)) =
        fun s => S.angularFactor (cosAngle (u s) (v s)) * ((S.gauss (u s).norm * S.fc.f (u s).norm) *
          (S.gauss (v s).norm * S.fc.f (v s).norm)) := by
      funext s; ring
    rw [hfun]
    refine HasDerivAt.congr_deriv key ?_
    simp only [tgrad, gradOf]
    rw [cos_eq hd hd', (h.fc_fdf he).1, (h.fc_fdf he).1, hfg, hd, hd']
    dsimp only
    ring

/-- Derivative of the angular part as evaluated by the code. -/
theorem SymFnc.angular_code_deriv {S : SymFnc} (h : S.Valid) (he : ¬ S.IsExp) (ha : S.IsAng)
    {a b : Vec3}
    (hends : S.ca.core.type = .EXP → |cosAngle a b| ≠ 1 →
      Real.arccos (cosAngle a b) ≠ S.angleLeftRadians ∧
      Real.arccos (cosAngle a b) ≠ S.angleRightRadians) :
    ((cosAngle a b ≤ -1 ∨ 1 ≤ cosAngle a b) → angularDeriv S (cosAngle a b) = 0) ∧
    ((Real.arccos (cosAngle a b) < S.angleLeftRadians ∨
      S.angleRightRadians < Real.arccos (cosAngle a b)) → angularDeriv S (cosAngle a b) = 0) ∧
    (¬ (cosAngle a b ≤ -1 ∨ 1 ≤ cosAngle a b) →
      ¬ (Real.arccos (cosAngle a b) < S.angleLeftRadians ∨
      S.angleRightRadians < Real.arccos (cosAngle a b)) →
      (S.ca.fdf (Real.arccos (cosAngle a b))).2 *
        (-1 / √(1 - cosAngle a b * cosAngle a b)) = angularDeriv S (cosAngle a b)) := by
  obtain ⟨k, as, hcfg⟩ := h.ca he ha
  have hle := abs_le.1 (abs_cosAngle_le' a b)
  refine ⟨?_, ?_, ?_⟩
  · intro h1
    unfold angularDeriv
    refine if_pos ?_
    rcases h1 with h1 | h1
    · rw [show cosAngle a b = -1 by linarith]; norm_num
    · rw [show cosAngle a b = 1 by linarith]; norm_num
  · intro h1
    unfold angularDeriv compactDeriv
    rw [if_neg (c := _ ∧ _), zero_mul, ite_self]
    rintro ⟨h2, h3⟩
    rcases h1 with h1 | h1 <;> linarith
  · intro hcn h1
    have hcn' : |cosAngle a b| ≠ 1 := by
      intro hab
      rcases (abs_eq zero_le_one).1 hab with e | e
      · exact hcn (Or.inr e.ge)
      · exact hcn (Or.inl e.le)
    push Not at h1
    unfold angularDeriv compactDeriv
    rw [if_neg hcn']
    congr 1
    by_cases h2 : S.angleLeftRadians < Real.arccos (cosAngle a b) ∧
      Real.arccos (cosAngle a b) < S.angleRightRadians
    · rw [if_pos h2]
    · rw [if_neg h2]
      have hor : Real.arccos (cosAngle a b) = S.angleLeftRadians ∨
          Real.arccos (cosAngle a b) = S.angleRightRadians := by
        by_contra hno
        push Not at hno
        exact h2 ⟨lt_of_le_of_ne h1.1 (Ne.symm hno.1), lt_of_le_of_ne h1.2 hno.2⟩
      have hexp : k ≠ .EXP := by
        intro ht
        have := hends (by rw [hcfg.1]; exact ht) hcn'
        rcases hor with e | e
        · exact this.1 e
        · exact this.2 e
      rw [compact_end hcfg hexp hor]

theorem SymFnc.compAngw_deriv {S : SymFnc} (h : S.Valid) (he : ¬ S.IsExp) (ha : S.IsAng)
    (w : Neighbor → Neighbor → ℝ) {n n' : Neighbor} (hd : n.d = n.dr.norm)
    (hd' : n'.d = n'.dr.norm) (hp : 0 < n.d) (hp' : 0 < n'.d)
    (hT : S.TripletOK n.site n'.site) (hu : HasDerivAt u U t) (hv : HasDerivAt v V t)
    (hut : u t = n.dr) (hvt : v t = n'.dr) :
    ∃ D, HasDerivAt (fun s => w n n' * (S.angular (u s) (v s)
        * (S.radial (u s).norm * S.radial (v s).norm))) D t ∧
      ((¬ (S.rl < n.d ∧ n.d < S.rc) ∨ ¬ (S.rl < n'.d ∧ n'.d < S.rc)) → D = 0) ∧
      ((S.rl < n.d ∧ n.d < S.rc) → (S.rl < n'.d ∧ n'.d < S.rc) →
        ∃ T, S.bodyCompAngw w n n' (S.cr.fdf n.d) (S.cr.fdf n'.d) = some T ∧
          D = tgrad n.dr n'.dr U V T) := by
  classical
  obtain ⟨k, as, hcfg⟩ := h.ca he ha
  have hn : 0 < (u t).norm := by rw [hut, ← hd]; exact hp
  have hn' : 0 < (v t).norm := by rw [hvt, ← hd']; exact hp'
  have hA := hasDerivAt_angular hcfg hu hv hn hn' (by rw [hut, hvt]; exact hT.collinear)
  have key := (wide_deriv hu hv hn hn' hA (h.cr_deriv he _) (h.cr_deriv he _)).const_mul (w n n')
  rw [hut, hvt] at key
  refine ⟨_, key, ?_, ?_⟩
  · rintro (hz | hz)
    · have z1 := radial_zero S _ hz
      have z2 := radialDeriv_zero S _ hz
      rw [hd] at z1 z2
      simp only [gradOf, z1, z2]; ring
    · have z1 := radial_zero S _ hz
      have z2 := radialDeriv_zero S _ hz
      rw [hd'] at z1 z2
      simp only [gradOf, z1, z2]; ring
  · intro h1 h2
    obtain ⟨a1, a2, a3⟩ := SymFnc.angular_code h he ha (u := n.dr) (v := n'.dr)
      (by rw [← hd]; exact hp) (by rw [← hd']; exact hp') hT.collinear hT.ends
    obtain ⟨b1, b2, b3⟩ := SymFnc.angular_code_deriv h he ha (a := n.dr) (b := n'.dr) hT.ends
    unfold SymFnc.bodyCompAngw
    dsimp only
    rw [cos_eq hd hd']
    by_cases hc : cosAngle n.dr n'.dr ≤ -1 ∨ 1 ≤ cosAngle n.dr n'.dr
    · rw [if_pos hc, a1 hc, b1 hc]
      exact ⟨_, rfl, by simp only [tgrad, gradOf]; ring⟩
    · rw [if_neg hc]
      by_cases hb : Real.arccos (cosAngle n.dr n'.dr) < S.angleLeftRadians ∨
        S.angleRightRadians < Real.arccos (cosAngle n.dr n'.dr)
      · rw [if_pos hb, a2 hb, b2 hb]
        exact ⟨_, rfl, by simp only [tgrad, gradOf]; ring⟩
      · rw [if_neg hb, a3 hc hb, b3 hc hb, h.cr_fdf' he _ h1.1 h1.2, h.cr_fdf' he _ h2.1 h2.2, hd, hd']
        refine ⟨_, rfl, ?_⟩
        have hx : n.dr.norm ≠ 0 := by rw [← hd]; exact hp.ne'
        have hy : n'.dr.norm ≠ 0 := by rw [← hd']; exact hp'.ne'
        have e1 : 1 / n.dr.norm / n'.dr.norm * n'.dr.norm = 1 / n.dr.norm := by field_simp
        have e2 : 1 / n.dr.norm / n'.dr.norm * n.dr.norm = 1 / n'.dr.norm := by field_simp
        simp only [tgrad, gradOf]
        rw [e1, e2]
        ring

theorem SymFnc.compAngn_deriv {S : SymFnc} (h : S.Valid) (he : ¬ S.IsExp) (ha : S.IsAng)
    (w : Neighbor → Neighbor → ℝ) {n n' : Neighbor} (hd : n.d = n.dr.norm)
    (hd' : n'.d = n'.dr.norm) (hp : 0 < n.d) (hp' : 0 < n'.d)
    (hT : S.TripletOK n.site n'.site) (hu : HasDerivAt u U t) (hv : HasDerivAt v V t)
    (hut : u t = n.dr) (hvt : v t = n'.dr) :
    ∃ D, HasDerivAt (fun s => w n n' * (S.angular (u s) (v s)
        * (S.radial (u s).norm * S.radial (v s).norm) * S.radial (u s - v s).norm)) D t ∧
      ((¬ (S.rl < n.d ∧ n.d < S.rc) ∨ ¬ (S.rl < n'.d ∧ n'.d < S.rc) ∨
        ¬ (S.rl < (n.dr - n'.dr).norm ∧ (n.dr - n'.dr).norm < S.rc)) → D = 0) ∧
      ((S.rl < n.d ∧ n.d < S.rc) → (S.rl < n'.d ∧ n'.d < S.rc) →
        (S.rl < (n.dr - n'.dr).norm ∧ (n.dr - n'.dr).norm < S.rc) →
        ∃ T, S.bodyCompAngn w n n' (S.cr.fdf n.d) (S.cr.fdf n'.d) = some T ∧
          D = tgrad n.dr n'.dr U V T) := by
  classical
  obtain ⟨k, as, hcfg⟩ := h.ca he ha
  have hn : 0 < (u t).norm := by rw [hut, ← hd]; exact hp
  have hn' : 0 < (v t).norm := by rw [hvt, ← hd']; exact hp'
  have hA := hasDerivAt_angular hcfg hu hv hn hn' (by rw [hut, hvt]; exact hT.collinear)
  have key := (narrow_deriv hu hv hn hn' (by rw [hut, hvt]; exact hT.apart) hA (h.cr_deriv he _)
    (h.cr_deriv he _) (h.cr_deriv he _)).const_mul (w n n')
  rw [hut, hvt] at key
  refine ⟨_, key, ?_, ?_⟩
  · rintro (hz | hz | hz)
    · have z1 := radial_zero S _ hz
      have z2 := radialDeriv_zero S _ hz
      rw [hd] at z1 z2
      simp only [gradOf, z1, z2]; ring
    · have z1 := radial_zero S _ hz
      have z2 := radialDeriv_zero S _ hz
      rw [hd'] at z1 z2
      simp only [gradOf, z1, z2]; ring
    · have z1 := radial_zero S _ hz
      have z2 := radialDeriv_zero S _ hz
      simp only [gradOf, z1, z2]; ring
  · intro h1 h2 h3
    obtain ⟨a1, a2, a3⟩ := SymFnc.angular_code h he ha (u := n.dr) (v := n'.dr)
      (by rw [← hd]; exact hp) (by rw [← hd']; exact hp') hT.collinear hT.ends
    obtain ⟨b1, b2, b3⟩ := SymFnc.angular_code_deriv h he ha (a := n.dr) (b := n'.dr) hT.ends
    unfold SymFnc.bodyCompAngn
    dsimp only
    rw [cos_eq hd hd', dist_symm]
    by_cases hc : cosAngle n.dr n'.dr ≤ -1 ∨ 1 ≤ cosAngle n.dr n'.dr
    · rw [if_pos hc, a1 hc, b1 hc]
      exact ⟨_, rfl, by simp only [tgrad, gradOf]; ring⟩
    · rw [if_neg hc]
      by_cases hb : Real.arccos (cosAngle n.dr n'.dr) < S.angleLeftRadians ∨
        S.angleRightRadians < Real.arccos (cosAngle n.dr n'.dr)
      · rw [if_pos hb, a2 hb, b2 hb]
        exact ⟨_, rfl, by simp only [tgrad, gradOf]; ring⟩
      · rw [if_neg hb, a3 hc hb, b3 hc hb, h.cr_fdf' he _ h1.1 h1.2, h.cr_fdf' he _ h2.1 h2.2,
          h.cr_fdf' he _ h3.1 h3.2, hd, hd']
        refine ⟨_, rfl, ?_⟩
        have hx : n.dr.norm ≠ 0 := by rw [← hd]; exact hp.ne'
        have hy : n'.dr.norm ≠ 0 := by rw [← hd']; exact hp'.ne'
        have e1 : 1 / n.dr.norm / n'.dr.norm * n'.dr.norm = 1 / n.dr.norm := by field_simp
        have e2 : 1 / n.dr.norm / n'.dr.norm * n.dr.norm = 1 / n'.dr.norm := by field_simp
        simp only [tgrad, gradOf]
        rw [e1, e2]
        ring

open Classical in
/-- Along a curve, the derivative of the summand of the formula is given by the prefactors. -/
theorem SymFnc.pair_deriv {S : SymFnc} (h : S.Valid) (ha : S.IsAng) {n n' : Neighbor}
    (hd : n.d = n.dr.norm) (hd' : n'.d = n'.dr.norm) (hp : 0 < n.d) (hp' : 0 < n'.d)
    (hT : ¬ S.IsExp → S.TripletOK n.site n'.site) (hs : S.IsExp → S.SmoothPair n.site n'.site)
    (hu : HasDerivAt u U t) (hv : HasDerivAt v V t) (hut : u t = n.dr) (hvt : v t = n'.dr) :
    HasDerivAt (fun s => S.pairTerm ⟨n.element, u s⟩ ⟨n'.element, v s⟩)
      (if S.pkernel.selJ n ∧ S.pkernel.selK n n' then tgrad n.dr n'.dr U V (S.terms n n') else 0)
      t := by
  have hrc := h.rc_pos
  unfold SymFnc.terms SymFnc.pkernel SymFnc.pairTerm
  cases hk : S.kind with
  | ExpRad => exact absurd hk ha.1
  | ExpRadWeighted => exact absurd hk ha.2.1
  | CompRad => exact absurd hk ha.2.2.1
  | CompRadWeighted => exact absurd hk ha.2.2.2
  | ExpAngn =>
    have he : S.IsExp := by simp [SymFnc.IsExp, hk]
    obtain ⟨T, e, ez, ed⟩ := SymFnc.expAngn_deriv h he ha (fun _ _ => 1) hd hd' hp hp' (hs he) hu hv hut hvt
    have e' : S.kernelExpAngn.body n n' (S.kernelExpAngn.fdf n.d) (S.kernelExpAngn.fdf n'.d) = some (some T) := e
    change HasDerivAt (fun s => S.ofPair n.site n'.site * (S.angularFactor (cosAngle (u s) (v s)) * (S.gauss (u s).norm * S.gauss (v s).norm) * (S.fc.f (u s).norm * S.fc.f (v s).norm) * S.gauss (u s - v s).norm * S.fc.f (u s - v s).norm))
      (if S.kernelExpAngn.selJ n ∧ S.kernelExpAngn.selK n n' then tgrad n.dr n'.dr U V
        ((S.kernelExpAngn.body n n' (S.kernelExpAngn.fdf n.d) (S.kernelExpAngn.fdf n'.d)).getD none) else 0) t
    rw [e', Option.getD_some]
    rw [S.ofPair_eq]
    by_cases hE : S.pairElements n n'
    · have hbey : (if S.kernelExpAngn.selJ n ∧ S.kernelExpAngn.selK n n' then tgrad n.dr n'.dr U V (some T) else 0) =
          tgrad n.dr n'.dr U V (some T) := by
        by_cases hs : S.kernelExpAngn.selJ n ∧ S.kernelExpAngn.selK n n'
        · rw [if_pos hs]
        · rw [if_neg hs]
          refine (ez ?_).symm
          have : ¬ n.d < S.rc ∨ ¬ n'.d < S.rc ∨ ¬ (n.dr - n'.dr).norm < S.rc := by
            by_contra hcon
            push Not at hcon
            exact hs ⟨⟨SymFnc.pairElements_left hE, hcon.1⟩, hE, hcon.2.1, (narrow_iff _ _ hrc).2 hcon.2.2⟩
          simpa only [not_lt] using this
      rw [hbey, if_pos hE]
      simpa only [one_mul] using ed
    · rw [if_neg hE, if_neg (fun k => hE k.2.1)]
      simpa only [zero_mul] using hasDerivAt_const t (0 : ℝ)
  | ExpAngw =>
    have he : S.IsExp := by simp [SymFnc.IsExp, hk]
    obtain ⟨T, e, ez, ed⟩ := SymFnc.expAngw_deriv h he ha hd hd' hp hp' (hs he) hu hv hut hvt
    have e' : S.kernelExpAngw.body n n' (S.kernelExpAngw.fdf n.d) (S.kernelExpAngw.fdf n'.d) = some (some T) := e
    change HasDerivAt (fun s => S.ofPair n.site n'.site * (S.angularFactor (cosAngle (u s) (v s)) * (S.gauss (u s).norm * S.gauss (v s).norm) * (S.fc.f (u s).norm * S.fc.f (v s).norm)))
      (if S.kernelExpAngw.selJ n ∧ S.kernelExpAngw.selK n n' then tgrad n.dr n'.dr U V
        ((S.kernelExpAngw.body n n' (S.kernelExpAngw.fdf n.d) (S.kernelExpAngw.fdf n'.d)).getD none) else 0) t
    rw [e', Option.getD_some]
    rw [S.ofPair_eq]
    by_cases hE : S.pairElements n n'
    · have hbey : (if S.kernelExpAngw.selJ n ∧ S.kernelExpAngw.selK n n' then tgrad n.dr n'.dr U V (some T) else 0) =
          tgrad n.dr n'.dr U V (some T) := by
        by_cases hs : S.kernelExpAngw.selJ n ∧ S.kernelExpAngw.selK n n'
        · rw [if_pos hs]
        · rw [if_neg hs]
          refine (ez ?_).symm
          have : ¬ n.d < S.rc ∨ ¬ n'.d < S.rc := by
            by_contra hcon
            push Not at hcon
            exact hs ⟨⟨SymFnc.pairElements_left hE, hcon.1⟩, hE, hcon.2⟩
          simpa only [not_lt] using this
      rw [hbey, if_pos hE]
      simpa only [one_mul] using ed
    · rw [if_neg hE, if_neg (fun k => hE k.2.1)]
      simpa only [zero_mul] using hasDerivAt_const t (0 : ℝ)
  | ExpAngnWeighted =>
    have he : S.IsExp := by simp [SymFnc.IsExp, hk]
    obtain ⟨T, e, ez, ed⟩ := SymFnc.expAngn_deriv h he ha S.pairWeight hd hd' hp hp' (hs he) hu hv hut hvt
    have e' : S.kernelExpAngnWeighted.body n n' (S.kernelExpAngnWeighted.fdf n.d) (S.kernelExpAngnWeighted.fdf n'.d) = some (some T) := e
    change HasDerivAt (fun s => S.Z n.site * S.Z n'.site * (S.angularFactor (cosAngle (u s) (v s)) * (S.gauss (u s).norm * S.gauss (v s).norm) * (S.fc.f (u s).norm * S.fc.f (v s).norm) * S.gauss (u s - v s).norm * S.fc.f (u s - v s).norm))
      (if S.kernelExpAngnWeighted.selJ n ∧ S.kernelExpAngnWeighted.selK n n' then tgrad n.dr n'.dr U V
        ((S.kernelExpAngnWeighted.body n n' (S.kernelExpAngnWeighted.fdf n.d) (S.kernelExpAngnWeighted.fdf n'.d)).getD none) else 0) t
    rw [e', Option.getD_some]
    have hbey : (if S.kernelExpAngnWeighted.selJ n ∧ S.kernelExpAngnWeighted.selK n n' then tgrad n.dr n'.dr U V (some T) else 0) =
        tgrad n.dr n'.dr U V (some T) := by
      by_cases hs : S.kernelExpAngnWeighted.selJ n ∧ S.kernelExpAngnWeighted.selK n n'
      · rw [if_pos hs]
      · rw [if_neg hs]
        refine (ez ?_).symm
        have : ¬ n.d < S.rc ∨ ¬ n'.d < S.rc ∨ ¬ (n.dr - n'.dr).norm < S.rc := by
          by_contra hcon
          push Not at hcon
          exact hs ⟨hcon.1, hcon.2.1, (narrow_iff _ _ hrc).2 hcon.2.2⟩
        simpa only [not_lt] using this
    rw [hbey]
    refine ed.congr_deriv rfl |>.congr_of_eventuallyEq (Filter.Eventually.of_forall fun s => ?_)
    simp only [SymFnc.pairWeight, SymFnc.Z, Neighbor.site]
    push_cast
    ring
  | CompAngn =>
    have he : ¬ S.IsExp := by simp [SymFnc.IsExp, hk]
    have hT := hT he
    obtain ⟨D, ed, ez, eT⟩ := SymFnc.compAngn_deriv h he ha (fun _ _ => 1) hd hd' hp hp' hT hu hv hut hvt
    change HasDerivAt (fun s => S.ofPair n.site n'.site * (S.angular (u s) (v s) * (S.radial (u s).norm * S.radial (v s).norm) * S.radial (u s - v s).norm))
      (if S.kernelCompAngn.selJ n ∧ S.kernelCompAngn.selK n n' then tgrad n.dr n'.dr U V
        ((S.kernelCompAngn.body n n' (S.kernelCompAngn.fdf n.d) (S.kernelCompAngn.fdf n'.d)).getD none) else 0) t
    rw [S.ofPair_eq]
    by_cases hE : S.pairElements n n'
    · have hbey : (if S.kernelCompAngn.selJ n ∧ S.kernelCompAngn.selK n n' then tgrad n.dr n'.dr U V
          ((S.kernelCompAngn.body n n' (S.kernelCompAngn.fdf n.d) (S.kernelCompAngn.fdf n'.d)).getD none) else 0) = D := by
        by_cases hs : S.kernelCompAngn.selJ n ∧ S.kernelCompAngn.selK n n'
        · have h3 : S.rl < (n.dr - n'.dr).norm ∧ (n.dr - n'.dr).norm < S.rc := by
            have := not_or.1 hs.2.2.2
            exact ⟨not_le.1 fun hle => this.2 ((S.r2l_iff hT.apart).2 hle),
              (narrow_iff _ _ hrc).1 (not_le.1 this.1)⟩
          obtain ⟨T, e, eD⟩ := eT hs.1.2.symm hs.2.2.1.symm h3
          have e' : S.kernelCompAngn.body n n' (S.kernelCompAngn.fdf n.d) (S.kernelCompAngn.fdf n'.d) = some T := e
          rw [if_pos hs, e', Option.getD_some, eD]
        · rw [if_neg hs]
          refine (ez ?_).symm
          by_contra hcon
          · rw [not_or, not_or, not_not, not_not, not_not] at hcon
            refine hs ⟨⟨SymFnc.pairElements_left hE, hcon.1.symm⟩, hE, hcon.2.1.symm, ?_⟩
            rw [not_or, S.r2l_iff (u := n.dr) (v := n'.dr) hT.apart, not_le, not_le, narrow_iff _ _ hrc]
            exact hcon.2.2.symm
      rw [hbey, if_pos hE]
      exact ed
    · rw [if_neg hE, if_neg (fun k => hE k.2.1)]
      simpa only [zero_mul] using hasDerivAt_const t (0 : ℝ)
  | CompAngw =>
    have he : ¬ S.IsExp := by simp [SymFnc.IsExp, hk]
    have hT := hT he
    obtain ⟨D, ed, ez, eT⟩ := SymFnc.compAngw_deriv h he ha (fun _ _ => 1) hd hd' hp hp' hT hu hv hut hvt
    change HasDerivAt (fun s => S.ofPair n.site n'.site * (S.angular (u s) (v s) * (S.radial (u s).norm * S.radial (v s).norm)))
      (if S.kernelCompAngw.selJ n ∧ S.kernelCompAngw.selK n n' then tgrad n.dr n'.dr U V
        ((S.kernelCompAngw.body n n' (S.kernelCompAngw.fdf n.d) (S.kernelCompAngw.fdf n'.d)).getD none) else 0) t
    rw [S.ofPair_eq]
    by_cases hE : S.pairElements n n'
    · have hbey : (if S.kernelCompAngw.selJ n ∧ S.kernelCompAngw.selK n n' then tgrad n.dr n'.dr U V
          ((S.kernelCompAngw.body n n' (S.kernelCompAngw.fdf n.d) (S.kernelCompAngw.fdf n'.d)).getD none) else 0) = D := by
        by_cases hs : S.kernelCompAngw.selJ n ∧ S.kernelCompAngw.selK n n'
        · obtain ⟨T, e, eD⟩ := eT hs.1.2.symm hs.2.2.symm
          have e' : S.kernelCompAngw.body n n' (S.kernelCompAngw.fdf n.d) (S.kernelCompAngw.fdf n'.d) = some T := e
          rw [if_pos hs, e', Option.getD_some, eD]
        · rw [if_neg hs]
          refine (ez ?_).symm
          by_contra hcon
          · rw [not_or, not_not, not_not] at hcon
            exact hs ⟨⟨SymFnc.pairElements_left hE, hcon.1.symm⟩, hE, hcon.2.symm⟩
      rw [hbey, if_pos hE]
      exact ed
    · rw [if_neg hE, if_neg (fun k => hE k.2.1)]
      simpa only [zero_mul] using hasDerivAt_const t (0 : ℝ)
  | CompAngnWeighted =>
    have he : ¬ S.IsExp := by simp [SymFnc.IsExp, hk]
    have hT := hT he
    obtain ⟨D, ed, ez, eT⟩ := SymFnc.compAngn_deriv h he ha S.pairWeight hd hd' hp hp' hT hu hv hut hvt
    change HasDerivAt (fun s => S.Z n.site * S.Z n'.site * (S.angular (u s) (v s) * (S.radial (u s).norm * S.radial (v s).norm) * S.radial (u s - v s).norm))
      (if S.kernelCompAngnWeighted.selJ n ∧ S.kernelCompAngnWeighted.selK n n' then tgrad n.dr n'.dr U V
        ((S.kernelCompAngnWeighted.body n n' (S.kernelCompAngnWeighted.fdf n.d) (S.kernelCompAngnWeighted.fdf n'.d)).getD none) else 0) t
    have hbey : (if S.kernelCompAngnWeighted.selJ n ∧ S.kernelCompAngnWeighted.selK n n' then tgrad n.dr n'.dr U V
        ((S.kernelCompAngnWeighted.body n n' (S.kernelCompAngnWeighted.fdf n.d) (S.kernelCompAngnWeighted.fdf n'.d)).getD none) else 0) = D := by
      by_cases hs : S.kernelCompAngnWeighted.selJ n ∧ S.kernelCompAngnWeighted.selK n n'
      · have h3 : S.rl < (n.dr - n'.dr).norm ∧ (n.dr - n'.dr).norm < S.rc := by
          have := not_or.1 hs.2.2
          exact ⟨not_le.1 fun hle => this.2 ((S.r2l_iff hT.apart).2 hle),
            (narrow_iff _ _ hrc).1 (not_le.1 this.1)⟩
        obtain ⟨T, e, eD⟩ := eT hs.1.symm hs.2.1.symm h3
        have e' : S.kernelCompAngnWeighted.body n n' (S.kernelCompAngnWeighted.fdf n.d) (S.kernelCompAngnWeighted.fdf n'.d) = some T := e
        rw [if_pos hs, e', Option.getD_some, eD]
      · rw [if_neg hs]
        refine (ez ?_).symm
        by_contra hcon
        · rw [not_or, not_or, not_not, not_not, not_not] at hcon
          refine hs ⟨hcon.1.symm, hcon.2.1.symm, ?_⟩
          rw [not_or, S.r2l_iff (u := n.dr) (v := n'.dr) hT.apart, not_le, not_le, narrow_iff _ _ hrc]
          exact hcon.2.2.symm
    rw [hbey]
    refine ed.congr_deriv rfl |>.congr_of_eventuallyEq (Filter.Eventually.of_forall fun s => ?_)
    simp only [SymFnc.pairWeight, SymFnc.Z, Neighbor.site]
    push_cast
    ring
  | CompAngwWeighted =>
    have he : ¬ S.IsExp := by simp [SymFnc.IsExp, hk]
    have hT := hT he
    obtain ⟨D, ed, ez, eT⟩ := SymFnc.compAngw_deriv h he ha S.pairWeight hd hd' hp hp' hT hu hv hut hvt
    change HasDerivAt (fun s => S.Z n.site * S.Z n'.site * (S.angular (u s) (v s) * (S.radial (u s).norm * S.radial (v s).norm)))
      (if S.kernelCompAngwWeighted.selJ n ∧ S.kernelCompAngwWeighted.selK n n' then tgrad n.dr n'.dr U V
        ((S.kernelCompAngwWeighted.body n n' (S.kernelCompAngwWeighted.fdf n.d) (S.kernelCompAngwWeighted.fdf n'.d)).getD none) else 0) t
    have hbey : (if S.kernelCompAngwWeighted.selJ n ∧ S.kernelCompAngwWeighted.selK n n' then tgrad n.dr n'.dr U V
        ((S.kernelCompAngwWeighted.body n n' (S.kernelCompAngwWeighted.fdf n.d) (S.kernelCompAngwWeighted.fdf n'.d)).getD none) else 0) = D := by
      by_cases hs : S.kernelCompAngwWeighted.selJ n ∧ S.kernelCompAngwWeighted.selK n n'
      · obtain ⟨T, e, eD⟩ := eT hs.1.symm hs.2.symm
        have e' : S.kernelCompAngwWeighted.body n n' (S.kernelCompAngwWeighted.fdf n.d) (S.kernelCompAngwWeighted.fdf n'.d) = some T := e
        rw [if_pos hs, e', Option.getD_some, eD]
      · rw [if_neg hs]
        refine (ez ?_).symm
        by_contra hcon
        · rw [not_or, not_not, not_not] at hcon
          exact hs ⟨hcon.1.symm, hcon.2.symm⟩
    rw [hbey]
    refine ed.congr_deriv rfl |>.congr_of_eventuallyEq (Filter.Eventually.of_forall fun s => ?_)
    simp only [SymFnc.pairWeight, SymFnc.Z, Neighbor.site]
    push_cast
    ring

end Pairs

open Classical in
/-- The same for the radial functions. -/
theorem SymFnc.site_deriv {S : SymFnc} (h : S.Valid) (ha : ¬ S.IsAng) {n : Neighbor}
    (hd : n.d = n.dr.norm) (hp : 0 < n.d)
    (hs : S.IsExp → S.fc.cutoffType = .HARD → n.dr.norm ≠ S.rc)
    {u : ℝ → Vec3} {U : Vec3} {t : ℝ} (hu : HasDerivAt u U t) (hut : u t = n.dr) :
    HasDerivAt (fun s => S.sf * S.siteTerm ⟨n.element, u s⟩)
      (if S.rkernel.sel n then S.rkernel.p1 n (S.rkernel.fdf n.d) * n.dr.dot U else 0) t := by
  have hn := hasDerivAt_norm hu (by rw [hut, ← hd]; exact hp)
  rw [hut] at hn
  have hg : ∀ r, Real.exp (-S.eta * (r - S.rs) * (r - S.rs)) = S.gauss r := by
    intro r; unfold SymFnc.gauss; ring_nf
  have hE : S.IsExp → HasDerivAt (fun s => S.gauss (u s).norm * S.fc.f (u s).norm)
      (S.gauss n.d * (S.fc.df n.d - 2 * S.eta * (n.d - S.rs) * S.fc.f n.d) *
        (n.dr.dot U / n.d)) t := by
    intro he
    have := HasDerivAt.comp (h := fun s => (u s).norm) t
      (h.fc_deriv he (r := (u t).norm) (fun k => by rw [hut]; exact hs he k))
      (hn.congr_deriv rfl)
    rw [hut, ← hd] at this
    exact this
  have hC : ¬ S.IsExp → HasDerivAt (fun s => S.radial (u s).norm)
      (S.radialDeriv n.d * (n.dr.dot U / n.d)) t := by
    intro he
    have := HasDerivAt.comp (h := fun s => (u s).norm) t
      (h.cr_deriv he (u t).norm) (hn.congr_deriv rfl)
    rw [hut, ← hd] at this
    exact this
  unfold SymFnc.rkernel SymFnc.siteTerm
  cases hk : S.kind with
  | ExpRad =>
    have he : S.IsExp := by simp [SymFnc.IsExp, hk]
    change HasDerivAt (fun s => S.sf * (if n.element = S.e1 then
      S.gauss (u s).norm * S.fc.f (u s).norm else 0)) (if S.kernelExpRad.sel n then
      S.sf * ((S.fc.fdf n.d).2 - 2 * S.eta * (n.d - S.rs) * (S.fc.fdf n.d).1) *
        Real.exp (-S.eta * (n.d - S.rs) * (n.d - S.rs)) / n.d * n.dr.dot U else 0) t
    rw [(h.fc_fdf he).1, hg]
    by_cases h1 : n.element = S.e1
    · simp only [if_pos h1]
      refine ((hE he).const_mul S.sf).congr_deriv ?_
      by_cases h2 : n.d < S.rc
      · have h2' : S.kernelExpRad.sel n := ⟨h1.symm, h2⟩
        rw [if_pos h2']
        ring
      · have h2' : ¬ S.kernelExpRad.sel n := fun k => h2 k.2
        obtain ⟨z1, z2⟩ := h.fc_zero he (not_lt.1 h2)
        rw [if_neg h2', z1, z2]
        ring
    · have h2' : ¬ S.kernelExpRad.sel n := fun k => h1 k.1.symm
      simp only [if_neg h1, if_neg h2', mul_zero]
      exact hasDerivAt_const _ _
  | ExpRadWeighted =>
    have he : S.IsExp := by simp [SymFnc.IsExp, hk]
    change HasDerivAt (fun s => S.sf * ((S.atomicNumber n.element : ℝ) *
      S.gauss (u s).norm * S.fc.f (u s).norm)) (if S.kernelExpRadWeighted.sel n then
      S.kernelExpRadWeighted.p1 n (S.fc.fdf n.d) * n.dr.dot U else 0) t
    have := ((hE he).const_mul (S.sf * (S.atomicNumber n.element : ℝ)))
    refine (this.congr_deriv ?_).congr_of_eventuallyEq (Filter.Eventually.of_forall fun s => ?_)
    · by_cases h2 : n.d < S.rc
      · have h2' : S.kernelExpRadWeighted.sel n := h2
        rw [if_pos h2', (h.fc_fdf he).1]
        simp only [SymFnc.kernelExpRadWeighted, hg]
        ring
      · have h2' : ¬ S.kernelExpRadWeighted.sel n := h2
        obtain ⟨z1, z2⟩ := h.fc_zero he (not_lt.1 h2)
        rw [if_neg h2', z1, z2]
        ring
    · dsimp only
      ring
  | CompRad =>
    have he : ¬ S.IsExp := by simp [SymFnc.IsExp, hk]
    change HasDerivAt (fun s => S.sf * (if n.element = S.e1 then
      S.radial (u s).norm else 0)) (if S.kernelCompRad.sel n then
      S.sf * (S.cr.fdf n.d).2 / n.d * n.dr.dot U else 0) t
    by_cases h1 : n.element = S.e1
    · simp only [if_pos h1]
      refine ((hC he).const_mul S.sf).congr_deriv ?_
      by_cases h2 : S.rl < n.d ∧ n.d < S.rc
      · have h2' : S.kernelCompRad.sel n := ⟨h1.symm, h2⟩
        rw [if_pos h2', h.cr_fdf' he _ h2.1 h2.2]
        dsimp only
        ring
      · have h2' : ¬ S.kernelCompRad.sel n := fun k => h2 k.2
        rw [if_neg h2', radialDeriv_zero S _ h2]
        ring
    · have h2' : ¬ S.kernelCompRad.sel n := fun k => h1 k.1.symm
      simp only [if_neg h1, if_neg h2', mul_zero]
      exact hasDerivAt_const _ _
  | CompRadWeighted =>
    have he : ¬ S.IsExp := by simp [SymFnc.IsExp, hk]
    change HasDerivAt (fun s => S.sf * ((S.atomicNumber n.element : ℝ) *
      S.radial (u s).norm)) (if S.kernelCompRadWeighted.sel n then
      S.sf * (S.atomicNumber n.element : ℝ) * (S.cr.fdf n.d).2 / n.d * n.dr.dot U else 0) t
    have := ((hC he).const_mul (S.sf * (S.atomicNumber n.element : ℝ)))
    refine (this.congr_deriv ?_).congr_of_eventuallyEq (Filter.Eventually.of_forall fun s => ?_)
    · by_cases h2 : S.rl < n.d ∧ n.d < S.rc
      · have h2' : S.kernelCompRadWeighted.sel n := h2
        rw [if_pos h2', h.cr_fdf' he _ h2.1 h2.2]
        dsimp only
        ring
      · have h2' : ¬ S.kernelCompRadWeighted.sel n := h2
        rw [if_neg h2', radialDeriv_zero S _ h2]
        ring
    · dsimp only
      ring
  | _ => exact absurd (by simp [SymFnc.IsAng, hk]) ha

/-! ### The whole function -/

/-- Rate of change according to the collected derivatives, if the central atom moves with velocity
`v0` and neighbour `k` with velocity `v k`. -/
def Contrib.rate (n : ℕ) (v0 : Vec3) (v : ℕ → Vec3) (c : Contrib) : ℝ :=
  c.2.1.dot v0 - ∑ k ∈ Finset.range n, (c.2.2 k).dot (v k)

theorem Contrib.rate_zero (n : ℕ) (v0 : Vec3) (v : ℕ → Vec3) : Contrib.rate n v0 v 0 = 0 := by
  simp [Contrib.rate, Vec3.dot]

theorem Contrib.rate_add (n : ℕ) (v0 : Vec3) (v : ℕ → Vec3) (c c' : Contrib) :
    Contrib.rate n v0 v (c + c') = Contrib.rate n v0 v c + Contrib.rate n v0 v c' := by
  simp only [Contrib.rate, Prod.fst_add, Prod.snd_add, Pi.add_apply, add_dot, Finset.sum_add_distrib]
  ring

theorem Contrib.rate_sum (n : ℕ) (v0 : Vec3) (v : ℕ → Vec3) {ι : Type} (s : Finset ι)
    (c : ι → Contrib) : Contrib.rate n v0 v (∑ i ∈ s, c i) = ∑ i ∈ s, Contrib.rate n v0 v (c i) := by
  classical
  induction s using Finset.induction_on with
  | empty => simp [Contrib.rate_zero]
  | insert i s hi ih => rw [Finset.sum_insert hi, Finset.sum_insert hi, Contrib.rate_add, ih]

theorem sum_single_dot {n j : ℕ} (hj : j < n) (w : Vec3) (v : ℕ → Vec3) :
    ∑ k ∈ Finset.range n, ((Pi.single j w : ℕ → Vec3) k).dot (v k) = w.dot (v j) := by
  rw [Finset.sum_eq_single j]
  · rw [Pi.single_eq_same]
  · intro k _ hk
    rw [Pi.single_eq_of_ne hk, zero_dot]
  · intro h
    exact absurd (Finset.mem_range.2 hj) h

theorem SymFnc.pairContribOf_rate (S : SymFnc) {n j k : ℕ} (hj : j < n) (hk : k < n)
    (nj nk : Neighbor) (T : SymFnc.PairTerm) (v0 : Vec3) (v : ℕ → Vec3) :
    Contrib.rate n v0 v (S.pairContribOf true j k nj nk T) =
      S.sf * tgrad nj.dr nk.dr (v0 - v j) (v0 - v k) (some T) := by
  unfold Contrib.rate SymFnc.pairContribOf tgrad gradOf
  simp only [if_true, Pi.add_apply, add_dot, Finset.sum_add_distrib]
  rw [sum_single_dot hj, sum_single_dot hk]
  simp [Vec3.dot]
  ring

open Classical in
/-- Along a curve, the rate of change of the formula is that of the collected derivatives. -/
theorem SymFnc.formula_deriv {S : SymFnc} {a : Atom} (hV : S.Valid) (hl : a.ListOK S.rc)
    (hT : S.TripletsOK a.env) (hs : S.Smooth a.env) {r : ℕ → ℝ → Vec3} {v0 : Vec3} {v : ℕ → Vec3}
    {t : ℝ} (hr : ∀ k n, a.neighbors[k]? = some n → r k t = n.dr)
    (hd : ∀ k < a.neighbors.length, HasDerivAt (r k) (v0 - v k) t) :
    HasDerivAt (fun s => S.sf * S.formula (a.envAt fun k => r k s))
      (Contrib.rate a.neighbors.length v0 v (S.total true a)) t := by
  have henv : a.env = a.neighbors.map Neighbor.site := rfl
  have hlen : ∀ s, (a.envAt fun k => r k s).length = a.neighbors.length := by
    intro s; simp [Atom.envAt]
  unfold SymFnc.total SymFnc.formula
  by_cases ha : S.IsAng
  · rw [if_pos ha]
    have hz : ∀ s, ((a.envAt fun k => r k s).map S.siteTerm).sum = 0 := by
      intro s
      refine List.sum_eq_zero fun c hc => ?_
      obtain ⟨x, -, rfl⟩ := List.mem_map.1 hc
      unfold SymFnc.siteTerm
      cases hk : S.kind <;> first | rfl | exact absurd ha (by simp [SymFnc.IsAng, hk])
    simp only [hz, zero_add, pairSum_eq, hlen]
    unfold PS
    rw [Contrib.rate_sum]
    simp only [Finset.mul_sum]
    refine HasDerivAt.fun_sum fun j hj => ?_
    rw [Contrib.rate_sum]
    refine HasDerivAt.fun_sum fun k hk => ?_
    by_cases hjk : j < k
    · simp only [if_pos hjk]
      have hj' : j < a.neighbors.length := Finset.mem_range.1 hj
      have hk' : k < a.neighbors.length := Finset.mem_range.1 hk
      have hmj : a.neighbors[j] ∈ a.neighbors := List.getElem_mem hj'
      have hmk : a.neighbors[k] ∈ a.neighbors := List.getElem_mem hk'
      have hpair : ∀ {P : Site → Site → Prop}, a.env.Pairwise P →
          P a.neighbors[j].site a.neighbors[k].site := by
        intro P hP
        have := List.pairwise_iff_getElem.1 hP j k (by simpa [henv] using hj')
          (by simpa [henv] using hk') hjk
        simpa [henv] using this
      have hmem : ∀ {n}, n ∈ a.neighbors → n.site ∈ a.env := fun hn => List.mem_map_of_mem hn
      have hS : S.IsExp → S.SmoothPair a.neighbors[j].site a.neighbors[k].site := by
        intro he
        refine ⟨fun _ k => ?_, hpair (hs.apart ha), fun _ => ?_⟩
        · obtain ⟨h1, h2⟩ := hs.hard he k
          exact ⟨h1 _ (hmem hmj), h1 _ (hmem hmk), hpair h2⟩
        · rcases hs.power he ha with h1 | h1 | h1
          · exact Or.inl h1
          · exact Or.inr (Or.inl h1)
          · exact Or.inr (Or.inr (hpair h1))
      have key := SymFnc.pair_deriv hV ha (hl.d _ hmj) (hl.d _ hmk) (hl.pos _ hmj) (hl.pos _ hmk)
        (fun he => hpair (hT he ha)) hS (hd j hj') (hd k hk')
        (hr j _ (List.getElem?_eq_getElem hj')) (hr k _ (List.getElem?_eq_getElem hk'))
      have hat : ∀ s, at2 S.pairTerm (a.envAt fun k => r k s) j k =
          S.pairTerm ⟨a.neighbors[j].element, r j s⟩ ⟨a.neighbors[k].element, r k s⟩ := by
        intro s
        unfold at2 Atom.envAt
        simp only [List.getElem?_mapIdx, List.getElem?_eq_getElem hj',
          List.getElem?_eq_getElem hk', Option.map_some]
      simp only [hat]
      refine (key.const_mul S.sf).congr_deriv ?_
      unfold SymFnc.pairContrib
      simp only [List.getElem?_eq_getElem hj', List.getElem?_eq_getElem hk']
      by_cases hsel : S.pkernel.selJ a.neighbors[j] ∧
        S.pkernel.selK a.neighbors[j] a.neighbors[k]
      · rw [if_pos hsel, if_pos hsel]
        cases hT' : S.terms a.neighbors[j] a.neighbors[k] with
        | none => simp only [tgrad, mul_zero, Contrib.rate_zero]
        | some T => exact (S.pairContribOf_rate hj' hk' _ _ T v0 v).symm
      · rw [if_neg hsel, if_neg hsel, mul_zero, Contrib.rate_zero]
    · simp only [if_neg hjk, mul_zero, Contrib.rate_zero]
      exact hasDerivAt_const _ _
  · rw [if_neg ha]
    have hz : ∀ s, pairSum S.pairTerm (a.envAt fun k => r k s) = 0 := by
      intro s
      rw [pairSum_eq]
      unfold PS
      refine Finset.sum_eq_zero fun j _ => Finset.sum_eq_zero fun k _ => ?_
      have : at2 S.pairTerm (a.envAt fun k => r k s) j k = 0 := by
        unfold at2
        split
        · unfold SymFnc.pairTerm
          cases hk : S.kind <;> first | rfl | exact absurd (by simp [SymFnc.IsAng, hk]) ha
        · rfl
      rw [this, ite_self]
    simp only [hz, add_zero, list_sum_getD, List.length_map, hlen]
    rw [Contrib.rate_sum]
    simp only [Finset.mul_sum]
    refine HasDerivAt.fun_sum fun k hk => ?_
    have hk' : k < a.neighbors.length := Finset.mem_range.1 hk
    have hmk : a.neighbors[k] ∈ a.neighbors := List.getElem_mem hk'
    have key := SymFnc.site_deriv hV ha (hl.d _ hmk) (hl.pos _ hmk)
      (fun he hh => (hs.hard he hh).1 _ (List.mem_map_of_mem hmk)) (hd k hk')
      (hr k _ (List.getElem?_eq_getElem hk'))
    have hat : ∀ s, (((a.envAt fun k => r k s).map S.siteTerm)[k]?).getD 0 =
        S.siteTerm ⟨a.neighbors[k].element, r k s⟩ := by
      intro s
      unfold Atom.envAt
      simp only [List.getElem?_map, List.getElem?_mapIdx, List.getElem?_eq_getElem hk',
        Option.map_some, Option.getD_some]
    simp only [hat]
    refine key.congr_deriv ?_
    unfold RadialKernel.contrib
    simp only [List.getElem?_eq_getElem hk']
    by_cases hsel : S.rkernel.sel a.neighbors[k]
    · rw [if_pos hsel, if_pos hsel]
      unfold Contrib.rate
      simp only [if_true]
      rw [sum_single_dot hk']
      simp [Vec3.dot]
      ring
    · rw [if_neg hsel, if_neg hsel, Contrib.rate_zero]

/-! ### Sum rule and irrelevant neighbours -/

/-- The collected derivatives add up to zero. -/
def Contrib.Balanced (n : ℕ) (c : Contrib) : Prop := c.2.1 = ∑ k ∈ Finset.range n, c.2.2 k

theorem Contrib.Balanced.zero (n : ℕ) : Contrib.Balanced n 0 := by simp [Contrib.Balanced]

theorem Contrib.Balanced.sum {n : ℕ} {ι : Type} (s : Finset ι) (c : ι → Contrib)
    (h : ∀ i ∈ s, Contrib.Balanced n (c i)) : Contrib.Balanced n (∑ i ∈ s, c i) := by
  unfold Contrib.Balanced
  rw [Prod.snd_sum, Prod.fst_sum, Prod.snd_sum]
  simp only [Finset.sum_apply]
  rw [Finset.sum_comm]
  exact Finset.sum_congr rfl fun i hi => h i hi

theorem sum_single {n j : ℕ} (hj : j < n) (w : Vec3) :
    ∑ k ∈ Finset.range n, (Pi.single j w : ℕ → Vec3) k = w := by
  rw [Finset.sum_eq_single j]
  · rw [Pi.single_eq_same]
  · intro k _ hk
    rw [Pi.single_eq_of_ne hk]
  · intro h
    exact absurd (Finset.mem_range.2 hj) h

theorem SymFnc.total_balanced (S : SymFnc) (derivatives : Bool) (a : Atom) :
    Contrib.Balanced a.neighbors.length (S.total derivatives a) := by
  classical
  unfold SymFnc.total
  by_cases ha : S.IsAng
  · rw [if_pos ha]
    unfold PS
    refine Contrib.Balanced.sum _ _ fun j hj => Contrib.Balanced.sum _ _ fun k hk => ?_
    by_cases hjk : j < k
    · rw [if_pos hjk]
      unfold SymFnc.pairContrib
      have hj' : j < a.neighbors.length := Finset.mem_range.1 hj
      have hk' : k < a.neighbors.length := Finset.mem_range.1 hk
      simp only [List.getElem?_eq_getElem hj', List.getElem?_eq_getElem hk']
      split
      · split
        · exact Contrib.Balanced.zero _
        · unfold SymFnc.pairContribOf Contrib.Balanced
          cases derivatives
          · simp
          · simp only [if_true, Pi.add_apply, Finset.sum_add_distrib]
            rw [sum_single hj', sum_single hk']
            abel
      · exact Contrib.Balanced.zero _
    · rw [if_neg hjk]
      exact Contrib.Balanced.zero _
  · rw [if_neg ha]
    refine Contrib.Balanced.sum _ _ fun k hk => ?_
    have hk' : k < a.neighbors.length := Finset.mem_range.1 hk
    unfold RadialKernel.contrib
    simp only [List.getElem?_eq_getElem hk']
    split
    · unfold Contrib.Balanced
      cases derivatives
      · simp
      · simp only [if_true]
        rw [sum_single hk']
    · exact Contrib.Balanced.zero _

/-- Neighbours beyond the cutoff and of other elements get no derivative. -/
theorem SymFnc.total_irrelevant (S : SymFnc) (derivatives : Bool) (a : Atom) {i : ℕ} {n : Neighbor}
    (hi : a.neighbors[i]? = some n) (h : ¬ (n.d < S.rc ∧ S.checkRelevantElement n.element = true)) :
    (S.total derivatives a).2.2 i = 0 := by
  classical
  unfold SymFnc.total
  by_cases ha : S.IsAng
  · rw [if_pos ha]
    unfold PS
    rw [Prod.snd_sum, Prod.snd_sum, Finset.sum_apply]
    refine Finset.sum_eq_zero fun j _ => ?_
    rw [Prod.snd_sum, Prod.snd_sum, Finset.sum_apply]
    refine Finset.sum_eq_zero fun k _ => ?_
    by_cases hjk : j < k
    · rw [if_pos hjk]
      unfold SymFnc.pairContrib
      cases hj : a.neighbors[j]? with
      | none => rfl
      | some nj =>
        cases hk : a.neighbors[k]? with
        | none => rfl
        | some nk =>
          dsimp only
          by_cases hsel : S.pkernel.selJ nj ∧ S.pkernel.selK nj nk
          · rw [if_pos hsel]
            have hij : i ≠ j := by
              rintro rfl
              rw [hi] at hj
              cases hj
              exact h (S.pkernel_selJ ha _ hsel.1)
            have hik : i ≠ k := by
              rintro rfl
              rw [hi] at hk
              cases hk
              exact h (S.pkernel_selK ha _ _ hsel.2)
            cases S.terms nj nk with
            | none => rfl
            | some T =>
              unfold SymFnc.pairContribOf
              cases derivatives
              · rfl
              · simp [Pi.single_eq_of_ne hij, Pi.single_eq_of_ne hik]
          · rw [if_neg hsel]
            rfl
    · rw [if_neg hjk]
      rfl
  · rw [if_neg ha, Prod.snd_sum, Prod.snd_sum, Finset.sum_apply]
    refine Finset.sum_eq_zero fun k _ => ?_
    unfold RadialKernel.contrib
    cases hk : a.neighbors[k]? with
    | none => rfl
    | some nk =>
      dsimp only
      by_cases hsel : S.rkernel.sel nk
      · rw [if_pos hsel]
        have hik : i ≠ k := by
          rintro rfl
          rw [hi] at hk
          cases hk
          exact h (S.rkernel_sel ha _ hsel)
        cases derivatives
        · rfl
        · simp [Pi.single_eq_of_ne hik]
      · rw [if_neg hsel]
        rfl

end N2P2
