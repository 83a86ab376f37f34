import Verif.Lemma.SymGrpExpAng

/-! The loops of the compact angular groups. -/

namespace N2P2

/-! ### Compact functions are positive inside their support -/

theorem CoreType.f_pos (t : CoreType) (x : ℝ) (h0 : 0 ≤ x) (h1 : x < 1) : 0 < t.f x := by
  have hx : 0 < 1 - x := by linarith
  cases t with
  | COS =>
    have : -1 < Real.cos (Real.pi * x) := by
      rw [← Real.cos_pi]
      refine Real.cos_lt_cos_of_nonneg_of_le_pi (by positivity) le_rfl ?_
      nlinarith [Real.pi_pos]
    show 0 < 0.5 * (Real.cos (Real.pi * x) + 1.0)
    norm_num
    linarith
  | POLY1 =>
    have e : CoreType.POLY1.f x = (1 - x) ^ 2 * (1 + 2 * x) := by
      unfold CoreType.f; norm_num; ring
    rw [e]; positivity
  | POLY2 =>
    have e : CoreType.POLY2.f x = (1 - x) ^ 3 * (1 + 3 * x + 6 * x ^ 2) := by
      unfold CoreType.f; norm_num; ring
    rw [e]; positivity
  | POLY3 =>
    have e : CoreType.POLY3.f x = (1 - x) ^ 4 * (1 + 4 * x + 10 * x ^ 2 + 20 * x ^ 3) := by
      unfold CoreType.f; norm_num; ring
    rw [e]; positivity
  | POLY4 =>
    have e : CoreType.POLY4.f x =
        (1 - x) ^ 5 * (1 + 5 * x + 15 * x ^ 2 + 35 * x ^ 3 + 70 * x ^ 4) := by
      unfold CoreType.f; norm_num; ring
    rw [e]; positivity
  | EXP =>
    show 0 < Real.exp 1 * Real.exp _
    positivity

theorem CoreFunction.f_pos (c : CoreFunction) (x : ℝ) (h0 : 0 ≤ x) (h1 : x < 1) : 0 < c.f x := by
  unfold CoreFunction.f
  refine CoreType.f_pos _ _ ?_ ?_
  · split
    · norm_num; exact mul_nonneg (by linarith) h0
    · exact h0
  · split
    · norm_num; nlinarith
    · exact h1

theorem compact_pos {c : CompactFunction} {t : CoreType} {as : Bool} {l r x : ℝ}
    (h : c.Configured t as l r) (h1 : l < x) (h2 : x < r) : 0 < (c.fdf x).1 := by
  rw [(C16_combined_derivative_partial c t as l r h x h1 h2).1]
  obtain ⟨-, ha⟩ := compact_arg h x h1 h2
  exact CoreFunction.f_pos _ _ (abs_nonneg _) ha

/-! ### Terms of a pair -/

/-- The compact angular groups. -/
def SymGrp.IsCompAng (g : SymGrp) : Prop :=
  g.kind = .CompAngn ∨ g.kind = .CompAngw ∨ g.kind = .CompAngnWeighted ∨ g.kind = .CompAngwWeighted

/-- The function has a factor for the distance between the neighbours. -/
def SymFnc.IsNarrow (S : SymFnc) : Prop := S.kind = .CompAngn ∨ S.kind = .CompAngnWeighted

/-- Weight of a pair. -/
noncomputable def SymFnc.cweight (S : SymFnc) (nj nk : Neighbor) : ℝ :=
  match S.kind with
  | .CompAngnWeighted | .CompAngwWeighted => S.pairWeight nj nk
  | _ => 1

open Classical in
/-- Factor for the distance between the neighbours. -/
noncomputable def SymFnc.cjk (S : SymFnc) (nj nk : Neighbor) : ℝ × ℝ :=
  if S.IsNarrow then S.cr.fdf √(nk.dr - nj.dr).norm2 else (1, 0)

/-- The terms of a pair of a compact angular function. -/
noncomputable def SymFnc.cterm (S : SymFnc) (nj nk : Neighbor) : SymFnc.PairTerm :=
  let rij := nj.d
  let rik := nk.d
  let rjk := √(nk.dr - nj.dr).norm2
  let pij := S.cr.fdf nj.d
  let pik := S.cr.fdf nk.d
  let pjk := S.cjk nj nk
  let rinvijik := 1 / rij / rik
  let costijk := nj.dr.dot nk.dr * rinvijik
  let q := S.ca.fdf (Real.arccos costijk)
  let rad := pij.1 * pik.1 * pjk.1
  let ang := q.1 * S.cweight nj nk
  let dang := q.2 * (-1 / √(1 - costijk * costijk)) * S.cweight nj nk
  let rinvij := rinvijik * rik
  let rinvik := rinvijik * rij
  let rinvjk := 1 / rjk
  let phiijik := rinvij * (rinvik - rinvij * costijk) * dang
  let phiikij := rinvik * (rinvij - rinvik * costijk) * dang
  let psiijik := rinvijik * dang
  let chiij := rinvij * pij.2 * pik.1 * pjk.1
  let chiik := rinvik * pij.1 * pik.2 * pjk.1
  let chijk := -rinvjk * pij.1 * pik.1 * pjk.2
  { value := rad * ang
    p1 := rad * phiijik + ang * chiij
    p2 := rad * phiikij + ang * chiik
    p3 := rad * psiijik + ang * chijk }

open Classical in
theorem SymFnc.terms_comp {S : SymFnc} (he : ¬ S.IsExp) (ha : S.IsAng) (nj nk : Neighbor) :
    S.terms nj nk =
      if nj.dr.dot nk.dr * (1 / nj.d / nk.d) ≤ -1 ∨ 1 ≤ nj.dr.dot nk.dr * (1 / nj.d / nk.d) then none
      else if Real.arccos (nj.dr.dot nk.dr * (1 / nj.d / nk.d)) < S.angleLeftRadians ∨
        S.angleRightRadians < Real.arccos (nj.dr.dot nk.dr * (1 / nj.d / nk.d)) then none
      else some (S.cterm nj nk) := by
  unfold SymFnc.terms
  rw [SymFnc.pkernel_fdf ha, S.cachedFunction_comp he]
  have hn : ∀ w : Neighbor → Neighbor → ℝ, S.IsNarrow → S.cweight nj nk = w nj nk →
      (S.bodyCompAngn w nj nk (S.cr.fdf nj.d) (S.cr.fdf nk.d)).getD none =
      if nj.dr.dot nk.dr * (1 / nj.d / nk.d) ≤ -1 ∨ 1 ≤ nj.dr.dot nk.dr * (1 / nj.d / nk.d) then none
      else if Real.arccos (nj.dr.dot nk.dr * (1 / nj.d / nk.d)) < S.angleLeftRadians ∨
        S.angleRightRadians < Real.arccos (nj.dr.dot nk.dr * (1 / nj.d / nk.d)) then none
      else some (S.cterm nj nk) := by
    intro w h1 h2
    unfold SymFnc.bodyCompAngn SymFnc.cterm SymFnc.cjk
    dsimp only
    rw [if_pos h1, h2]
    split
    · rfl
    · split <;> rfl
  have hw : ∀ w : Neighbor → Neighbor → ℝ, ¬ S.IsNarrow → S.cweight nj nk = w nj nk →
      (S.bodyCompAngw w nj nk (S.cr.fdf nj.d) (S.cr.fdf nk.d)).getD none =
      if nj.dr.dot nk.dr * (1 / nj.d / nk.d) ≤ -1 ∨ 1 ≤ nj.dr.dot nk.dr * (1 / nj.d / nk.d) then none
      else if Real.arccos (nj.dr.dot nk.dr * (1 / nj.d / nk.d)) < S.angleLeftRadians ∨
        S.angleRightRadians < Real.arccos (nj.dr.dot nk.dr * (1 / nj.d / nk.d)) then none
      else some (S.cterm nj nk) := by
    intro w h1 h2
    unfold SymFnc.bodyCompAngw SymFnc.cterm SymFnc.cjk
    dsimp only
    rw [if_neg h1, h2]
    split
    · rfl
    · split
      · rfl
      · simp only [Option.getD_some, mul_one, mul_zero, add_zero, Option.some.injEq,
          SymFnc.PairTerm.mk.injEq, true_and, and_true]
        ring
  unfold SymFnc.pkernel
  cases hk : S.kind with
  | CompAngn => exact hn (fun _ _ => 1) (Or.inl hk) (by simp [SymFnc.cweight, hk])
  | CompAngnWeighted => exact hn S.pairWeight (Or.inr hk) (by simp [SymFnc.cweight, hk])
  | CompAngw => exact hw (fun _ _ => 1) (by simp [SymFnc.IsNarrow, hk]) (by simp [SymFnc.cweight, hk])
  | CompAngwWeighted =>
    exact hw S.pairWeight (by simp [SymFnc.IsNarrow, hk]) (by simp [SymFnc.cweight, hk])
  | CompRad => exact absurd ha (by simp [SymFnc.IsAng, hk])
  | CompRadWeighted => exact absurd ha (by simp [SymFnc.IsAng, hk])
  | _ => exact absurd (by simp [SymFnc.IsExp, hk]) he

/-- The prefactors of the group are those of the function with the scaling factor. -/
theorem SymGrp.compPrefactors_eq {S : SymFnc} {M : GrpMember} (hMs : M.scalingFactor = S.sf)
    (nj nk : Neighbor) :
    (SymGrp.compPrefactors M (S.cweight nj nk) nj.d nk.d √(nk.dr - nj.dr).norm2
      (nj.dr.dot nk.dr * (1 / (nj.d * nk.d))) (S.cr.fdf nj.d) (S.cr.fdf nk.d) (S.cjk nj nk)
      (S.ca.fdf (Real.arccos (nj.dr.dot nk.dr * (1 / (nj.d * nk.d)))))).getD (0, 0, 0) =
      ((S.cterm nj nk).p1 * S.sf, (S.cterm nj nk).p2 * S.sf, (S.cterm nj nk).p3 * S.sf) := by
  classical
  have hinv : 1 / (nj.d * nk.d) = 1 / nj.d / nk.d := by rw [div_div]
  unfold SymGrp.compPrefactors SymFnc.cterm
  dsimp only
  rw [hinv, hMs]
  generalize S.ca.fdf (Real.arccos (nj.dr.dot nk.dr * (1 / nj.d / nk.d))) = q
  generalize -1 / √(1 - nj.dr.dot nk.dr * (1 / nj.d / nk.d) *
    (nj.dr.dot nk.dr * (1 / nj.d / nk.d))) = u
  generalize 1 / nj.d / nk.d = v
  generalize S.cweight nj nk = z
  by_cases h1 : q.2 * u ≠ 0 ∧ (S.cr.fdf nj.d).1 * (S.cr.fdf nk.d).1 * (S.cjk nj nk).1 ≠ 0
  · rw [if_pos h1, Option.getD_some]
    refine Prod.ext ?_ (Prod.ext ?_ ?_)
    all_goals dsimp only; ring
  · rw [if_neg h1]
    have h0 : q.2 * u = 0 ∨ (S.cr.fdf nj.d).1 * (S.cr.fdf nk.d).1 * (S.cjk nj nk).1 = 0 := by
      by_contra h
      rw [not_or] at h
      exact h1 h
    have h0' : (q.2 * u) * ((S.cr.fdf nj.d).1 * (S.cr.fdf nk.d).1 * (S.cjk nj nk).1) = 0 := by
      rcases h0 with h | h <;> rw [h] <;> simp
    by_cases h2 : q.1 * z ≠ 0
    · rw [if_pos h2, Option.getD_some]
      refine Prod.ext ?_ (Prod.ext ?_ ?_)
      all_goals dsimp only
      · linear_combination (-(v * nk.d * (v * nj.d - v * nk.d * (nj.dr.dot nk.dr * v))) * z * S.sf)
          * h0'
      · linear_combination (-(v * nj.d * (v * nk.d - v * nj.d * (nj.dr.dot nk.dr * v))) * z * S.sf)
          * h0'
      · linear_combination (-v * z * S.sf) * h0'
    · rw [if_neg h2, Option.getD_none]
      have h2' : q.1 * z = 0 := by_contra h2
      refine Prod.ext ?_ (Prod.ext ?_ ?_)
      all_goals dsimp only; rw [h2']
      · linear_combination (-(v * nk.d * (v * nj.d - v * nk.d * (nj.dr.dot nk.dr * v))) * z * S.sf)
          * h0'
      · linear_combination (-(v * nj.d * (v * nk.d - v * nj.d * (nj.dr.dot nk.dr * v))) * z * S.sf)
          * h0'
      · linear_combination (-v * z * S.sf) * h0'

/-! ### Which members take part -/

theorem SymGrp.Formed.cang {g : SymGrp} {f : ℕ → SymFnc} (h : g.Formed f) {l : ℕ}
    (hl : l < g.rows.length) (hk : g.IsCompAng) :
    ¬ (f l).IsExp ∧ (f l).IsAng ∧ ((f l).IsNarrow ↔ g.narrow = true) ∧
      (∀ n, 0 < n.d → ((f l).pkernel.selJ n ↔ g.selJ n ∧ (f l).rl < n.d ∧ n.d < (f l).rc)) := by
  have hkl := h.kind l hl
  have hel := h.elements l hl
  have hexp : ¬ (f l).IsExp := by
    unfold SymFnc.IsExp; rw [hkl]; rcases hk with hk | hk | hk | hk <;> simp [hk]
  obtain ⟨hmin, hmax⟩ := h.range l hl hexp
  refine ⟨hexp, ?_, ?_, ?_⟩
  · unfold SymFnc.IsAng; rw [hkl]; rcases hk with hk | hk | hk | hk <;> simp [hk]
  · unfold SymFnc.IsNarrow SymGrp.narrow
    rw [hkl]; rcases hk with hk | hk | hk | hk <;> simp [hk]
  · intro n hn
    unfold SymGrp.selJ SymFnc.pkernel
    rcases hk with hk | hk | hk | hk <;> rw [hk] at hkl hel <;> simp only [hk, hkl]
    · show ((f l).e1 = n.element ∨ (f l).e2 = n.element) ∧ n.d < (f l).rc ∧ (f l).rl < n.d ↔ _
      rw [hel.1, hel.2, hmin]
      exact ⟨fun ⟨h1, h2, h3⟩ => ⟨⟨h1, h2.trans_le hmax, hn⟩, h3, h2⟩,
        fun ⟨⟨h1, _, _⟩, h3, h2⟩ => ⟨h1, h2, h3⟩⟩
    · show ((f l).e1 = n.element ∨ (f l).e2 = n.element) ∧ n.d < (f l).rc ∧ (f l).rl < n.d ↔ _
      rw [hel.1, hel.2, hmin]
      exact ⟨fun ⟨h1, h2, h3⟩ => ⟨⟨h1, h2.trans_le hmax, hn⟩, h3, h2⟩,
        fun ⟨⟨h1, _, _⟩, h3, h2⟩ => ⟨h1, h2, h3⟩⟩
    · show n.d < (f l).rc ∧ (f l).rl < n.d ↔ _
      rw [hmin]
      exact ⟨fun ⟨h2, h3⟩ => ⟨⟨h2.trans_le hmax, hn⟩, h3, h2⟩, fun ⟨_, h3, h2⟩ => ⟨h2, h3⟩⟩
    · show n.d < (f l).rc ∧ (f l).rl < n.d ↔ _
      rw [hmin]
      exact ⟨fun ⟨h2, h3⟩ => ⟨⟨h2.trans_le hmax, hn⟩, h3, h2⟩, fun ⟨_, h3, h2⟩ => ⟨h2, h3⟩⟩

theorem SymGrp.Formed.cangK {g : SymGrp} {f : ℕ → SymFnc} (h : g.Formed f) {l : ℕ}
    (hl : l < g.rows.length) (hk : g.IsCompAng) (hrc : 0 < (f l).rc) {nj nk : Neighbor}
    (hn : 0 < nk.d) (hjk : 0 < (nj.dr - nk.dr).norm) :
    (f l).pkernel.selK nj nk ↔ g.selK nj nk ∧ (f l).rl < nk.d ∧ nk.d < (f l).rc ∧
      (g.narrow = true → (f l).rl < √(nk.dr - nj.dr).norm2 ∧
        √(nk.dr - nj.dr).norm2 < (f l).rc) := by
  have hkl := h.kind l hl
  have hel := h.elements l hl
  obtain ⟨hexp, -, -, -⟩ := h.cang hl hk
  obtain ⟨hmin, hmax⟩ := h.range l hl hexp
  have hpe : (g.kind = .CompAngn ∨ g.kind = .CompAngw) →
      ((f l).pairElements nj nk ↔ g.pairElements nj nk) := by
    intro hkk
    unfold SymGrp.pairElements SymFnc.pairElements
    rcases hkk with hk | hk <;> rw [hk] at hel <;> rw [hel.1, hel.2]
  have e1 : (¬ ((f l).rc * (f l).rc ≤ (nk.dr - nj.dr).norm2 ∨ (nk.dr - nj.dr).norm2 ≤ (f l).r2l)) ↔
      (f l).rl < √(nk.dr - nj.dr).norm2 ∧ √(nk.dr - nj.dr).norm2 < (f l).rc := by
    rw [not_or, not_le, not_le, narrow_iff _ _ hrc, ← not_le (a := (nk.dr - nj.dr).norm2),
      (f l).r2l_iff hjk, not_le, dist_symm, and_comm]
  have hpos : 0 < (nk.dr - nj.dr).norm2 := by
    rw [← dist_symm] at hjk
    exact Real.sqrt_pos.1 hjk
  have e2 : (¬ (g.rmax * g.rmax ≤ (nk.dr - nj.dr).norm2 ∨
      (nk.dr - nj.dr).norm2 ≤ g.rmin * g.rmin)) ↔ √(nk.dr - nj.dr).norm2 < g.rmax := by
    rw [not_or, not_le, not_le, narrow_iff _ _ (hrc.trans_le hmax), hmin, dist_symm]
    constructor
    · exact fun h => h.1
    · exact fun h => ⟨h, by simpa using hpos⟩
  unfold SymGrp.selK SymFnc.pkernel SymGrp.narrow
  rcases hk with hk | hk | hk | hk <;> rw [hk] at hkl <;> simp only [hk, hkl]
  · show (f l).pairElements nj nk ∧ (nk.d < (f l).rc ∧ (f l).rl < nk.d) ∧ _ ↔ _
    rw [e1, e2, hpe (Or.inl hk), hmin]
    constructor
    · rintro ⟨h1, ⟨h2, h3⟩, h4, h5⟩
      exact ⟨⟨h1, ⟨h2.trans_le hmax, hn⟩, h5.trans_le hmax⟩, h3, h2, fun _ => ⟨h4, h5⟩⟩
    · rintro ⟨⟨h1, -, -⟩, h3, h2, h4⟩
      exact ⟨h1, ⟨h2, h3⟩, h4 trivial⟩
  · show (f l).pairElements nj nk ∧ nk.d < (f l).rc ∧ (f l).rl < nk.d ↔ _
    rw [hpe (Or.inr hk), hmin]
    constructor
    · rintro ⟨h1, h2, h3⟩
      exact ⟨⟨h1, h2.trans_le hmax, hn⟩, h3, h2, nofun⟩
    · rintro ⟨⟨h1, -, -⟩, h3, h2, -⟩
      exact ⟨h1, h2, h3⟩
  · show (nk.d < (f l).rc ∧ (f l).rl < nk.d) ∧ _ ↔ _
    rw [e1, e2, hmin]
    constructor
    · rintro ⟨⟨h2, h3⟩, h4, h5⟩
      exact ⟨⟨⟨h2.trans_le hmax, hn⟩, h5.trans_le hmax⟩, h3, h2, fun _ => ⟨h4, h5⟩⟩
    · rintro ⟨-, h3, h2, h4⟩
      exact ⟨⟨h2, h3⟩, h4 trivial⟩
  · show nk.d < (f l).rc ∧ (f l).rl < nk.d ↔ _
    rw [hmin]
    constructor
    · rintro ⟨h2, h3⟩
      exact ⟨⟨h2.trans_le hmax, hn⟩, h3, h2, nofun⟩
    · rintro ⟨-, h3, h2, -⟩
      exact ⟨h2, h3⟩

/-- Radial part for the first neighbour. -/
def RadijOK (S : SymFnc) (nj : Neighbor) (p : ℝ × ℝ) : Prop :=
  (S.rl < nj.d ∧ nj.d < S.rc → p = S.cr.fdf nj.d) ∧ (¬ (S.rl < nj.d ∧ nj.d < S.rc) → p.1 = 0)

theorem RadijOK.zero {S : SymFnc} (hV : S.Valid) (he : ¬ S.IsExp) {nj : Neighbor} {p : ℝ × ℝ}
    (h : RadijOK S nj p) : p.1 = 0 ↔ ¬ (S.rl < nj.d ∧ nj.d < S.rc) := by
  constructor
  · intro h0 hin
    rw [h.1 hin] at h0
    obtain ⟨t, as, hc⟩ := hV.cr he
    have := compact_pos hc hin.1 hin.2
    linarith
  · exact h.2

/-- A member which is skipped contributes nothing. -/
theorem SymGrp.Formed.break_zero {g : SymGrp} {f : ℕ → SymFnc} (h : g.Formed f) {l : ℕ}
    (hl : l < g.rows.length) (hk : g.IsCompAng) (hV : (f l).Valid) {M : GrpMember}
    (hM : g.rows[l]? = some M) {a : Atom} {d : Bool} {j k : ℕ} {nj nk : Neighbor}
    (hnj : a.neighbors[j]? = some nj) (hnk : a.neighbors[k]? = some nk)
    (hdj : nj.d = nj.dr.norm) (hdk : nk.d = nk.dr.norm) (hj : 0 < nj.d)
    (hkd : 0 < nk.d) (hT : (f l).TripletOK nj.site nk.site)
    (hcos : ¬ (nj.dr.dot nk.dr * (1 / nj.d / nk.d) ≤ -1 ∨
      1 ≤ nj.dr.dot nk.dr * (1 / nj.d / nk.d))) {p : ℝ × ℝ} (hp : RadijOK (f l) nj p)
    (hb : g.compBreak M p.1 nk.d √(nk.dr - nj.dr).norm2
      (Real.arccos (nj.dr.dot nk.dr * (1 / nj.d / nk.d)))) :
    (f l).pairContrib (f l).pkernel (f l).terms d a j k = 0 := by
  classical
  obtain ⟨he, ha, hnar, hJ⟩ := h.cang hl hk
  have hK := h.cangK hl hk hV.rc_pos hkd hT.apart
  have hMf := (h.row l M hM).1
  obtain ⟨hL, hR⟩ := h.angles l hl he ha
  unfold SymFnc.pairContrib
  rw [hnj, hnk]
  dsimp only
  by_cases hsel : (f l).pkernel.selJ nj ∧ (f l).pkernel.selK nj nk
  · rw [if_pos hsel]
    obtain ⟨h1, h2⟩ := (hJ nj hj).1 hsel.1
    obtain ⟨h3, h4, h5, h6⟩ := hK.1 hsel.2
    unfold SymGrp.compBreak at hb
    rw [hMf, hL, hR, hp.zero hV he] at hb
    rw [SymFnc.terms_comp he ha, if_neg hcos]
    rw [cos_eq hdj hdk] at hb hcos ⊢
    by_cases hout : Real.arccos (cosAngle nj.dr nk.dr) < (f l).angleLeftRadians ∨
      (f l).angleRightRadians < Real.arccos (cosAngle nj.dr nk.dr)
    · rw [if_pos hout]
    · rw [if_neg hout]
      have hend : Real.arccos (cosAngle nj.dr nk.dr) = (f l).angleLeftRadians ∨
          Real.arccos (cosAngle nj.dr nk.dr) = (f l).angleRightRadians := by
        rw [not_or, not_lt, not_lt] at hout
        rcases hb with hb | hb | hb | ⟨hb, hb'⟩ | hb | hb
        · exact absurd h2 hb
        · linarith
        · linarith
        · obtain ⟨h7, h8⟩ := h6 hb
          rcases hb' with hb' | hb' <;> linarith
        · exact Or.inl (le_antisymm hb hout.1)
        · exact Or.inr (le_antisymm hout.2 hb)
      have hab : |cosAngle nj.dr nk.dr| ≠ 1 := by
        intro hab
        rcases eq_or_eq_neg_of_abs_eq hab with hab | hab
        · exact hcos (Or.inr hab.ge)
        · exact hcos (Or.inl hab.le)
      obtain ⟨t, as, hca⟩ := hV.ca he ha
      have ht : t ≠ .EXP := by
        intro ht
        obtain ⟨h7, h8⟩ := hT.ends (by rw [hca.1, ht]) hab
        rcases hend with h9 | h9
        · exact h7 h9
        · exact h8 h9
      have hz : (f l).ca.fdf (Real.arccos (cosAngle nj.dr nk.dr)) = (0, 0) := compact_end hca ht hend
      have hct : (f l).cterm nj nk = ⟨0, 0, 0, 0⟩ := by
        unfold SymFnc.cterm
        dsimp only
        rw [cos_eq hdj hdk, hz]
        simp
      rw [hct]
      dsimp only
      unfold SymFnc.pairContribOf
      cases d <;> simp
  · rw [if_neg hsel]

/-! ### The loops -/

theorem SymGrp.pairWeight_eq {g : SymGrp} {f : ℕ → SymFnc} (h : g.Formed f) {l : ℕ}
    (hl : l < g.rows.length) (hk : g.IsCompAng) {M : GrpMember} (hMf : M.sf = f l)
    (nj nk : Neighbor) : g.pairWeight M nj nk = (f l).cweight nj nk := by
  have hkl := h.kind l hl
  unfold SymGrp.pairWeight SymFnc.cweight
  rcases hk with hk | hk | hk | hk <;> rw [hk] at hkl <;> simp only [hk, hkl]
  · rw [hMf]; rfl
  · rw [hMf]; rfl

/-- State of the loop over members before member `l`. -/
def CState (g : SymGrp) (f : ℕ → SymFnc) (a : Atom) (L : CacheLayout) (R : ℝ) (nj nk : Neighbor)
    (X : ℕ → Contrib) (l : ℕ) (s : SymGrp.CompState × Buf × Atom) : Prop :=
  GState f g.rows.length a L R X s.2 ∧ (g.narrow = true → ∀ l', l = l' + 1 →
    s.1.skip = true ∨ s.1.jk = some ((f l').cr.fdf √(nk.dr - nj.dr).norm2))

theorem SymGrp.compAngMember_eq {g : SymGrp} {f : ℕ → SymFnc} {a : Atom} {d : Bool}
    {L : CacheLayout} {R : ℝ} (hk : g.IsCompAng) (hF : g.Formed f)
    (hr : ∀ l < g.rows.length, (f l).GroupReady a d L R) {j k : ℕ} (hjk : j < k)
    {nj nk : Neighbor} (hnj : a.neighbors[j]? = some nj) (hnk : a.neighbors[k]? = some nk)
    (hselJ : g.selJ nj) (hselK : g.selK nj nk)
    (hcos : ¬ (nj.dr.dot nk.dr * (1 / nj.d / nk.d) ≤ -1 ∨
      1 ≤ nj.dr.dot nk.dr * (1 / nj.d / nk.d)))
    {radij : ℕ → ℝ × ℝ} (hrad : ∀ l < g.rows.length, RadijOK (f l) nj (radij l))
    (X : ℕ → Contrib) (l : ℕ) (hl : l < g.rows.length) (s : SymGrp.CompState × Buf × Atom)
    (hs : CState g f a L R nj nk X l s) :
    ∃ s', g.compAngMember d j k radij s l = some s' ∧ CState g f a L R nj nk
        (X + Pi.single l ((f l).pairContrib (f l).pkernel (f l).terms d a j k)) (l + 1) s' := by
  classical
  obtain ⟨c, r, a'⟩ := s
  obtain ⟨⟨caches, hc, h2⟩, hsk⟩ := hs
  dsimp only at h2 hsk
  rw [Prod.mk.injEq] at h2
  obtain ⟨rfl, rfl⟩ := h2
  obtain ⟨M, hM, hMf, hMs⟩ := hF.get hl
  obtain ⟨hexp, hang, hnar, hJ⟩ := hF.cang hl hk
  have hmj := List.mem_of_getElem? hnj
  have hmk := List.mem_of_getElem? hnk
  have hR := hr l hl
  have hdj := hR.list.d nj hmj
  have hdk := hR.list.d nk hmk
  have hpj := hR.list.pos nj hmj
  have hpk := hR.list.pos nk hmk
  have hT : (f l).TripletOK nj.site nk.site := by
    have henv : a.env = a.neighbors.map Neighbor.site := rfl
    obtain ⟨hj', ej⟩ := List.getElem?_eq_some_iff.1 hnj
    obtain ⟨hk', ek⟩ := List.getElem?_eq_some_iff.1 hnk
    have := List.pairwise_iff_getElem.1 (hR.triplets hexp hang) j k (by simpa [henv] using hj')
      (by simpa [henv] using hk') hjk
    simpa [henv, ej, ek] using this
  have hK := hF.cangK hl hk hR.valid.rc_pos hpk hT.apart
  obtain ⟨hL, hRr⟩ := hF.angles l hl hexp hang
  unfold SymGrp.compAngMember
  rw [hM]
  simp only [Option.bind_eq_bind, Option.bind_some]
  rw [gAtom_neighbor f _ a X caches j hnj, gAtom_neighbor f _ a X caches k hnk]
  simp only [Option.bind_some]
  have hinv : 1 / (nj.d * nk.d) = 1 / nj.d / nk.d := by rw [div_div]
  have hbr : g.compBreak M (radij l).1 (gN f g.rows.length X k (caches k) nk).d
      √((gN f g.rows.length X k (caches k) nk).dr - (gN f g.rows.length X j (caches j) nj).dr).norm2
      (Real.arccos ((gN f g.rows.length X j (caches j) nj).dr.dot
        (gN f g.rows.length X k (caches k) nk).dr *
        (1 / ((gN f g.rows.length X j (caches j) nj).d *
          (gN f g.rows.length X k (caches k) nk).d)))) ↔
      g.compBreak M (radij l).1 nk.d √(nk.dr - nj.dr).norm2
        (Real.arccos (nj.dr.dot nk.dr * (1 / nj.d / nk.d))) := by
    rw [← hinv]; exact Iff.rfl
  by_cases hb : g.compBreak M (radij l).1 nk.d √(nk.dr - nj.dr).norm2
      (Real.arccos (nj.dr.dot nk.dr * (1 / nj.d / nk.d)))
  · rw [if_pos (hbr.2 hb)]
    rw [hF.break_zero hl hk hR.valid hM hnj hnk hdj hdk hpj hpk hT hcos (hrad l hl) hb,
      Pi.single_zero, add_zero]
    exact ⟨_, rfl, ⟨caches, hc, rfl⟩, fun _ _ _ => Or.inl rfl⟩
  · rw [if_neg (fun h => hb (hbr.1 h))]
    -- the member takes part
    have hb' := hb
    unfold SymGrp.compBreak at hb'
    rw [hMf, hL, hRr, (hrad l hl).zero hR.valid hexp] at hb'
    push Not at hb'
    obtain ⟨b1, b2, b3, b4, b5, b6⟩ := hb'
    have hsj : (f l).pkernel.selJ nj := (hJ nj hpj).2 ⟨hselJ, b1⟩
    have hsk' : (f l).pkernel.selK nj nk := hK.2 ⟨hselK, b2, b3, b4⟩
    obtain ⟨hcj, hrj⟩ := (f l).pkernel_selJ hang nj hsj
    obtain ⟨hck, hrk⟩ := (f l).pkernel_selK hang nj nk hsk'
    obtain ⟨ci, cache, hci, e, hok⟩ := hR.read hc hnk hck hrk f g.rows.length X
    rw [(f l).cachedFunction_comp hexp] at e
    have hci' : M.sf.cacheIndices[(gN f g.rows.length X k (caches k) nk).element]? = some ci := by
      rw [hMf]; exact hci
    rw [hci']
    simp only [Option.bind_some]
    rw [hMf, e]
    simp only [Option.bind_some]
    rw [gAtom_setNeighbor f _ a X caches k hnk]
    have hterm : (f l).terms nj nk = some ((f l).cterm nj nk) := by
      rw [SymFnc.terms_comp hexp hang, if_neg hcos, if_neg]
      rw [not_or, not_lt, not_lt]
      exact ⟨b5.le, b6.le⟩
    have hcon : (f l).pairContrib (f l).pkernel (f l).terms d a j k =
        (f l).pairContribOf d j k nj nk ((f l).cterm nj nk) := by
      unfold SymFnc.pairContrib
      rw [hnj, hnk]
      simp only
      rw [if_pos ⟨hsj, hsk'⟩, hterm]
    have hradl : radij l = (f l).cr.fdf nj.d := (hrad l hl).1 b1
    -- the factor for the distance between the neighbours
    obtain ⟨c', hc', hcjk, hcinv⟩ : ∃ c' : SymGrp.CompState,
        (if g.narrow then
          if M.fresh = true ∨ c.skip = true then
            (⟨false, some ((f l).cr.fdf √((gN f g.rows.length X k (caches k) nk).dr -
              (gN f g.rows.length X j (caches j) nj).dr).norm2)⟩ : SymGrp.CompState) else c
        else ⟨false, some (1, 0)⟩) = c' ∧ c'.jk = some ((f l).cjk nj nk) ∧
        (g.narrow = true → ∀ l', l + 1 = l' + 1 →
          c'.skip = true ∨ c'.jk = some ((f l').cr.fdf √(nk.dr - nj.dr).norm2)) := by
      refine ⟨_, rfl, ?_⟩
      unfold SymFnc.cjk
      by_cases hn : g.narrow = true
      · rw [if_pos hn, if_pos (hnar.2 hn)]
        have key : (if M.fresh = true ∨ c.skip = true then
            (⟨false, some ((f l).cr.fdf √((gN f g.rows.length X k (caches k) nk).dr -
              (gN f g.rows.length X j (caches j) nj).dr).norm2)⟩ : SymGrp.CompState) else c).jk =
            some ((f l).cr.fdf √(nk.dr - nj.dr).norm2) := by
          by_cases hf : M.fresh = true ∨ c.skip = true
          · rw [if_pos hf]; rfl
          · rw [if_neg hf]
            rw [not_or] at hf
            obtain ⟨l', rfl, -, h1⟩ := hF.fresh l M hM (by simpa using hf.1)
            rcases hsk hn l' rfl with h3 | h3
            · exact absurd h3 hf.2
            · rw [h3, h1 (hnar.2 hn)]
        refine ⟨key, fun _ l' hl' => Or.inr ?_⟩
        cases hl'
        exact key
      · rw [if_neg hn, if_neg (fun h => hn (hnar.1 h))]
        exact ⟨rfl, fun h => absurd h hn⟩
    have hwt : g.pairWeight M (gN f g.rows.length X j (caches j) nj)
        (gN f g.rows.length X k cache nk) = (f l).cweight nj nk := by
      rw [SymGrp.pairWeight_eq hF hl hk hMf]
      unfold SymFnc.cweight
      cases (f l).kind <;> rfl
    rw [hc', hcjk]
    simp only [Option.bind_some]
    rw [hwt, hradl]
    have hval : (gRes X).set l (gRes X l + ((f l).cr.fdf nj.d).1 * ((f l).cr.fdf nk.d).1 *
        ((f l).cjk nj nk).1 * (((f l).ca.fdf (Real.arccos (nj.dr.dot nk.dr *
          (1 / (nj.d * nk.d))))).1 * (f l).cweight nj nk)) =
        (gRes X).set l (gRes X l + ((f l).cterm nj nk).value) := by
      unfold SymFnc.cterm
      dsimp only
      rw [hinv]
    have hpre := SymGrp.compPrefactors_eq hMs nj nk
    have hGT : ∀ p : Option (ℝ × ℝ × ℝ), p.getD (0, 0, 0) = (((f l).cterm nj nk).p1 * (f l).sf,
        ((f l).cterm nj nk).p2 * (f l).sf, ((f l).cterm nj nk).p3 * (f l).sf) →
        (f l).pairContribOf d j k nj nk ((f l).cterm nj nk) = (((f l).cterm nj nk).value, if d then
          ((p.getD (0, 0, 0)).1 • nj.dr + (p.getD (0, 0, 0)).2.1 • nk.dr,
          Pi.single j ((p.getD (0, 0, 0)).1 • nj.dr + (p.getD (0, 0, 0)).2.2 • (nk.dr - nj.dr))
          + Pi.single k ((p.getD (0, 0, 0)).2.1 • nk.dr - (p.getD (0, 0, 0)).2.2 • (nk.dr - nj.dr)))
          else 0) := by
      intro p hp
      rw [hp]
      rfl
    have hcon' := hcon.trans (hGT _ hpre)
    rw [hcon']
    have hnjd : (gN f g.rows.length X j (caches j) nj).d = nj.d := rfl
    have hnkd : (gN f g.rows.length X k cache nk).d = nk.d := rfl
    have hnjr : (gN f g.rows.length X j (caches j) nj).dr = nj.dr := rfl
    have hnkd' : (gN f g.rows.length X k (caches k) nk).d = nk.d := rfl
    have hnkr' : (gN f g.rows.length X k (caches k) nk).dr = nk.dr := rfl
    simp only [hnjd, hnkd, hnjr, hnkd', hnkr']
    rw [hval]
    cases d with
    | false =>
      refine ⟨_, rfl, ⟨_, hok, ?_⟩, hcinv⟩
      simp only [Bool.false_eq_true, if_false]
      rw [gRes_set X l _ 0, gAtom_value]
    | true =>
      simp only [if_true]
      cases hP : SymGrp.compPrefactors M ((f l).cweight nj nk) nj.d nk.d √(nk.dr - nj.dr).norm2
          (nj.dr.dot nk.dr * (1 / (nj.d * nk.d))) ((f l).cr.fdf nj.d) ((f l).cr.fdf nk.d)
          ((f l).cjk nj nk) ((f l).ca.fdf (Real.arccos (nj.dr.dot nk.dr * (1 / (nj.d * nk.d))))) with
      | none =>
        refine ⟨_, rfl, ⟨_, hok, ?_⟩, hcinv⟩
        simp only [Option.getD_none, zero_smul, add_zero, Pi.single_zero, sub_zero]
        rw [gRes_set X l _ 0]
        have := gAtom_value f g.rows.length a X (Function.update caches k cache) l
          ((f l).cterm nj nk).value
        rw [← this]
        rfl
      | some t =>
        simp only [Option.getD_some]
        rw [savePair_gAtom X _ hl hnj hnk (nj' := gN f g.rows.length X j (caches j) nj)
          (nk' := gN f g.rows.length X k cache nk) hR.allocated hcj hrj hck hrk rfl rfl rfl rfl M
          hMf _ _ _ ((f l).cterm nj nk).value]
        refine ⟨_, rfl, ⟨_, hok, ?_⟩, hcinv⟩
        dsimp only
        rw [gRes_set]

theorem SymGrp.compAngStep_eq {g : SymGrp} {f : ℕ → SymFnc} {a : Atom} {d : Bool} {L : CacheLayout}
    {R : ℝ} (hk : g.IsCompAng) (hF : g.Formed f)
    (hr : ∀ l < g.rows.length, (f l).GroupReady a d L R) {j : ℕ} {nj : Neighbor}
    (hnj : a.neighbors[j]? = some nj) (hselJ : g.selJ nj)
    {radij : ℕ → ℝ × ℝ} (hrad : ∀ l < g.rows.length, RadijOK (f l) nj (radij l))
    {k : ℕ} (hjk : j < k) (hkl : k < a.neighbors.length)
    (X : ℕ → Contrib) (s : Buf × Atom) (hs : GState f g.rows.length a L R X s) :
    ∃ s', g.compAngStep d j radij s k = some s' ∧ GState f g.rows.length a L R
      (X + mask g.rows.length fun l =>
        (f l).pairContrib (f l).pkernel (f l).terms d a j k) s' := by
  classical
  have hnk : a.neighbors[k]? = some a.neighbors[k] := List.getElem?_eq_getElem hkl
  generalize a.neighbors[k] = nk at hnk
  have hmj := List.mem_of_getElem? hnj
  have hmk := List.mem_of_getElem? hnk
  unfold SymGrp.compAngStep
  obtain ⟨caches, hc, rfl⟩ := hs
  rw [gAtom_neighbor f _ a X caches j hnj, gAtom_neighbor f _ a X caches k hnk]
  simp only [Option.bind_eq_bind, Option.bind_some]
  have hinv : 1 / (nj.d * nk.d) = 1 / nj.d / nk.d := by rw [div_div]
  have hsel' : g.selK (gN f g.rows.length X j (caches j) nj) (gN f g.rows.length X k (caches k) nk)
      ↔ g.selK nj nk := by
    unfold SymGrp.selK
    cases g.kind <;> exact Iff.rfl
  have hcond : (g.selK (gN f g.rows.length X j (caches j) nj)
        (gN f g.rows.length X k (caches k) nk) ∧
      ¬ ((gN f g.rows.length X j (caches j) nj).dr.dot (gN f g.rows.length X k (caches k) nk).dr *
        (1 / ((gN f g.rows.length X j (caches j) nj).d *
          (gN f g.rows.length X k (caches k) nk).d)) ≤ -1 ∨
        1 ≤ (gN f g.rows.length X j (caches j) nj).dr.dot
          (gN f g.rows.length X k (caches k) nk).dr *
        (1 / ((gN f g.rows.length X j (caches j) nj).d *
          (gN f g.rows.length X k (caches k) nk).d)))) ↔
      g.selK nj nk ∧ ¬ (nj.dr.dot nk.dr * (1 / nj.d / nk.d) ≤ -1 ∨
        1 ≤ nj.dr.dot nk.dr * (1 / nj.d / nk.d)) := by
    rw [hsel', ← hinv]; exact Iff.rfl
  by_cases hsel : g.selK nj nk ∧ ¬ (nj.dr.dot nk.dr * (1 / nj.d / nk.d) ≤ -1 ∨
        1 ≤ nj.dr.dot nk.dr * (1 / nj.d / nk.d))
  · rw [if_pos (hcond.2 hsel)]
    obtain ⟨s', es, hs'⟩ := foldlM_range_inv (g.compAngMember d j k radij)
      (fun l s => CState g f a L R nj nk
        (X + mask l fun l => (f l).pairContrib (f l).pkernel (f l).terms d a j k) l s)
      g.rows.length (⟨false, none⟩, gRes X, gAtom f g.rows.length a X caches)
      (by
        intro l hl s hs
        obtain ⟨s', e', hs'⟩ := SymGrp.compAngMember_eq hk hF hr hjk hnj hnk hselJ hsel.1 hsel.2
          hrad _ l hl s hs
        refine ⟨s', e', ?_⟩
        rw [mask_succ, ← add_assoc]
        exact hs')
      (by
        rw [mask_zero, add_zero]
        exact ⟨⟨_, hc, rfl⟩, fun _ l' hl' => by omega⟩)
    refine ⟨s'.2, ?_, hs'.1⟩
    rw [es]
    rfl
  · rw [if_neg (fun h => hsel (hcond.1 h))]
    refine ⟨_, rfl, caches, hc, ?_⟩
    have : (X + mask g.rows.length fun l =>
        (f l).pairContrib (f l).pkernel (f l).terms d a j k) = X := by
      funext l
      unfold mask
      rw [Pi.add_apply]
      by_cases hl : l < g.rows.length
      · rw [if_pos hl]
        obtain ⟨hexp, hang, hnar, hJ⟩ := hF.cang hl hk
        have hR := hr l hl
        have hT : (f l).TripletOK nj.site nk.site := by
          have henv : a.env = a.neighbors.map Neighbor.site := rfl
          obtain ⟨hj', ej⟩ := List.getElem?_eq_some_iff.1 hnj
          obtain ⟨hk', ek⟩ := List.getElem?_eq_some_iff.1 hnk
          have := List.pairwise_iff_getElem.1 (hR.triplets hexp hang) j k
            (by simpa [henv] using hj') (by simpa [henv] using hk') hjk
          simpa [henv, ej, ek] using this
        have hK := hF.cangK hl hk hR.valid.rc_pos (hR.list.pos nk hmk) hT.apart
        have : (f l).pairContrib (f l).pkernel (f l).terms d a j k = 0 := by
          unfold SymFnc.pairContrib
          rw [hnj, hnk]
          dsimp only
          by_cases h1 : (f l).pkernel.selJ nj ∧ (f l).pkernel.selK nj nk
          · rw [if_pos h1, SymFnc.terms_comp hexp hang]
            have hcos := not_and_not_right.1 hsel (hK.1 h1.2).1
            rw [if_pos hcos]
          · rw [if_neg h1]
        show X l + (f l).pairContrib (f l).pkernel (f l).terms d a j k = X l
        rw [this, add_zero]
      · rw [if_neg hl, add_zero]
    rw [this]

theorem SymGrp.compRadij_eq {g : SymGrp} {f : ℕ → SymFnc} {a : Atom} {d : Bool} {L : CacheLayout}
    {R : ℝ} (hk : g.IsCompAng) (hF : g.Formed f)
    (hr : ∀ l < g.rows.length, (f l).GroupReady a d L R) {j : ℕ} {nj : Neighbor}
    (hnj : a.neighbors[j]? = some nj) (hselJ : g.selJ nj) (X : ℕ → Contrib)
    (radij : ℕ → ℝ × ℝ) (a' : Atom) (hs : GState f g.rows.length a L R X (gRes X, a')) :
    ∃ s', (List.range g.rows.length).foldlM (g.compRadij j) (radij, a') = some s' ∧
      (∀ l < g.rows.length, RadijOK (f l) nj (s'.1 l)) ∧
      GState f g.rows.length a L R X (gRes X, s'.2) := by
  classical
  refine foldlM_range_inv (g.compRadij j) (fun i s => (∀ l < i, RadijOK (f l) nj (s.1 l)) ∧
    GState f g.rows.length a L R X (gRes X, s.2)) _ _ ?_ ⟨fun l hl => by omega, hs⟩
  intro l hl s hs
  obtain ⟨rad, a''⟩ := s
  obtain ⟨h1, caches, hc, h2⟩ := hs
  rw [Prod.mk.injEq] at h2
  obtain ⟨-, rfl⟩ := h2
  obtain ⟨M, hM, hMf, hMs⟩ := hF.get hl
  obtain ⟨hexp, hang, hnar, hJ⟩ := hF.cang hl hk
  have hR := hr l hl
  have hpj := hR.list.pos nj (List.mem_of_getElem? hnj)
  have hupd : ∀ p : ℝ × ℝ, RadijOK (f l) nj p →
      ∀ i < l + 1, RadijOK (f i) nj (Function.update rad l p i) := by
    intro p hp i hi
    by_cases hil : i = l
    · subst hil; simpa using hp
    · rw [Function.update_of_ne hil]
      exact h1 i (by omega)
  unfold SymGrp.compRadij
  rw [hM]
  simp only [Option.bind_eq_bind, Option.bind_some]
  rw [gAtom_neighbor f _ a X caches j hnj]
  simp only [Option.bind_some]
  have hcond : (M.sf.rl < (gN f g.rows.length X j (caches j) nj).d ∧
      (gN f g.rows.length X j (caches j) nj).d < M.sf.rc) ↔ ((f l).rl < nj.d ∧ nj.d < (f l).rc) := by
    rw [hMf]; exact Iff.rfl
  by_cases hin : (f l).rl < nj.d ∧ nj.d < (f l).rc
  · rw [if_pos (hcond.2 hin)]
    obtain ⟨hdl, hrel⟩ := (f l).pkernel_selJ hang nj ((hJ nj hpj).2 ⟨hselJ, hin⟩)
    obtain ⟨ci, cache, hci, e, hok⟩ := hR.read hc hnj hdl hrel f g.rows.length X
    rw [(f l).cachedFunction_comp hexp] at e
    have hci' : M.sf.cacheIndices[(gN f g.rows.length X j (caches j) nj).element]? = some ci := by
      rw [hMf]; exact hci
    rw [hci']
    simp only [Option.bind_some]
    rw [hMf, e]
    simp only [Option.bind_some]
    rw [gAtom_setNeighbor f _ a X caches j hnj]
    exact ⟨_, rfl, hupd _ ⟨fun _ => rfl, fun h => absurd hin h⟩, _, hok, rfl⟩
  · rw [if_neg (fun h => hin (hcond.1 h))]
    exact ⟨_, rfl, hupd _ ⟨fun h => absurd h hin, fun _ => rfl⟩, caches, hc, rfl⟩

theorem SymGrp.compAngOuterStep_eq {g : SymGrp} {f : ℕ → SymFnc} {a : Atom} {d : Bool}
    {L : CacheLayout} {R : ℝ} (hk : g.IsCompAng) (hF : g.Formed f)
    (hr : ∀ l < g.rows.length, (f l).GroupReady a d L R) {m : ℕ} (hm : m ≤ a.neighbors.length)
    {j : ℕ} (hj : j < a.neighbors.length) (X : ℕ → Contrib) (s : (ℕ → ℝ × ℝ) × Buf × Atom)
    (hs : GState f g.rows.length a L R X s.2) :
    ∃ s', g.compAngOuterStep d m s j = some s' ∧ GState f g.rows.length a L R
      (X + gOuter f g.rows.length d a m j) s'.2 := by
  classical
  have hnj : a.neighbors[j]? = some a.neighbors[j] := List.getElem?_eq_getElem hj
  generalize a.neighbors[j] = nj at hnj
  unfold SymGrp.compAngOuterStep
  obtain ⟨rad, s2⟩ := s
  dsimp only at hs
  obtain ⟨caches, hc, rfl⟩ := hs
  dsimp only
  rw [gAtom_neighbor f _ a X caches j hnj]
  simp only [Option.bind_eq_bind, Option.bind_some]
  have hsel' : g.selJ (gN f g.rows.length X j (caches j) nj) ↔ g.selJ nj := by
    unfold SymGrp.selJ
    cases g.kind <;> exact Iff.rfl
  by_cases hsel : g.selJ nj
  · rw [if_pos (hsel'.2 hsel)]
    obtain ⟨s1, e1, hrad, hs1⟩ := SymGrp.compRadij_eq hk hF hr hnj hsel X rad _ ⟨caches, hc, rfl⟩
    rw [e1]
    simp only [Option.bind_some]
    obtain ⟨s', e, hs'⟩ := GState.inner (d := d) (m := m) (g.compAngStep d j s1.1)
      (fun k hjk hkm X s hs => SymGrp.compAngStep_eq hk hF hr hnj hsel hrad hjk
        (by omega) X s hs) X _ hs1
    rw [e]
    exact ⟨_, rfl, hs'⟩
  · rw [if_neg (fun h => hsel (hsel'.1 h))]
    refine ⟨_, rfl, caches, hc, ?_⟩
    dsimp only
    rw [gOuter_zero hnj fun l hl h => hsel (((hF.cang hl hk).2.2.2 nj
      ((hr l hl).list.pos nj (List.mem_of_getElem? hnj))).1 h).1, add_zero]

end N2P2
