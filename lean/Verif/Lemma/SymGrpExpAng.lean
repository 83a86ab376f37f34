import Verif.Lemma.SymGrpRad

/-! The loops of the Gaussian angular groups. -/

namespace N2P2

/-- The kept exponential and shifted distances are those of the function `S` for the pair. -/
structure ShiftOK (S : SymFnc) (nj nk : Neighbor) (e : SymGrp.ExpShift) : Prop where
  vexp : e.vexp = if S.kind = .ExpAngw then
      Real.exp (-S.eta * ((nj.d - S.rs) * (nj.d - S.rs) + (nk.d - S.rs) * (nk.d - S.rs)))
    else Real.exp (-S.eta * ((nj.d - S.rs) * (nj.d - S.rs) + (nk.d - S.rs) * (nk.d - S.rs)
      + (√(nk.dr - nj.dr).norm2 - S.rs) * (√(nk.dr - nj.dr).norm2 - S.rs)))
  shift : S.rs ≠ 0 ∨ S.kind = .ExpAngnWeighted → e.rijs = nj.d - S.rs ∧ e.riks = nk.d - S.rs ∧
    (S.kind ≠ .ExpAngw → e.rjks = √(nk.dr - nj.dr).norm2 - S.rs)

/-- The terms computed in a group, which include the scaling factor, and those of the function. -/
def GTerm (d : Bool) (S : SymFnc) (nj nk : Neighbor) (t t' : SymFnc.PairTerm) : Prop :=
  t'.value = t.value ∧ (d = true → t'.p1 = t.p1 * S.sf ∧ t'.p2 = t.p2 * S.sf ∧
    t'.p3 • (nk.dr - nj.dr) = (t.p3 * S.sf) • (nk.dr - nj.dr))

theorem vec_of_norm2 {v : Vec3} (h : √v.norm2 = 0) : v = 0 := by
  have h0 : v.norm2 ≤ 0 := Real.sqrt_eq_zero'.1 h
  have e : v.norm2 = v 0 * v 0 + v 1 * v 1 + v 2 * v 2 := by
    simp [Vec3.norm2]
  rw [e] at h0
  have h1 := mul_self_nonneg (v 0)
  have h2 := mul_self_nonneg (v 1)
  have h3 := mul_self_nonneg (v 2)
  funext i
  fin_cases i
  · exact mul_self_eq_zero.1 (le_antisymm (by dsimp; linarith) (mul_self_nonneg _))
  · exact mul_self_eq_zero.1 (le_antisymm (by dsimp; linarith) (mul_self_nonneg _))
  · exact mul_self_eq_zero.1 (le_antisymm (by dsimp; linarith) (mul_self_nonneg _))

theorem fdiv_factor {S : SymFnc} (hz : 0 < S.zeta) (hl : S.lambda ≠ 0) :
    ∃ x, ((fdiv (2 * S.eta) S.zeta).bind fun x => fdiv x S.lambda) = some x ∧
      S.zeta * S.lambda * x = 2 * S.eta := by
  refine ⟨2 * S.eta / S.zeta / S.lambda, ?_, by field_simp⟩
  simp [fdiv, hz.ne', hl]

theorem grpPower_eq {S : SymFnc} {M : GrpMember} (hM : M.sf = S) (v p : ℝ) :
    SymGrp.power M v p = S.expAngPower v p := by
  unfold SymGrp.power SymFnc.expAngPower
  rw [hM]

theorem shiftExpAngn_ok {S : SymFnc} {M : GrpMember} (hk : S.kind = .ExpAngn) (hM : M.sf = S)
    (hrs : 0 ≤ S.rs) {nj nk : Neighbor} {e : SymGrp.ExpShift}
    (hinv : M.fresh = false → ShiftOK S nj nk e) :
    ShiftOK S nj nk (SymGrp.shiftExpAngn M nj.d nk.d (√(nk.dr - nj.dr).norm2) e) := by
  classical
  unfold SymGrp.shiftExpAngn
  rw [hM]
  by_cases hf : M.fresh = true
  · rw [if_pos hf]
    by_cases h0 : 0 < S.rs
    · rw [if_pos h0]
      exact ⟨by rw [if_neg (by rw [hk]; decide)], fun _ => ⟨rfl, rfl, fun _ => rfl⟩⟩
    · rw [if_neg h0]
      have h00 : S.rs = 0 := le_antisymm (not_lt.1 h0) hrs
      refine ⟨?_, ?_⟩
      · rw [if_neg (by rw [hk]; decide), h00]
        simp only [sub_zero]
      · rintro (h | h)
        · exact absurd h00 h
        · rw [hk] at h; cases h
  · rw [if_neg hf]
    exact hinv (by simpa using hf)

theorem shiftExpAngw_ok {S : SymFnc} {M : GrpMember} (hk : S.kind = .ExpAngw) (hM : M.sf = S)
    (hrs : 0 ≤ S.rs) {nj nk : Neighbor} {e : SymGrp.ExpShift}
    (hinv : M.fresh = false → ShiftOK S nj nk e) :
    ShiftOK S nj nk (SymGrp.shiftExpAngw M nj.d nk.d e) := by
  classical
  unfold SymGrp.shiftExpAngw
  rw [hM]
  by_cases hf : M.fresh = true
  · rw [if_pos hf]
    by_cases h0 : 0 < S.rs
    · rw [if_pos h0]
      exact ⟨by rw [if_pos hk], fun _ => ⟨rfl, rfl, fun h => absurd hk h⟩⟩
    · rw [if_neg h0]
      have h00 : S.rs = 0 := le_antisymm (not_lt.1 h0) hrs
      refine ⟨?_, ?_⟩
      · rw [if_pos hk, h00]
        simp only [sub_zero]
      · rintro (h | h)
        · exact absurd h00 h
        · rw [hk] at h; cases h
  · rw [if_neg hf]
    exact hinv (by simpa using hf)

theorem shiftExpAngnWeighted_ok {S : SymFnc} {M : GrpMember} (hk : S.kind = .ExpAngnWeighted)
    (hM : M.sf = S) {nj nk : Neighbor} {e : SymGrp.ExpShift}
    (hinv : M.fresh = false → ShiftOK S nj nk e) :
    ShiftOK S nj nk (SymGrp.shiftExpAngnWeighted M nj.d nk.d (√(nk.dr - nj.dr).norm2) e) := by
  classical
  unfold SymGrp.shiftExpAngnWeighted
  rw [hM]
  by_cases hf : M.fresh = true
  · rw [if_pos hf]
    exact ⟨by rw [if_neg (by rw [hk]; decide)], fun _ => ⟨rfl, rfl, fun _ => rfl⟩⟩
  · rw [if_neg hf]
    exact hinv (by simpa using hf)

theorem bodyExpAngn_eq {S : SymFnc} {M : GrpMember} {d : Bool} (hV : S.Valid)
    (hk : S.kind = .ExpAngn) (hM : M.sf = S) (hN : M.factorNorm = 2 ^ (1 - S.zeta) * S.sf)
    (hD : M.factorDeriv = (fdiv (2 * S.eta) S.zeta).bind fun x => fdiv x S.lambda)
    (hrs : 0 ≤ S.rs) (hlam : d = true → S.lambda ≠ 0) {nj nk : Neighbor} (hj : 0 < nj.d)
    (hkd : 0 < nk.d) (pij pik : ℝ × ℝ) {fc : CutoffFunction} (hfc : S.fc.fdf = fc.fdf)
    {e : SymGrp.ExpShift} (hinv : M.fresh = false → ShiftOK S nj nk e) :
    ∃ e' t', SymGrp.bodyExpAngn fc d M nj nk pij pik e = some (e', t') ∧ ShiftOK S nj nk e' ∧
      ∃ t, S.bodyExpAngn (fun _ _ => 1) nj nk pij pik = some (some t) ∧ GTerm d S nj nk t t' := by
  classical
  have he : S.IsExp := by simp [SymFnc.IsExp, hk]
  have ha : S.IsAng := by simp [SymFnc.IsAng, hk]
  have hE := shiftExpAngn_ok hk hM hrs hinv
  unfold SymGrp.bodyExpAngn SymFnc.bodyExpAngn
  dsimp only
  generalize SymGrp.shiftExpAngn M nj.d nk.d (√(nk.dr - nj.dr).norm2) e = e' at hE ⊢
  have hv := hE.vexp
  rw [if_neg (by rw [hk]; decide)] at hv
  obtain ⟨fg, efg, -⟩ := SymFnc.expAngPower_spec hV he ha e'.vexp
    (1 + S.lambda * (nj.dr.dot nk.dr * (1 / nj.d / nk.d)))
  simp only [hM, grpPower_eq hM, one_mul, ← hv, efg, Option.bind_eq_bind, Option.bind_some, ← hfc, hN]
  cases d with
  | false =>
    exact ⟨_, _, rfl, hE, _, rfl, rfl, nofun⟩
  | true =>
    simp only [if_true]
    obtain ⟨x, hx, hxx⟩ := fdiv_factor (hV.zeta he ha) (hlam rfl)
    rw [hD, hx]
    simp only [Option.bind_some]
    by_cases h0 : 0 < S.rs
    · rw [if_pos h0]
      obtain ⟨h1, h2, h3⟩ := hE.shift (Or.inl h0.ne')
      refine ⟨_, _, rfl, hE, _, rfl, rfl, fun _ => ⟨?_, ?_, congrArg (· • _) ?_⟩⟩
      all_goals dsimp only
      · rw [h1]
        linear_combination (-(fg * (2 ^ (1 - S.zeta) * S.sf)) * pij.1 * pik.1 *
          (S.fc.fdf √(nk.dr - nj.dr).norm2).1 *
          (1 + S.lambda * (nj.dr.dot nk.dr * (1 / nj.d / nk.d))) * (nj.d - S.rs) / nj.d) * hxx
      · rw [h2]
        linear_combination (-(fg * (2 ^ (1 - S.zeta) * S.sf)) * pij.1 * pik.1 *
          (S.fc.fdf √(nk.dr - nj.dr).norm2).1 *
          (1 + S.lambda * (nj.dr.dot nk.dr * (1 / nj.d / nk.d))) * (nk.d - S.rs) / nk.d) * hxx
      · rw [h3 (by rw [hk]; decide)]
        linear_combination (fg * (2 ^ (1 - S.zeta) * S.sf) * pij.1 * pik.1 *
          (S.fc.fdf √(nk.dr - nj.dr).norm2).1 *
          (1 + S.lambda * (nj.dr.dot nk.dr * (1 / nj.d / nk.d))) *
          (√(nk.dr - nj.dr).norm2 - S.rs) / √(nk.dr - nj.dr).norm2) * hxx
    · rw [if_neg h0]
      have h00 : S.rs = 0 := le_antisymm (not_lt.1 h0) hrs
      refine ⟨_, _, rfl, hE, _, rfl, rfl, fun _ => ⟨?_, ?_, ?_⟩⟩
      all_goals dsimp only
      · have hone : (nj.d - S.rs) / nj.d = 1 := by rw [h00, sub_zero, div_self hj.ne']
        linear_combination (-(fg * (2 ^ (1 - S.zeta) * S.sf)) * pij.1 * pik.1 *
          (S.fc.fdf √(nk.dr - nj.dr).norm2).1 *
          (1 + S.lambda * (nj.dr.dot nk.dr * (1 / nj.d / nk.d)))) * hxx +
          (fg * 2 ^ (1 - S.zeta) * S.sf * (pij.1 * pik.1 *
          (S.fc.fdf √(nk.dr - nj.dr).norm2).1 * (2 * S.eta *
          (1 + S.lambda * (nj.dr.dot nk.dr * (1 / nj.d / nk.d)))))) * hone
      · have hone : (nk.d - S.rs) / nk.d = 1 := by rw [h00, sub_zero, div_self hkd.ne']
        linear_combination (-(fg * (2 ^ (1 - S.zeta) * S.sf)) * pij.1 * pik.1 *
          (S.fc.fdf √(nk.dr - nj.dr).norm2).1 *
          (1 + S.lambda * (nj.dr.dot nk.dr * (1 / nj.d / nk.d)))) * hxx +
          (fg * 2 ^ (1 - S.zeta) * S.sf * (pij.1 * pik.1 *
          (S.fc.fdf √(nk.dr - nj.dr).norm2).1 * (2 * S.eta *
          (1 + S.lambda * (nj.dr.dot nk.dr * (1 / nj.d / nk.d)))))) * hone
      · by_cases hz : √(nk.dr - nj.dr).norm2 = 0
        · rw [vec_of_norm2 hz, smul_zero, smul_zero]
        · have hone : (√(nk.dr - nj.dr).norm2 - S.rs) / √(nk.dr - nj.dr).norm2 = 1 := by
            rw [h00, sub_zero, div_self hz]
          refine congrArg (· • _) ?_
          linear_combination (fg * (2 ^ (1 - S.zeta) * S.sf) * pij.1 * pik.1 *
            (S.fc.fdf √(nk.dr - nj.dr).norm2).1 *
            (1 + S.lambda * (nj.dr.dot nk.dr * (1 / nj.d / nk.d)))) * hxx -
            (fg * 2 ^ (1 - S.zeta) * S.sf * (pij.1 * pik.1 *
            (S.fc.fdf √(nk.dr - nj.dr).norm2).1 * (2 * S.eta *
            (1 + S.lambda * (nj.dr.dot nk.dr * (1 / nj.d / nk.d)))))) * hone

theorem bodyExpAngw_eq {S : SymFnc} {M : GrpMember} {d : Bool} (hV : S.Valid)
    (hk : S.kind = .ExpAngw) (hM : M.sf = S) (hN : M.factorNorm = 2 ^ (1 - S.zeta) * S.sf)
    (hD : M.factorDeriv = (fdiv (2 * S.eta) S.zeta).bind fun x => fdiv x S.lambda)
    (hrs : 0 ≤ S.rs) (hlam : d = true → S.lambda ≠ 0) {nj nk : Neighbor} (hj : 0 < nj.d)
    (hkd : 0 < nk.d) (pij pik : ℝ × ℝ)
    {e : SymGrp.ExpShift} (hinv : M.fresh = false → ShiftOK S nj nk e) :
    ∃ e' t', SymGrp.bodyExpAngw d M nj nk pij pik e = some (e', t') ∧ ShiftOK S nj nk e' ∧
      ∃ t, S.bodyExpAngw nj nk pij pik = some (some t) ∧ GTerm d S nj nk t t' := by
  classical
  have he : S.IsExp := by simp [SymFnc.IsExp, hk]
  have ha : S.IsAng := by simp [SymFnc.IsAng, hk]
  have hE := shiftExpAngw_ok hk hM hrs hinv
  unfold SymGrp.bodyExpAngw SymFnc.bodyExpAngw
  dsimp only
  generalize SymGrp.shiftExpAngw M nj.d nk.d e = e' at hE ⊢
  have hv := hE.vexp
  rw [if_pos hk] at hv
  obtain ⟨fg, efg, -⟩ := SymFnc.expAngPower_spec hV he ha e'.vexp
    (1 + S.lambda * (nj.dr.dot nk.dr * (1 / nj.d / nk.d)))
  simp only [hM, grpPower_eq hM, ← hv, efg, Option.bind_eq_bind, Option.bind_some, hN]
  cases d with
  | false =>
    exact ⟨_, _, rfl, hE, _, rfl, rfl, nofun⟩
  | true =>
    simp only [if_true]
    obtain ⟨x, hx, hxx⟩ := fdiv_factor (hV.zeta he ha) (hlam rfl)
    rw [hD, hx]
    simp only [Option.bind_some]
    by_cases h0 : 0 < S.rs
    · rw [if_pos h0]
      obtain ⟨h1, h2, h3⟩ := hE.shift (Or.inl h0.ne')
      refine ⟨_, _, rfl, hE, _, rfl, rfl, fun _ => ⟨?_, ?_, congrArg (· • _) ?_⟩⟩
      all_goals dsimp only
      · rw [h1]
        linear_combination (-(fg * (2 ^ (1 - S.zeta) * S.sf)) * pij.1 * pik.1 *
          (1 + S.lambda * (nj.dr.dot nk.dr * (1 / nj.d / nk.d))) * (nj.d - S.rs) / nj.d) * hxx
      · rw [h2]
        linear_combination (-(fg * (2 ^ (1 - S.zeta) * S.sf)) * pij.1 * pik.1 *
          (1 + S.lambda * (nj.dr.dot nk.dr * (1 / nj.d / nk.d))) * (nk.d - S.rs) / nk.d) * hxx
      · ring
    · rw [if_neg h0]
      have h00 : S.rs = 0 := le_antisymm (not_lt.1 h0) hrs
      refine ⟨_, _, rfl, hE, _, rfl, rfl, fun _ => ⟨?_, ?_, congrArg (· • _) ?_⟩⟩
      all_goals dsimp only
      · have hone : (nj.d - S.rs) / nj.d = 1 := by rw [h00, sub_zero, div_self hj.ne']
        linear_combination (-(fg * (2 ^ (1 - S.zeta) * S.sf)) * pij.1 * pik.1 *
          (1 + S.lambda * (nj.dr.dot nk.dr * (1 / nj.d / nk.d)))) * hxx +
          (fg * 2 ^ (1 - S.zeta) * S.sf * (pij.1 * pik.1 * (2 * S.eta *
          (1 + S.lambda * (nj.dr.dot nk.dr * (1 / nj.d / nk.d)))))) * hone
      · have hone : (nk.d - S.rs) / nk.d = 1 := by rw [h00, sub_zero, div_self hkd.ne']
        linear_combination (-(fg * (2 ^ (1 - S.zeta) * S.sf)) * pij.1 * pik.1 *
          (1 + S.lambda * (nj.dr.dot nk.dr * (1 / nj.d / nk.d)))) * hxx +
          (fg * 2 ^ (1 - S.zeta) * S.sf * (pij.1 * pik.1 * (2 * S.eta *
          (1 + S.lambda * (nj.dr.dot nk.dr * (1 / nj.d / nk.d)))))) * hone
      · ring

theorem bodyExpAngnWeighted_eq {S : SymFnc} {M : GrpMember} {d : Bool} (hV : S.Valid)
    (hk : S.kind = .ExpAngnWeighted) (hM : M.sf = S)
    (hN : M.factorNorm = 2 ^ (1 - S.zeta) * S.sf)
    (hD : M.factorDeriv = (fdiv (2 * S.eta) S.zeta).bind fun x => fdiv x S.lambda)
    (hlam : d = true → S.lambda ≠ 0) {nj nk : Neighbor} (pij pik : ℝ × ℝ)
    {fc : CutoffFunction} (hfc : S.fc.fdf = fc.fdf) {z : ℝ} (hz : z = S.pairWeight nj nk)
    {e : SymGrp.ExpShift} (hinv : M.fresh = false → ShiftOK S nj nk e) :
    ∃ e' t', SymGrp.bodyExpAngnWeighted fc z d M nj nk pij pik e = some (e', t') ∧
      ShiftOK S nj nk e' ∧
      ∃ t, S.bodyExpAngn S.pairWeight nj nk pij pik = some (some t) ∧ GTerm d S nj nk t t' := by
  classical
  have he : S.IsExp := by simp [SymFnc.IsExp, hk]
  have ha : S.IsAng := by simp [SymFnc.IsAng, hk]
  have hE := shiftExpAngnWeighted_ok hk hM hinv
  unfold SymGrp.bodyExpAngnWeighted SymFnc.bodyExpAngn
  dsimp only
  generalize SymGrp.shiftExpAngnWeighted M nj.d nk.d (√(nk.dr - nj.dr).norm2) e = e' at hE ⊢
  have hv := hE.vexp
  rw [if_neg (by rw [hk]; decide)] at hv
  rw [hz]
  obtain ⟨fg, efg, hfg⟩ := SymFnc.expAngPower_spec hV he ha e'.vexp
    (1 + S.lambda * (nj.dr.dot nk.dr * (1 / nj.d / nk.d)))
  obtain ⟨fg', efg', hfg'⟩ := SymFnc.expAngPower_spec hV he ha (S.pairWeight nj nk * e'.vexp)
    (1 + S.lambda * (nj.dr.dot nk.dr * (1 / nj.d / nk.d)))
  have hff : fg' = S.pairWeight nj nk * fg := by
    rw [hfg, hfg']
    split <;> ring
  simp only [hM, grpPower_eq hM, ← hv, efg, efg', Option.bind_eq_bind, Option.bind_some, ← hfc, hN]
  rw [hff]
  obtain ⟨h1, h2, h3⟩ := hE.shift (Or.inr hk)
  cases d with
  | false =>
    refine ⟨_, _, rfl, hE, _, rfl, ?_, nofun⟩
    dsimp only
    ring
  | true =>
    simp only [if_true]
    obtain ⟨x, hx, hxx⟩ := fdiv_factor (hV.zeta he ha) (hlam rfl)
    rw [hD, hx]
    simp only [Option.bind_some]
    refine ⟨_, _, rfl, hE, _, rfl, ?_, fun _ => ⟨?_, ?_, congrArg (· • _) ?_⟩⟩
    all_goals dsimp only
    · ring
    · rw [h1]
      linear_combination (-(fg * (2 ^ (1 - S.zeta) * S.sf)) * S.pairWeight nj nk * pij.1 * pik.1 *
        (S.fc.fdf √(nk.dr - nj.dr).norm2).1 *
        (1 + S.lambda * (nj.dr.dot nk.dr * (1 / nj.d / nk.d))) * (nj.d - S.rs) / nj.d) * hxx
    · rw [h2]
      linear_combination (-(fg * (2 ^ (1 - S.zeta) * S.sf)) * S.pairWeight nj nk * pij.1 * pik.1 *
        (S.fc.fdf √(nk.dr - nj.dr).norm2).1 *
        (1 + S.lambda * (nj.dr.dot nk.dr * (1 / nj.d / nk.d))) * (nk.d - S.rs) / nk.d) * hxx
    · rw [h3 (by rw [hk]; decide)]
      linear_combination (fg * (2 ^ (1 - S.zeta) * S.sf) * S.pairWeight nj nk * pij.1 * pik.1 *
        (S.fc.fdf √(nk.dr - nj.dr).norm2).1 *
        (1 + S.lambda * (nj.dr.dot nk.dr * (1 / nj.d / nk.d))) *
        (√(nk.dr - nj.dr).norm2 - S.rs) / √(nk.dr - nj.dr).norm2) * hxx

/-! ### The loops -/

/-- The Gaussian angular groups. -/
def SymGrp.IsExpAng (g : SymGrp) : Prop :=
  g.kind = .ExpAngn ∨ g.kind = .ExpAngw ∨ g.kind = .ExpAngnWeighted

theorem SymGrp.Formed.eang {g : SymGrp} {f : ℕ → SymFnc} (h : g.Formed f) {l : ℕ}
    (hl : l < g.rows.length) (hk : g.IsExpAng) :
    (f l).IsExp ∧ (f l).IsAng ∧ (∀ n, g.selJ n ↔ (f l).pkernel.selJ n) ∧
      ∀ n n', g.selK n n' ↔ (f l).pkernel.selK n n' := by
  have hkl := h.kind l hl
  have hel := h.elements l hl
  have hexp : (f l).IsExp := by
    unfold SymFnc.IsExp; rw [hkl]; rcases hk with hk | hk | hk <;> simp [hk]
  obtain ⟨hrc, -⟩ := h.cutoff l hl hexp
  refine ⟨hexp, ?_, ?_, ?_⟩
  · unfold SymFnc.IsAng; rw [hkl]; rcases hk with hk | hk | hk <;> simp [hk]
  · intro n
    unfold SymGrp.selJ SymFnc.pkernel
    rcases hk with hk | hk | hk <;> rw [hk] at hkl hel <;> simp only [hk, hkl]
    · show _ ↔ ((f l).e1 = n.element ∨ (f l).e2 = n.element) ∧ n.d < (f l).rc
      rw [hel.1, hel.2, hrc]
    · show _ ↔ ((f l).e1 = n.element ∨ (f l).e2 = n.element) ∧ n.d < (f l).rc
      rw [hel.1, hel.2, hrc]
    · show _ ↔ n.d < (f l).rc
      rw [hrc]
  · intro n n'
    unfold SymGrp.selK SymFnc.pkernel
    rcases hk with hk | hk | hk <;> rw [hk] at hkl hel <;> simp only [hk, hkl]
    · show _ ↔ (f l).pairElements n n' ∧ n'.d < (f l).rc ∧ (n'.dr - n.dr).norm2 < (f l).rc * (f l).rc
      unfold SymGrp.pairElements SymFnc.pairElements
      rw [hel.1, hel.2, hrc]
    · show _ ↔ (f l).pairElements n n' ∧ n'.d < (f l).rc
      unfold SymGrp.pairElements SymFnc.pairElements
      rw [hel.1, hel.2, hrc]
    · show _ ↔ n'.d < (f l).rc ∧ (n'.dr - n.dr).norm2 < (f l).rc * (f l).rc
      rw [hrc]

theorem SymGrp.bodyExp_local (g : SymGrp) (d : Bool) (M : GrpMember) (f : ℕ → SymFnc) (m : ℕ)
    (X X' : ℕ → Contrib) (j k : ℕ) (c c' : List ℝ) (nj nk : Neighbor) (pij pik : ℝ × ℝ)
    (e : SymGrp.ExpShift) : g.bodyExp d M (gN f m X j c nj) (gN f m X' k c' nk) pij pik e =
      g.bodyExp d M nj nk pij pik e := by
  unfold SymGrp.bodyExp
  cases g.kind <;> rfl

theorem SymGrp.bodyExp_eq {g : SymGrp} {f : ℕ → SymFnc} {d : Bool} (hk : g.IsExpAng)
    (hF : g.Formed f) {l : ℕ} (hl : l < g.rows.length) (hV : (f l).Valid)
    (hG : (f l).Groupable d) {M : GrpMember} (hM : g.rows[l]? = some M) {nj nk : Neighbor}
    (hj : 0 < nj.d) (hkd : 0 < nk.d) {e : SymGrp.ExpShift}
    (hinv : M.fresh = false → ShiftOK (f l) nj nk e) :
    ∃ e' t', g.bodyExp d M nj nk (g.fc.fdf nj.d) (g.fc.fdf nk.d) e = some (e', t') ∧
      ShiftOK (f l) nj nk e' ∧ ∃ t, (f l).terms nj nk = some t ∧ GTerm d (f l) nj nk t t' := by
  obtain ⟨hexp, hang, -, -⟩ := hF.eang hl hk
  obtain ⟨hrc, hfc⟩ := hF.cutoff l hl hexp
  obtain ⟨hN, hD⟩ := hF.norm l M hM hexp hang
  have hMf := (hF.row l M hM).1
  have hkl := hF.kind l hl
  unfold SymGrp.bodyExp SymFnc.terms
  rw [SymFnc.pkernel_fdf hang, (f l).cachedFunction_exp hexp, hfc]
  unfold SymFnc.pkernel
  rcases hk with hk | hk | hk <;> rw [hk] at hkl <;> simp only [hk, hkl]
  · obtain ⟨e', t', h1, h2, t, h3, h4⟩ := bodyExpAngn_eq hV hkl hMf hN hD (hG.shift (Or.inl hkl))
      (hG.lambda hexp hang) hj hkd (g.fc.fdf nj.d) (g.fc.fdf nk.d) hfc hinv
    refine ⟨e', t', h1, h2, t, ?_, h4⟩
    show ((f l).bodyExpAngn (fun _ _ => 1) nj nk _ _).getD none = _
    rw [h3]; rfl
  · obtain ⟨e', t', h1, h2, t, h3, h4⟩ := bodyExpAngw_eq hV hkl hMf hN hD (hG.shift (Or.inr hkl))
      (hG.lambda hexp hang) hj hkd (g.fc.fdf nj.d) (g.fc.fdf nk.d) hinv
    refine ⟨e', t', h1, h2, t, ?_, h4⟩
    show ((f l).bodyExpAngw nj nk _ _).getD none = _
    rw [h3]; rfl
  · obtain ⟨e', t', h1, h2, t, h3, h4⟩ := bodyExpAngnWeighted_eq hV hkl hMf hN hD
      (hG.lambda hexp hang) (g.fc.fdf nj.d) (g.fc.fdf nk.d) hfc (z := g.pairWeight M nj nk)
      (by unfold SymGrp.pairWeight SymFnc.pairWeight; rw [hk, hMf]) hinv
    refine ⟨e', t', h1, h2, t, ?_, h4⟩
    show ((f l).bodyExpAngn (f l).pairWeight nj nk _ _).getD none = _
    rw [h3]; rfl

theorem GTerm.contrib {d : Bool} {S : SymFnc} {nj nk : Neighbor} {t t' : SymFnc.PairTerm}
    (h : GTerm d S nj nk t t') (j k : ℕ) : S.pairContribOf d j k nj nk t =
      (t'.value, if d then
        (t'.p1 • nj.dr + t'.p2 • nk.dr,
          Pi.single j (t'.p1 • nj.dr + t'.p3 • (nk.dr - nj.dr))
            + Pi.single k (t'.p2 • nk.dr - t'.p3 • (nk.dr - nj.dr)))
        else 0) := by
  unfold SymFnc.pairContribOf
  rw [h.1]
  cases d with
  | false => rfl
  | true =>
    obtain ⟨h1, h2, h3⟩ := h.2 rfl
    simp only [if_true]
    rw [h3, h1, h2]

/-- State of the loop over members before member `l`. -/
def EState (f : ℕ → SymFnc) (m : ℕ) (a : Atom) (L : CacheLayout) (R : ℝ) (nj nk : Neighbor)
    (X : ℕ → Contrib) (l : ℕ) (s : SymGrp.ExpShift × Buf × Atom) : Prop :=
  GState f m a L R X s.2 ∧ ∀ l', l = l' + 1 → ShiftOK (f l') nj nk s.1

theorem ShiftOK.congr {S T : SymFnc} {nj nk : Neighbor} {e : SymGrp.ExpShift}
    (h : ShiftOK S nj nk e) (hk : S.kind = T.kind) (h1 : S.eta = T.eta) (h2 : S.rs = T.rs) :
    ShiftOK T nj nk e := by
  obtain ⟨a, b⟩ := h
  rw [hk, h1, h2] at a
  rw [hk, h2] at b
  exact ⟨a, b⟩

theorem SymGrp.expAngMember_eq {g : SymGrp} {f : ℕ → SymFnc} {a : Atom} {d : Bool} {L : CacheLayout}
    {R : ℝ} (hk : g.IsExpAng) (hF : g.Formed f)
    (hr : ∀ l < g.rows.length, (f l).GroupReady a d L R)
    (hG : ∀ l < g.rows.length, (f l).Groupable d) {j k : ℕ} {nj nk : Neighbor}
    (hnj : a.neighbors[j]? = some nj) (hnk : a.neighbors[k]? = some nk)
    (hselJ : g.selJ nj) (hselK : g.selK nj nk) (Y : ℕ → Contrib) (cj ck : List ℝ)
    (X : ℕ → Contrib) (l : ℕ) (hl : l < g.rows.length) (s : SymGrp.ExpShift × Buf × Atom)
    (hs : EState f g.rows.length a L R nj nk X l s) :
    ∃ s', g.expAngMember d j k (gN f g.rows.length Y j cj nj) (gN f g.rows.length Y k ck nk)
        (g.fc.fdf nj.d) (g.fc.fdf nk.d) s l = some s' ∧
      EState f g.rows.length a L R nj nk
        (X + Pi.single l ((f l).pairContrib (f l).pkernel (f l).terms d a j k)) (l + 1) s' := by
  classical
  obtain ⟨e, r, a'⟩ := s
  obtain ⟨⟨caches, hc, h2⟩, hsh⟩ := hs
  dsimp only at h2 hsh
  rw [Prod.mk.injEq] at h2
  obtain ⟨rfl, rfl⟩ := h2
  obtain ⟨M, hM, hMf, hMs⟩ := hF.get hl
  obtain ⟨hexp, hang, hJ, hK⟩ := hF.eang hl hk
  have hinv : M.fresh = false → ShiftOK (f l) nj nk e := by
    intro hf
    obtain ⟨l', rfl, h1, -⟩ := hF.fresh l M hM hf
    obtain ⟨h3, h4⟩ := h1 hexp hang
    exact (hsh l' rfl).congr (by rw [hF.kind _ hl, hF.kind l' (by omega)]) h3 h4
  have hmj := List.mem_of_getElem? hnj
  have hmk := List.mem_of_getElem? hnk
  obtain ⟨e', t', h1, h2, t, h3, h4⟩ := SymGrp.bodyExp_eq hk hF hl (hr l hl).valid (hG l hl) hM
    ((hr l hl).list.pos nj hmj) ((hr l hl).list.pos nk hmk) hinv
  have hcon : (f l).pairContrib (f l).pkernel (f l).terms d a j k =
      (f l).pairContribOf d j k nj nk t := by
    unfold SymFnc.pairContrib
    rw [hnj, hnk]
    simp only
    rw [if_pos ⟨(hJ nj).1 hselJ, (hK nj nk).1 hselK⟩, h3]
  rw [h4.contrib j k] at hcon
  unfold SymGrp.expAngMember
  rw [hM]
  simp only [Option.bind_eq_bind, Option.bind_some]
  rw [SymGrp.bodyExp_local, h1, hcon]
  simp only [Option.bind_some]
  have hsh' : ∀ l', l + 1 = l' + 1 → ShiftOK (f l') nj nk e' := by
    intro l' hl'
    cases hl'
    exact h2
  cases d with
  | false =>
    refine ⟨_, rfl, ⟨caches, hc, ?_⟩, hsh'⟩
    simp only [Bool.false_eq_true, if_false]
    rw [gRes_set X l _ 0, gAtom_value]
  | true =>
    simp only [if_true]
    obtain ⟨hdj, hrj⟩ := (f l).pkernel_selJ hang nj ((hJ nj).1 hselJ)
    obtain ⟨hdk, hrk⟩ := (f l).pkernel_selK hang nj nk ((hK nj nk).1 hselK)
    rw [savePair_gAtom X caches hl hnj hnk (nj' := gN f g.rows.length Y j cj nj)
      (nk' := gN f g.rows.length Y k ck nk) (hr l hl).allocated hdj hrj hdk hrk rfl rfl rfl rfl M
      hMf _ _ _ t'.value]
    refine ⟨_, rfl, ⟨caches, hc, ?_⟩, hsh'⟩
    dsimp only
    rw [gRes_set]

theorem SymGrp.expAngStep_eq {g : SymGrp} {f : ℕ → SymFnc} {a : Atom} {d : Bool} {L : CacheLayout}
    {R : ℝ} (hk : g.IsExpAng) (hF : g.Formed f)
    (hr : ∀ l < g.rows.length, (f l).GroupReady a d L R)
    (hG : ∀ l < g.rows.length, (f l).Groupable d) {j : ℕ} {nj : Neighbor}
    (hnj : a.neighbors[j]? = some nj) (hselJ : g.selJ nj) {k : ℕ} (hkl : k < a.neighbors.length)
    (X : ℕ → Contrib) (s : Buf × Atom) (hs : GState f g.rows.length a L R X s) :
    ∃ s', g.expAngStep d j (g.fc.fdf nj.d) s k = some s' ∧ GState f g.rows.length a L R
      (X + mask g.rows.length fun l =>
        (f l).pairContrib (f l).pkernel (f l).terms d a j k) s' := by
  classical
  have hnk : a.neighbors[k]? = some a.neighbors[k] := List.getElem?_eq_getElem hkl
  generalize a.neighbors[k] = nk at hnk
  have hmj := List.mem_of_getElem? hnj
  have hmk := List.mem_of_getElem? hnk
  unfold SymGrp.expAngStep
  obtain ⟨caches, hc, rfl⟩ := hs
  rw [gAtom_neighbor f _ a X caches j hnj, gAtom_neighbor f _ a X caches k hnk]
  simp only [Option.bind_eq_bind, Option.bind_some]
  have hsel' : g.selK (gN f g.rows.length X j (caches j) nj) (gN f g.rows.length X k (caches k) nk)
      ↔ g.selK nj nk := by
    unfold SymGrp.selK
    cases g.kind <;> exact Iff.rfl
  by_cases hsel : g.selK nj nk
  · rw [if_pos (hsel'.2 hsel)]
    obtain ⟨hexp, hang, hJ, hK⟩ := hF.eang hF.pos hk
    obtain ⟨hdj, hrj⟩ := (f 0).pkernel_selJ hang nj ((hJ nj).1 hselJ)
    obtain ⟨hdk, hrk⟩ := (f 0).pkernel_selK hang nj nk ((hK nj nk).1 hsel)
    have h0 := hr 0 hF.pos
    have hcj : (f 0).cacheIndices[nj.element]? =
      some ((f 0).cacheIndices[nj.element]'(h0.allocated.cache.2 nj hmj)) :=
      List.getElem?_eq_getElem _
    have hck : (f 0).cacheIndices[nk.element]? =
      some ((f 0).cacheIndices[nk.element]'(h0.allocated.cache.2 nk hmk)) :=
      List.getElem?_eq_getElem _
    generalize (f 0).cacheIndices[nj.element]'(h0.allocated.cache.2 nj hmj) = cj at hcj
    generalize (f 0).cacheIndices[nk.element]'(h0.allocated.cache.2 nk hmk) = ck at hck
    have hcheck : (if g.kind = .ExpAngnWeighted then cj else ck) = [] ↔ ck = [] := by
      by_cases hw : g.kind = .ExpAngnWeighted
      · rw [if_pos hw]
        exact h0.uniform (by rw [hF.kind 0 hF.pos, hw]) _ _ cj ck hcj hck
      · rw [if_neg hw]
    obtain ⟨cache, e, hok⟩ := cached_gN h0.disjoint h0.slots hc hnk (hdk.trans_le h0.le) hrk hck
      hcheck f g.rows.length X
    obtain ⟨M0, hM0, hMf0, -⟩ := hF.get hF.pos
    have hfirst : ∀ el, g.firstCache el = (f 0).cacheIndices[el]? := by
      intro el
      unfold SymGrp.firstCache
      rw [hM0]
      simp only [Option.bind_eq_bind, Option.bind_some]
      rw [hMf0]
    have hfj : g.firstCache (gN f g.rows.length X j (caches j) nj).element = some cj := by
      rw [hfirst]; exact hcj
    have hfk : g.firstCache (gN f g.rows.length X k (caches k) nk).element = some ck := by
      rw [hfirst]; exact hck
    rw [hfj, hfk]
    simp only [Option.bind_some]
    rw [(f 0).cachedFunction_exp hexp, (hF.cutoff 0 hF.pos hexp).2] at e
    rw [e]
    simp only [Option.bind_some]
    rw [gAtom_setNeighbor f _ a X caches k hnk]
    obtain ⟨s', es, hs'⟩ := foldlM_range_inv
      (g.expAngMember d j k (gN f g.rows.length X j (caches j) nj) (gN f g.rows.length X k cache nk)
        (g.fc.fdf nj.d) (g.fc.fdf nk.d))
      (fun l s => EState f g.rows.length a L R nj nk
        (X + mask l fun l => (f l).pairContrib (f l).pkernel (f l).terms d a j k) l s)
      g.rows.length (⟨0, 0, 0, 0⟩, gRes X, gAtom f g.rows.length a X (Function.update caches k cache))
      (by
        intro l hl s hs
        obtain ⟨s', e', hs'⟩ := SymGrp.expAngMember_eq hk hF hr hG hnj hnk hselJ hsel X (caches j)
          cache _ l hl s hs
        refine ⟨s', e', ?_⟩
        rw [mask_succ, ← add_assoc]
        exact hs')
      (by
        rw [mask_zero, add_zero]
        exact ⟨⟨_, hok, rfl⟩, fun l' hl' => by omega⟩)
    refine ⟨s'.2, ?_, hs'.1⟩
    rw [es]
    rfl
  · rw [if_neg (fun h => hsel (hsel'.1 h))]
    refine ⟨_, rfl, caches, hc, ?_⟩
    have : (X + mask g.rows.length fun l =>
        (f l).pairContrib (f l).pkernel (f l).terms d a j k) = X := by
      funext l
      unfold mask
      rw [Pi.add_apply]
      by_cases hl : l < g.rows.length
      · rw [if_pos hl]
        have : (f l).pairContrib (f l).pkernel (f l).terms d a j k = 0 := by
          unfold SymFnc.pairContrib
          rw [hnj, hnk]
          exact if_neg fun h => hsel (((hF.eang hl hk).2.2.2 nj nk).2 h.2)
        show X l + (f l).pairContrib (f l).pkernel (f l).terms d a j k = X l
        rw [this, add_zero]
      · rw [if_neg hl, add_zero]
    rw [this]

/-- Contributions of the pairs of `j` with the later neighbours. -/
noncomputable def gOuter (f : ℕ → SymFnc) (r : ℕ) (d : Bool) (a : Atom) (m j : ℕ) : ℕ → Contrib :=
  mask r fun l => (f l).outerContrib (f l).pkernel (f l).terms d a m j

/-- The inner loop of an angular group. -/
theorem GState.inner {f : ℕ → SymFnc} {r : ℕ} {a : Atom} {d : Bool} {L : CacheLayout} {R : ℝ}
    {j m : ℕ} (step : Buf × Atom → ℕ → Option (Buf × Atom))
    (h : ∀ k, j < k → k < m → ∀ X s, GState f r a L R X s → ∃ s', step s k = some s' ∧
      GState f r a L R (X + mask r fun l =>
        (f l).pairContrib (f l).pkernel (f l).terms d a j k) s')
    (X : ℕ → Contrib) (s : Buf × Atom) (hs : GState f r a L R X s) :
    ∃ s', (List.range' (j + 1) (m - (j + 1))).foldlM step s = some s' ∧
      GState f r a L R (X + gOuter f r d a m j) s' := by
  obtain ⟨s', e, hs'⟩ := foldlM_range'_inv step (fun i s => GState f r a L R
    (X + mask r fun l => ((List.range' (j + 1) (i - (j + 1))).map
      ((f l).pairContrib (f l).pkernel (f l).terms d a j)).sum) s) (m - (j + 1)) (j + 1) s
    (by
      intro k hk hk' s hs
      obtain ⟨s', e, hs'⟩ := h k (by omega) (by omega) _ s hs
      refine ⟨s', e, ?_⟩
      have : (X + mask r fun l => ((List.range' (j + 1) (k + 1 - (j + 1))).map
          ((f l).pairContrib (f l).pkernel (f l).terms d a j)).sum) =
          (X + mask r fun l => ((List.range' (j + 1) (k - (j + 1))).map
          ((f l).pairContrib (f l).pkernel (f l).terms d a j)).sum) +
          mask r fun l => (f l).pairContrib (f l).pkernel (f l).terms d a j k := by
        rw [add_assoc]
        congr 1
        funext l
        rw [Pi.add_apply]
        unfold mask
        by_cases hl : l < r
        · rw [if_pos hl, if_pos hl, if_pos hl, show k + 1 - (j + 1) = k - (j + 1) + 1 by omega,
            List.range'_concat]
          simp only [List.map_append, List.sum_append, List.map_cons, List.map_nil, List.sum_cons, List.sum_nil, add_zero, one_mul]
          rw [show j + 1 + (k - (j + 1)) = k by omega]
        · rw [if_neg hl, if_neg hl, if_neg hl, add_zero]
      rw [this]
      exact hs')
    (by
      have : (mask r fun l => ((List.range' (j + 1) (j + 1 - (j + 1))).map
          ((f l).pairContrib (f l).pkernel (f l).terms d a j)).sum) = 0 := by
        funext l
        simp [mask]
      rw [this, add_zero]
      exact hs)
  refine ⟨s', e, ?_⟩
  by_cases hm : j + 1 ≤ m
  · rw [show j + 1 + (m - (j + 1)) = m by omega] at hs'
    exact hs'
  · have h1 : j + 1 + (m - (j + 1)) - (j + 1) = m - (j + 1) := by omega
    simp only [h1] at hs'
    exact hs'

theorem gOuter_zero {f : ℕ → SymFnc} {r : ℕ} {a : Atom} {d : Bool} {m j : ℕ} {nj : Neighbor}
    (hnj : a.neighbors[j]? = some nj) (h : ∀ l < r, ¬ (f l).pkernel.selJ nj) :
    gOuter f r d a m j = 0 := by
  funext l
  unfold gOuter mask
  by_cases hl : l < r
  · rw [if_pos hl]
    unfold SymFnc.outerContrib
    refine List.sum_eq_zero fun c hc => ?_
    obtain ⟨k, -, rfl⟩ := List.mem_map.1 hc
    unfold SymFnc.pairContrib
    rw [hnj]
    cases a.neighbors[k]? with
    | none => rfl
    | some nk => exact if_neg fun h' => h l hl h'.1
  · rw [if_neg hl]; rfl

theorem SymGrp.expAngOuterStep_eq {g : SymGrp} {f : ℕ → SymFnc} {a : Atom} {d : Bool}
    {L : CacheLayout} {R : ℝ} (hk : g.IsExpAng) (hF : g.Formed f)
    (hr : ∀ l < g.rows.length, (f l).GroupReady a d L R)
    (hG : ∀ l < g.rows.length, (f l).Groupable d) {m : ℕ} (hm : m ≤ a.neighbors.length) {j : ℕ}
    (hj : j < a.neighbors.length) (X : ℕ → Contrib) (s : Buf × Atom)
    (hs : GState f g.rows.length a L R X s) :
    ∃ s', g.expAngOuterStep d m s j = some s' ∧ GState f g.rows.length a L R
      (X + gOuter f g.rows.length d a m j) s' := by
  classical
  have hnj : a.neighbors[j]? = some a.neighbors[j] := List.getElem?_eq_getElem hj
  generalize a.neighbors[j] = nj at hnj
  unfold SymGrp.expAngOuterStep
  obtain ⟨caches, hc, rfl⟩ := hs
  rw [gAtom_neighbor f _ a X caches j hnj]
  simp only [Option.bind_eq_bind, Option.bind_some]
  have hsel' : g.selJ (gN f g.rows.length X j (caches j) nj) ↔ g.selJ nj := by
    unfold SymGrp.selJ
    cases g.kind <;> exact Iff.rfl
  by_cases hsel : g.selJ nj
  · rw [if_pos (hsel'.2 hsel)]
    obtain ⟨hexp, hang, hJ, hK⟩ := hF.eang hF.pos hk
    obtain ⟨hdj, hrj⟩ := (f 0).pkernel_selJ hang nj ((hJ nj).1 hsel)
    obtain ⟨ci, cache, hci, e, hok⟩ := (hr 0 hF.pos).read hc hnj hdj hrj f g.rows.length X
    obtain ⟨M0, hM0, hMf0, -⟩ := hF.get hF.pos
    have hfirst : g.firstCache (gN f g.rows.length X j (caches j) nj).element = some ci := by
      unfold SymGrp.firstCache
      rw [hM0]
      show M0.sf.cacheIndices[nj.element]? = some ci
      rw [hMf0, hci]
    rw [hfirst]
    simp only [Option.bind_some]
    rw [(f 0).cachedFunction_exp hexp, (hF.cutoff 0 hF.pos hexp).2] at e
    rw [e]
    simp only [Option.bind_some]
    rw [gAtom_setNeighbor f _ a X caches j hnj]
    exact GState.inner _ (fun k _ hkm X s hs => SymGrp.expAngStep_eq hk hF hr hG hnj hsel
      (by omega) X s hs) X _ ⟨_, hok, rfl⟩
  · rw [if_neg (fun h => hsel (hsel'.1 h))]
    refine ⟨_, rfl, caches, hc, ?_⟩
    rw [gOuter_zero hnj fun l hl h => hsel (((hF.eang hl hk).2.2.1 nj).2 h), add_zero]

end N2P2
