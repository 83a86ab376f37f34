import Mathlib.Algebra.BigOperators.Intervals
import Mathlib.Algebra.BigOperators.Pi
import Mathlib.Analysis.SpecialFunctions.Pow.Real
import Mathlib.Tactic.Ring
import Mathlib.Tactic.Linarith
import Mathlib.Tactic.FieldSimp
import Verif.Lemma.SymFnc
import Verif.Props.Cutoff
import Verif.Props.Utility
import Verif.Lemma.Geometry

/-! The sums computed by the loops are the documented formulas. -/

namespace N2P2

/-! ### Sums over pairs -/

/-- Sum over all pairs of indices below `n`. -/
def PS {M : Type} [AddCommMonoid M] (n : ℕ) (f : ℕ → ℕ → M) : M :=
  ∑ j ∈ Finset.range n, ∑ k ∈ Finset.range n, if j < k then f j k else 0

theorem list_sum_range {M : Type} [AddCommMonoid M] (f : ℕ → M) (n : ℕ) :
    ((List.range n).map f).sum = ∑ i ∈ Finset.range n, f i := by
  induction n with
  | zero => simp
  | succ n ih => rw [List.range_succ, Finset.sum_range_succ, ← ih]; simp

theorem list_sum_range' {M : Type} [AddCommMonoid M] (f : ℕ → M) (a m : ℕ) :
    ((List.range' a (m - a)).map f).sum = ∑ i ∈ Finset.Ico a m, f i := by
  rw [Finset.sum_Ico_eq_sum_range, ← list_sum_range, List.range'_eq_map_range, List.map_map]
  rfl

theorem list_sum_getD (l : List ℝ) : l.sum = ∑ i ∈ Finset.range l.length, (l[i]?).getD 0 := by
  induction l with
  | nil => simp
  | cons x xs ih => rw [List.length_cons, Finset.sum_range_succ']; simp [ih, add_comm]

theorem pairTotal_eq (S : SymFnc) (K : SymFnc.PairKernel)
    (T : Neighbor → Neighbor → Option SymFnc.PairTerm) (d : Bool) (a : Atom) (m : ℕ) :
    S.pairTotal K T d a m = PS m (S.pairContrib K T d a) := by
  unfold SymFnc.pairTotal PS
  rw [list_sum_range]
  have hin : ∀ j, S.outerContrib K T d a m j =
      ∑ k ∈ Finset.range m, if j < k then S.pairContrib K T d a j k else 0 := by
    intro j
    unfold SymFnc.outerContrib
    rw [list_sum_range', ← Finset.sum_filter]
    refine Finset.sum_congr ?_ fun _ _ => rfl
    ext k
    simp only [Finset.mem_Ico, Finset.mem_filter, Finset.mem_range]
    omega
  simp only [hin]
  cases m with
  | zero => simp
  | succ n =>
    rw [Finset.sum_range_succ (n := n), Nat.add_sub_cancel]
    have : (∑ k ∈ Finset.range (n + 1), if n < k then S.pairContrib K T d a n k else 0) = 0 := by
      refine Finset.sum_eq_zero fun k hk => if_neg ?_
      have := Finset.mem_range.1 hk
      omega
    rw [this, add_zero]

theorem PS_extend {M : Type} [AddCommMonoid M] {m n : ℕ} (h : m ≤ n) (f : ℕ → ℕ → M)
    (hf : ∀ j k, j < k → m ≤ k → k < n → f j k = 0) : PS m f = PS n f := by
  unfold PS
  have h1 : ∀ j, (∑ k ∈ Finset.range m, if j < k then f j k else 0) =
      ∑ k ∈ Finset.range n, if j < k then f j k else 0 := by
    intro j
    refine Finset.sum_subset (Finset.range_mono h) fun k hk hk' => ?_
    by_cases hjk : j < k
    · rw [if_pos hjk]
      exact hf j k hjk (by simpa using hk') (Finset.mem_range.1 hk)
    · exact if_neg hjk
  simp only [h1]
  refine Finset.sum_subset (Finset.range_mono h) fun j hj hj' => ?_
  refine Finset.sum_eq_zero fun k hk => ?_
  by_cases hjk : j < k
  · rw [if_pos hjk]
    have : m ≤ j := by simpa using hj'
    exact hf j k hjk (by omega) (Finset.mem_range.1 hk)
  · exact if_neg hjk

theorem PS_congr {M : Type} [AddCommMonoid M] {n : ℕ} {f g : ℕ → ℕ → M}
    (h : ∀ j k, j < k → k < n → f j k = g j k) : PS n f = PS n g := by
  unfold PS
  refine Finset.sum_congr rfl fun j _ => Finset.sum_congr rfl fun k hk => ?_
  by_cases hjk : j < k
  · rw [if_pos hjk, if_pos hjk, h j k hjk (Finset.mem_range.1 hk)]
  · rw [if_neg hjk, if_neg hjk]

/-- Function of the entries at two positions. -/
def at2 {α : Type} (g : α → α → ℝ) (l : List α) (j k : ℕ) : ℝ :=
  match l[j]?, l[k]? with
  | some x, some y => g x y
  | _, _ => 0

theorem pairSum_eq {α : Type} (g : α → α → ℝ) (l : List α) :
    pairSum g l = PS l.length (at2 g l) := by
  induction l with
  | nil => simp [pairSum, PS]
  | cons x xs ih =>
    unfold pairSum
    rw [ih]
    unfold PS
    rw [List.length_cons, Finset.sum_range_succ', add_comm]
    congr 1
    · refine Finset.sum_congr rfl fun j _ => ?_
      rw [Finset.sum_range_succ']
      simp [at2]
    · rw [Finset.sum_range_succ']
      simp only [lt_irrefl, if_false, add_zero, Nat.zero_lt_succ, if_true]
      have : ∀ k ∈ Finset.range xs.length, at2 g (x :: xs) 0 (k + 1) =
          ((xs.map (g x))[k]?).getD 0 := by
        intro k hk
        have : k < xs.length := Finset.mem_range.1 hk
        simp [at2, this]
      rw [Finset.sum_congr rfl this]
      rw [list_sum_getD, List.length_map]

/-! ### Function values -/

/-- What the formulas see of a neighbour. -/
def Neighbor.site (n : Neighbor) : Site := ⟨n.element, n.dr⟩

theorem SymFnc.Valid.fc_fdf {S : SymFnc} (h : S.Valid) (he : S.IsExp) :
    (∀ r, S.fc.fdf r = (S.fc.f r, S.fc.df r)) ∧ ∀ r, S.rc ≤ r → S.fc.f r = 0 := by
  obtain ⟨t, α, hc⟩ := h.fc he
  exact ⟨fun r => C15_combined _ _ _ _ r hc h.rc_pos, fun r hr => (C13_zero_beyond _ _ _ _ r hc hr).1⟩

theorem SymFnc.Valid.cr_fdf {S : SymFnc} (h : S.Valid) (he : ¬ S.IsExp) (r : ℝ) (h1 : S.rl < r)
    (h2 : r < S.rc) : (S.cr.fdf r).1 = S.radial r := by
  obtain ⟨t, as, hc⟩ := h.cr he
  unfold SymFnc.radial SymFnc.compact
  rw [if_pos ⟨h1, h2⟩]
  exact (C16_combined_derivative_partial _ _ _ _ _ hc r h1 h2).1

theorem radial_zero (S : SymFnc) (r : ℝ) (h : ¬ (S.rl < r ∧ r < S.rc)) : S.radial r = 0 := by
  unfold SymFnc.radial SymFnc.compact
  exact if_neg h

theorem dist_symm (u v : Vec3) : √(v - u).norm2 = (u - v).norm := by
  rw [show v - u = -(u - v) by abel, norm2_neg]; rfl

theorem cos_eq {n n' : Neighbor} (h : n.d = n.dr.norm) (h' : n'.d = n'.dr.norm) :
    n.dr.dot n'.dr * (1 / n.d / n'.d) = cosAngle n.dr n'.dr := by
  unfold cosAngle
  rw [h, h', div_div, mul_one_div]

theorem abs_cosAngle_le {u v : Vec3} (hu : 0 < u.norm) (hv : 0 < v.norm) : |cosAngle u v| ≤ 1 := by
  unfold cosAngle
  rw [abs_div, abs_of_pos (mul_pos hu hv), div_le_one (mul_pos hu hv)]
  exact cauchy u v

theorem compact_end {c : CompactFunction} {t : CoreType} {as : Bool} {l r e : ℝ}
    (h : c.Configured t as l r) (ht : t ≠ .EXP) (he : e = l ∨ e = r) : c.fdf e = (0, 0) := by
  obtain ⟨⟨-, hf, hd⟩, -⟩ := And.imp_right (And.right) <| And.imp_left (fun k => k ht)
    (C16_vanishes_at_ends c t as l r h e he)
  refine Prod.ext ?_ hd
  obtain ⟨hlr, hc, hs, -, -⟩ := h.cfg
  have hone : |(e - c.center) * c.scale| ≤ 1 := by
    have hw : 0 < (r - l) / 2 := by linarith
    rw [hc, hs, abs_le, mul_one_div]
    rcases he with rfl | rfl
    · constructor
      · rw [le_div_iff₀ hw]; linarith
      · rw [div_le_one hw]; linarith
    · constructor
      · rw [le_div_iff₀ hw]; linarith
      · rw [div_le_one hw]; linarith
  show (c.core.fdf _).1 = 0
  rw [CoreFunction.fdf_eq _ _ (abs_nonneg _) hone]
  exact hf

/-- `fg` times the base is `w` times the power. -/
theorem SymFnc.expAngPower_spec {S : SymFnc} (h : S.Valid) (he : S.IsExp) (ha : S.IsAng)
    (w p : ℝ) : ∃ fg, S.expAngPower w p = some fg ∧
      fg = (open Classical in if p ≤ 0 then 0 else w * p ^ (S.zeta - 1)) := by
  classical
  unfold SymFnc.expAngPower
  by_cases hp : p ≤ 0
  · exact ⟨0, by rw [if_pos hp], by rw [if_pos hp]⟩
  · rw [if_neg hp]
    have hp' : 0 < p := not_le.1 hp
    by_cases hi : S.useIntegerPow = true
    · obtain ⟨hz, hlt⟩ := h.pow he ha hi
      have hz0 : 0 < S.zeta := h.zeta he ha
      have hpos : 0 < S.zetaInt := by rw [hz] at hz0; exact_mod_cast hz0
      rw [if_pos hi, C03_pow_int p (S.zetaInt - 1) (by omega) (by omega) (Or.inr hp'.ne')]
      refine ⟨w * p ^ (S.zetaInt - 1), rfl, ?_⟩
      rw [if_neg hp, hz, ← Real.rpow_intCast]
      push_cast
      rfl
    · rw [if_neg hi]
      exact ⟨_, rfl, by rw [if_neg hp]⟩

theorem SymFnc.expAng_factor {S : SymFnc} (h : S.Valid) (he : S.IsExp) (ha : S.IsAng)
    (w c : ℝ) : (open Classical in if 1 + S.lambda * c ≤ 0 then 0 else
        w * (1 + S.lambda * c) ^ (S.zeta - 1)) * (1 + S.lambda * c) * 2 ^ (1 - S.zeta) =
      w * S.angularFactor c := by
  classical
  unfold SymFnc.angularFactor
  have hz := h.zeta he ha
  by_cases hp : 1 + S.lambda * c ≤ 0
  · rw [if_pos hp, max_eq_left hp, Real.zero_rpow hz.ne']
    ring
  · have hp' := not_le.1 hp
    rw [if_neg hp, max_eq_right hp'.le]
    have : (1 + S.lambda * c) ^ S.zeta = (1 + S.lambda * c) ^ (S.zeta - 1) * (1 + S.lambda * c) := by
      rw [← Real.rpow_add_one hp'.ne']; ring_nf
    rw [this]
    ring

theorem gauss2 (S : SymFnc) (x y : ℝ) : Real.exp (-S.eta * ((x - S.rs) * (x - S.rs) +
    (y - S.rs) * (y - S.rs))) = S.gauss x * S.gauss y := by
  unfold SymFnc.gauss
  rw [← Real.exp_add]; ring_nf

theorem gauss3 (S : SymFnc) (x y z : ℝ) : Real.exp (-S.eta * ((x - S.rs) * (x - S.rs) +
    (y - S.rs) * (y - S.rs) + (z - S.rs) * (z - S.rs))) = S.gauss x * S.gauss y * S.gauss z := by
  unfold SymFnc.gauss
  rw [← Real.exp_add, ← Real.exp_add]; ring_nf

/-! ### Kernels -/

/-- The kernel of a radial function. -/
noncomputable def SymFnc.rkernel (S : SymFnc) : RadialKernel :=
  match S.kind with
  | .ExpRadWeighted => S.kernelExpRadWeighted
  | .CompRad => S.kernelCompRad
  | .CompRadWeighted => S.kernelCompRadWeighted
  | _ => S.kernelExpRad

/-- The kernel of an angular function. -/
noncomputable def SymFnc.pkernel (S : SymFnc) : SymFnc.PairKernel :=
  match S.kind with
  | .ExpAngw => S.kernelExpAngw
  | .ExpAngnWeighted => S.kernelExpAngnWeighted
  | .CompAngn => S.kernelCompAngn
  | .CompAngw => S.kernelCompAngw
  | .CompAngnWeighted => S.kernelCompAngnWeighted
  | .CompAngwWeighted => S.kernelCompAngwWeighted
  | _ => S.kernelExpAngn

/-- What the body of the kernel gives for a pair. -/
noncomputable def SymFnc.terms (S : SymFnc) (n n' : Neighbor) : Option SymFnc.PairTerm :=
  (S.pkernel.body n n' (S.pkernel.fdf n.d) (S.pkernel.fdf n'.d)).getD none

theorem SymFnc.rkernel_local (S : SymFnc) : S.rkernel.Local := by
  unfold SymFnc.rkernel
  split <;> exact ⟨fun _ _ _ => Iff.rfl, fun _ _ _ _ => rfl, fun _ _ _ _ => rfl⟩

theorem SymFnc.bodyExpAngn_some {S : SymFnc} (h : S.Valid) (he : S.IsExp) (ha : S.IsAng)
    (w : Neighbor → Neighbor → ℝ) (n n' : Neighbor) (p p' : ℝ × ℝ) :
    ∃ t, S.bodyExpAngn w n n' p p' = some (some t) := by
  unfold SymFnc.bodyExpAngn
  obtain ⟨fg, e, -⟩ := SymFnc.expAngPower_spec h he ha
    (w n n' * Real.exp (-S.eta * ((n.d - S.rs) * (n.d - S.rs) + (n'.d - S.rs) * (n'.d - S.rs)
      + (√(n'.dr - n.dr).norm2 - S.rs) * (√(n'.dr - n.dr).norm2 - S.rs))))
    (1 + S.lambda * (n.dr.dot n'.dr * (1 / n.d / n'.d)))
  simp only [e, Option.bind_eq_bind, Option.bind_some]
  exact ⟨_, rfl⟩

theorem SymFnc.bodyExpAngw_some {S : SymFnc} (h : S.Valid) (he : S.IsExp) (ha : S.IsAng)
    (n n' : Neighbor) (p p' : ℝ × ℝ) : ∃ t, S.bodyExpAngw n n' p p' = some (some t) := by
  unfold SymFnc.bodyExpAngw
  obtain ⟨fg, e, -⟩ := SymFnc.expAngPower_spec h he ha
    (Real.exp (-S.eta * ((n.d - S.rs) * (n.d - S.rs) + (n'.d - S.rs) * (n'.d - S.rs))))
    (1 + S.lambda * (n.dr.dot n'.dr * (1 / n.d / n'.d)))
  simp only [e, Option.bind_eq_bind, Option.bind_some]
  exact ⟨_, rfl⟩

theorem SymFnc.bodyCompAngn_some (S : SymFnc) (w : Neighbor → Neighbor → ℝ) (n n' : Neighbor)
    (p p' : ℝ × ℝ) : ∃ t, S.bodyCompAngn w n n' p p' = some t := by
  unfold SymFnc.bodyCompAngn
  dsimp only
  split
  · exact ⟨_, rfl⟩
  · split <;> exact ⟨_, rfl⟩

theorem SymFnc.bodyCompAngw_some (S : SymFnc) (w : Neighbor → Neighbor → ℝ) (n n' : Neighbor)
    (p p' : ℝ × ℝ) : ∃ t, S.bodyCompAngw w n n' p p' = some t := by
  unfold SymFnc.bodyCompAngw
  dsimp only
  split
  · exact ⟨_, rfl⟩
  · split <;> exact ⟨_, rfl⟩

theorem SymFnc.pkernel_body {S : SymFnc} (h : S.Valid) (ha : S.IsAng) (n n' : Neighbor)
    (p p' : ℝ × ℝ) : ∃ t, S.pkernel.body n n' p p' = some t := by
  unfold SymFnc.pkernel
  cases hk : S.kind with
  | ExpRad => exact absurd hk ha.1
  | ExpRadWeighted => exact absurd hk ha.2.1
  | CompRad => exact absurd hk ha.2.2.1
  | CompRadWeighted => exact absurd hk ha.2.2.2
  | ExpAngn =>
    obtain ⟨t, e⟩ := SymFnc.bodyExpAngn_some h (by simp [SymFnc.IsExp, hk]) ha (fun _ _ => 1) n n' p p'
    exact ⟨_, e⟩
  | ExpAngnWeighted =>
    obtain ⟨t, e⟩ := SymFnc.bodyExpAngn_some h (by simp [SymFnc.IsExp, hk]) ha S.pairWeight n n' p p'
    exact ⟨_, e⟩
  | ExpAngw =>
    obtain ⟨t, e⟩ := SymFnc.bodyExpAngw_some h (by simp [SymFnc.IsExp, hk]) ha n n' p p'
    exact ⟨_, e⟩
  | CompAngn => exact S.bodyCompAngn_some (fun _ _ => 1) n n' p p'
  | CompAngw => exact S.bodyCompAngw_some (fun _ _ => 1) n n' p p'
  | CompAngnWeighted => exact S.bodyCompAngn_some _ n n' p p'
  | CompAngwWeighted => exact S.bodyCompAngw_some _ n n' p p'

theorem SymFnc.pkernel_local {S : SymFnc} (h : S.Valid) (ha : S.IsAng) :
    S.pkernel.Local S.terms := by
  have hbody : ∀ n n' : Neighbor, S.pkernel.body n n' (S.pkernel.fdf n.d) (S.pkernel.fdf n'.d) =
      some (S.terms n n') := by
    intro n n'
    obtain ⟨t, e⟩ := SymFnc.pkernel_body h ha n n' (S.pkernel.fdf n.d) (S.pkernel.fdf n'.d)
    unfold SymFnc.terms
    rw [e]
    rfl
  have hcong : ∀ n c g n' c' g' p p', S.pkernel.body { n with cache := c, dGdr := g }
      { n' with cache := c', dGdr := g' } p p' = S.pkernel.body n n' p p' := by
    intro n c g n' c' g' p p'
    unfold SymFnc.pkernel
    split <;> rfl
  refine ⟨?_, ?_, ?_⟩
  · intro n c g
    unfold SymFnc.pkernel
    split <;> exact Iff.rfl
  · intro n c g n' c' g'
    unfold SymFnc.pkernel
    split <;> exact Iff.rfl
  · intro n c g n' c' g'
    rw [hcong]
    exact hbody n n'

/-! ### Values of single contributions -/

theorem SymFnc.expAngn_value {S : SymFnc} (h : S.Valid) (he : S.IsExp) (ha : S.IsAng)
    (w : Neighbor → Neighbor → ℝ) {n n' : Neighbor} (hd : n.d = n.dr.norm)
    (hd' : n'.d = n'.dr.norm) :
    ∃ t, S.bodyExpAngn w n n' (S.fc.fdf n.d) (S.fc.fdf n'.d) = some (some t) ∧
      t.value * 2 ^ (1 - S.zeta) = w n n' * (S.angularFactor (cosAngle n.dr n'.dr)
        * (S.gauss n.dr.norm * S.gauss n'.dr.norm) * (S.fc.f n.dr.norm * S.fc.f n'.dr.norm)
        * S.gauss (n.dr - n'.dr).norm * S.fc.f (n.dr - n'.dr).norm) := by
  unfold SymFnc.bodyExpAngn
  obtain ⟨fg, e, hfg⟩ := SymFnc.expAngPower_spec h he ha
    (w n n' * Real.exp (-S.eta * ((n.d - S.rs) * (n.d - S.rs) + (n'.d - S.rs) * (n'.d - S.rs)
      + (√(n'.dr - n.dr).norm2 - S.rs) * (√(n'.dr - n.dr).norm2 - S.rs))))
    (1 + S.lambda * (n.dr.dot n'.dr * (1 / n.d / n'.d)))
  simp only [e, Option.bind_eq_bind, Option.bind_some]
  refine ⟨_, rfl, ?_⟩
  have hF := SymFnc.expAng_factor h he ha (w n n' * Real.exp (-S.eta * ((n.d - S.rs) * (n.d - S.rs)
    + (n'.d - S.rs) * (n'.d - S.rs)
      + (√(n'.dr - n.dr).norm2 - S.rs) * (√(n'.dr - n.dr).norm2 - S.rs))))
    (n.dr.dot n'.dr * (1 / n.d / n'.d))
  rw [← hfg] at hF
  rw [gauss3, dist_symm] at hF
  rw [cos_eq hd hd'] at hF
  dsimp only
  rw [cos_eq hd hd', dist_symm, (h.fc_fdf he).1, (h.fc_fdf he).1, (h.fc_fdf he).1]
  dsimp only
  rw [hd, hd'] at *
  linear_combination (S.fc.f n.dr.norm * S.fc.f n'.dr.norm * S.fc.f (n.dr - n'.dr).norm) * hF

theorem SymFnc.expAngw_value {S : SymFnc} (h : S.Valid) (he : S.IsExp) (ha : S.IsAng)
    {n n' : Neighbor} (hd : n.d = n.dr.norm) (hd' : n'.d = n'.dr.norm) :
    ∃ t, S.bodyExpAngw n n' (S.fc.fdf n.d) (S.fc.fdf n'.d) = some (some t) ∧
      t.value * 2 ^ (1 - S.zeta) = S.angularFactor (cosAngle n.dr n'.dr)
        * (S.gauss n.dr.norm * S.gauss n'.dr.norm) * (S.fc.f n.dr.norm * S.fc.f n'.dr.norm) := by
  unfold SymFnc.bodyExpAngw
  obtain ⟨fg, e, hfg⟩ := SymFnc.expAngPower_spec h he ha
    (Real.exp (-S.eta * ((n.d - S.rs) * (n.d - S.rs) + (n'.d - S.rs) * (n'.d - S.rs))))
    (1 + S.lambda * (n.dr.dot n'.dr * (1 / n.d / n'.d)))
  simp only [e, Option.bind_eq_bind, Option.bind_some]
  refine ⟨_, rfl, ?_⟩
  have hF := SymFnc.expAng_factor h he ha (Real.exp (-S.eta * ((n.d - S.rs) * (n.d - S.rs)
    + (n'.d - S.rs) * (n'.d - S.rs)))) (n.dr.dot n'.dr * (1 / n.d / n'.d))
  rw [← hfg] at hF
  rw [gauss2] at hF
  rw [cos_eq hd hd'] at hF
  dsimp only
  rw [cos_eq hd hd', (h.fc_fdf he).1, (h.fc_fdf he).1]
  dsimp only
  rw [hd, hd'] at *
  linear_combination (S.fc.f n.dr.norm * S.fc.f n'.dr.norm) * hF

/-- The value of a contribution. -/
def tval : Option SymFnc.PairTerm → ℝ
  | none => 0
  | some t => t.value

/-- The angular part as evaluated by the code. -/
theorem SymFnc.angular_code {S : SymFnc} (h : S.Valid) (he : ¬ S.IsExp) (ha : S.IsAng)
    {u v : Vec3} (hu : 0 < u.norm) (hv : 0 < v.norm)
    (hc : |cosAngle u v| = 1 → S.angular u v = 0)
    (hends : S.ca.core.type = .EXP → |cosAngle u v| ≠ 1 →
      Real.arccos (cosAngle u v) ≠ S.angleLeftRadians ∧
      Real.arccos (cosAngle u v) ≠ S.angleRightRadians) :
    ((cosAngle u v ≤ -1 ∨ 1 ≤ cosAngle u v) → S.angular u v = 0) ∧
    ((Real.arccos (cosAngle u v) < S.angleLeftRadians ∨
      S.angleRightRadians < Real.arccos (cosAngle u v)) → S.angular u v = 0) ∧
    (¬ (cosAngle u v ≤ -1 ∨ 1 ≤ cosAngle u v) →
      ¬ (Real.arccos (cosAngle u v) < S.angleLeftRadians ∨
      S.angleRightRadians < Real.arccos (cosAngle u v)) →
      (S.ca.fdf (Real.arccos (cosAngle u v))).1 = S.angular u v) := by
  obtain ⟨t, as, hcfg⟩ := h.ca he ha
  refine ⟨?_, ?_, ?_⟩
  · intro h1
    apply hc
    have := abs_le.1 (abs_cosAngle_le hu hv)
    rcases h1 with h1 | h1
    · rw [show cosAngle u v = -1 by linarith]; norm_num
    · rw [show cosAngle u v = 1 by linarith]; norm_num
  · intro h1
    unfold SymFnc.angular SymFnc.compact
    refine if_neg ?_
    rintro ⟨h2, h3⟩
    rcases h1 with h1 | h1 <;> linarith
  · intro hcn h1
    have hcn' : |cosAngle u v| ≠ 1 := by
      intro hab
      rcases (abs_eq zero_le_one).1 hab with e | e
      · exact hcn (Or.inr e.ge)
      · exact hcn (Or.inl e.le)
    push Not at h1
    unfold SymFnc.angular SymFnc.compact
    by_cases h2 : S.angleLeftRadians < Real.arccos (cosAngle u v) ∧
      Real.arccos (cosAngle u v) < S.angleRightRadians
    · rw [if_pos h2]
      exact (C16_combined_derivative_partial _ _ _ _ _ hcfg _ h2.1 h2.2).1
    · rw [if_neg h2]
      have hor : Real.arccos (cosAngle u v) = S.angleLeftRadians ∨
          Real.arccos (cosAngle u v) = S.angleRightRadians := by
        by_contra hno
        push Not at hno
        exact h2 ⟨lt_of_le_of_ne h1.1 (Ne.symm hno.1), lt_of_le_of_ne h1.2 hno.2⟩
      have hexp : t ≠ .EXP := by
        intro ht
        have := hends (by rw [hcfg.1]; exact ht) hcn'
        rcases hor with e | e
        · exact this.1 e
        · exact this.2 e
      rw [compact_end hcfg hexp hor]

theorem SymFnc.compAngn_value {S : SymFnc} (h : S.Valid) (he : ¬ S.IsExp) (ha : S.IsAng)
    (w : Neighbor → Neighbor → ℝ) {n n' : Neighbor} (hd : n.d = n.dr.norm)
    (hd' : n'.d = n'.dr.norm) (hp : 0 < n.d) (hp' : 0 < n'.d)
    (hT : S.TripletOK n.site n'.site) (h1 : S.rl < n.d ∧ n.d < S.rc)
    (h2 : S.rl < n'.d ∧ n'.d < S.rc)
    (h3 : S.rl < (n.dr - n'.dr).norm ∧ (n.dr - n'.dr).norm < S.rc) :
    ∃ t, S.bodyCompAngn w n n' (S.cr.fdf n.d) (S.cr.fdf n'.d) = some t ∧
      tval t = w n n' * (S.angular n.dr n'.dr * (S.radial n.dr.norm * S.radial n'.dr.norm)
        * S.radial (n.dr - n'.dr).norm) := by
  classical
  obtain ⟨a1, a2, a3⟩ := SymFnc.angular_code h he ha (u := n.dr) (v := n'.dr) (by rw [← hd]; exact hp)
    (by rw [← hd']; exact hp') hT.collinear hT.ends
  unfold SymFnc.bodyCompAngn
  dsimp only
  rw [cos_eq hd hd', dist_symm]
  by_cases hc : cosAngle n.dr n'.dr ≤ -1 ∨ 1 ≤ cosAngle n.dr n'.dr
  · rw [if_pos hc, a1 hc]
    exact ⟨_, rfl, by simp [tval]⟩
  · rw [if_neg hc]
    by_cases hb : Real.arccos (cosAngle n.dr n'.dr) < S.angleLeftRadians ∨
      S.angleRightRadians < Real.arccos (cosAngle n.dr n'.dr)
    · rw [if_pos hb, a2 hb]
      exact ⟨_, rfl, by simp [tval]⟩
    · rw [if_neg hb]
      refine ⟨_, rfl, ?_⟩
      simp only [tval]
      rw [a3 hc hb, h.cr_fdf he _ h1.1 h1.2, h.cr_fdf he _ h2.1 h2.2, h.cr_fdf he _ h3.1 h3.2, hd, hd']
      ring

theorem SymFnc.compAngw_value {S : SymFnc} (h : S.Valid) (he : ¬ S.IsExp) (ha : S.IsAng)
    (w : Neighbor → Neighbor → ℝ) {n n' : Neighbor} (hd : n.d = n.dr.norm)
    (hd' : n'.d = n'.dr.norm) (hp : 0 < n.d) (hp' : 0 < n'.d)
    (hT : S.TripletOK n.site n'.site) (h1 : S.rl < n.d ∧ n.d < S.rc)
    (h2 : S.rl < n'.d ∧ n'.d < S.rc) :
    ∃ t, S.bodyCompAngw w n n' (S.cr.fdf n.d) (S.cr.fdf n'.d) = some t ∧
      tval t = w n n' * (S.angular n.dr n'.dr * (S.radial n.dr.norm * S.radial n'.dr.norm)) := by
  classical
  obtain ⟨a1, a2, a3⟩ := SymFnc.angular_code h he ha (u := n.dr) (v := n'.dr) (by rw [← hd]; exact hp)
    (by rw [← hd']; exact hp') hT.collinear hT.ends
  unfold SymFnc.bodyCompAngw
  dsimp only
  rw [cos_eq hd hd']
  by_cases hc : cosAngle n.dr n'.dr ≤ -1 ∨ 1 ≤ cosAngle n.dr n'.dr
  · rw [if_pos hc, a1 hc]
    exact ⟨_, rfl, by simp [tval]⟩
  · rw [if_neg hc]
    by_cases hb : Real.arccos (cosAngle n.dr n'.dr) < S.angleLeftRadians ∨
      S.angleRightRadians < Real.arccos (cosAngle n.dr n'.dr)
    · rw [if_pos hb, a2 hb]
      exact ⟨_, rfl, by simp [tval]⟩
    · rw [if_neg hb]
      refine ⟨_, rfl, ?_⟩
      simp only [tval]
      rw [a3 hc hb, h.cr_fdf he _ h1.1 h1.2, h.cr_fdf he _ h2.1 h2.2, hd, hd']
      ring

theorem SymFnc.ofPair_eq (S : SymFnc) (n n' : Neighbor) :
    S.ofPair n.site n'.site = (open Classical in if S.pairElements n n' then 1 else 0) := by
  classical
  unfold SymFnc.ofPair SymFnc.pairElements Neighbor.site
  by_cases h : (n.element = S.e1 ∧ n'.element = S.e2) ∨ (n.element = S.e2 ∧ n'.element = S.e1)
  · rw [if_pos h, if_pos]
    simpa [eq_comm] using h
  · rw [if_neg h, if_neg]
    simpa [eq_comm] using h

theorem SymFnc.pairElements_left {S : SymFnc} {n n' : Neighbor} (h : S.pairElements n n') :
    S.e1 = n.element ∨ S.e2 = n.element := by
  rcases h with h | h
  · exact Or.inl h.1
  · exact Or.inr h.1

theorem norm2_lt_iff (v : Vec3) {c : ℝ} (hc : 0 < c) : v.norm2 < c * c ↔ v.norm < c := by
  rw [norm_eq, Real.sqrt_lt' hc, sq]

theorem narrow_iff (u v : Vec3) {c : ℝ} (hc : 0 < c) :
    (v - u).norm2 < c * c ↔ (u - v).norm < c := by
  rw [norm2_lt_iff _ hc, ← dist_symm]; rfl

theorem SymFnc.r2l_iff (S : SymFnc) {u v : Vec3} (hp : 0 < (u - v).norm) :
    (v - u).norm2 ≤ S.r2l ↔ (u - v).norm ≤ S.rl := by
  classical
  unfold SymFnc.r2l
  have e : (v - u).norm2 = (u - v).norm2 := by rw [show v - u = -(u - v) by abel, norm2_neg]
  rw [e]
  by_cases hl : 0 < S.rl
  · rw [if_pos hl, norm2_le_iff _ hl.le]
  · rw [if_neg hl]
    have hne : 0 < (u - v).norm2 := by
      rw [norm_eq] at hp
      exact Real.sqrt_pos.1 hp
    constructor
    · intro h; linarith
    · intro h; linarith

open Classical in
/-- The value contributed by a pair is the summand of the formula. -/
theorem SymFnc.pair_value {S : SymFnc} (h : S.Valid) (ha : S.IsAng) {n n' : Neighbor}
    (hd : n.d = n.dr.norm) (hd' : n'.d = n'.dr.norm) (hp : 0 < n.d) (hp' : 0 < n'.d)
    (hT : ¬ S.IsExp → S.TripletOK n.site n'.site) :
    (if S.pkernel.selJ n ∧ S.pkernel.selK n n' then tval (S.terms n n') else 0) * S.pkernel.pnorm =
      S.pairTerm n.site n'.site := by
  have hrc := h.rc_pos
  unfold SymFnc.terms SymFnc.pkernel SymFnc.pairTerm
  cases hk : S.kind with
  | ExpRad => exact absurd hk ha.1
  | ExpRadWeighted => exact absurd hk ha.2.1
  | CompRad => exact absurd hk ha.2.2.1
  | CompRadWeighted => exact absurd hk ha.2.2.2
  | ExpAngn =>
    have he : S.IsExp := by simp [SymFnc.IsExp, hk]
    obtain ⟨t, e, ev⟩ := SymFnc.expAngn_value h he ha (fun _ _ => 1) hd hd'
    have e' : S.kernelExpAngn.body n n' (S.kernelExpAngn.fdf n.d) (S.kernelExpAngn.fdf n'.d) =
      some (some t) := e
    dsimp only
    rw [e', S.ofPair_eq]
    simp only [Option.getD_some, tval]
    by_cases hs : S.kernelExpAngn.selJ n ∧ S.kernelExpAngn.selK n n'
    · rw [if_pos hs, if_pos hs.2.1]
      exact ev
    · rw [if_neg hs, zero_mul]
      by_cases hE : S.pairElements n n'
      · have : ¬ n.d < S.rc ∨ ¬ n'.d < S.rc ∨ ¬ (n.dr - n'.dr).norm < S.rc := by
          by_contra hcon
          push Not at hcon
          exact hs ⟨⟨SymFnc.pairElements_left hE, hcon.1⟩, hE, hcon.2.1,
            (narrow_iff _ _ hrc).2 hcon.2.2⟩
        have hz := (h.fc_fdf he).2
        rcases this with h1 | h1 | h1
        · have := hz _ (not_lt.1 h1); rw [hd] at this; simp [Neighbor.site, this]
        · have := hz _ (not_lt.1 h1); rw [hd'] at this; simp [Neighbor.site, this]
        · have := hz _ (not_lt.1 h1); simp [Neighbor.site, this]
      · rw [if_neg hE]; ring
  | ExpAngnWeighted =>
    have he : S.IsExp := by simp [SymFnc.IsExp, hk]
    obtain ⟨t, e, ev⟩ := SymFnc.expAngn_value h he ha S.pairWeight hd hd'
    have e' : S.kernelExpAngnWeighted.body n n' (S.kernelExpAngnWeighted.fdf n.d)
      (S.kernelExpAngnWeighted.fdf n'.d) = some (some t) := e
    dsimp only
    rw [e']
    simp only [Option.getD_some, tval]
    by_cases hs : S.kernelExpAngnWeighted.selJ n ∧ S.kernelExpAngnWeighted.selK n n'
    · rw [if_pos hs]
      refine Eq.trans ev ?_
      simp only [SymFnc.pairWeight, SymFnc.Z, Neighbor.site]
      push_cast
      ring
    · rw [if_neg hs, zero_mul]
      have : ¬ n.d < S.rc ∨ ¬ n'.d < S.rc ∨ ¬ (n.dr - n'.dr).norm < S.rc := by
        by_contra hcon
        push Not at hcon
        exact hs ⟨hcon.1, hcon.2.1, (narrow_iff _ _ hrc).2 hcon.2.2⟩
      have hz := (h.fc_fdf he).2
      rcases this with h1 | h1 | h1
      · have := hz _ (not_lt.1 h1); rw [hd] at this; simp [Neighbor.site, this]
      · have := hz _ (not_lt.1 h1); rw [hd'] at this; simp [Neighbor.site, this]
      · have := hz _ (not_lt.1 h1); simp [Neighbor.site, this]
  | ExpAngw =>
    have he : S.IsExp := by simp [SymFnc.IsExp, hk]
    obtain ⟨t, e, ev⟩ := SymFnc.expAngw_value h he ha hd hd'
    have e' : S.kernelExpAngw.body n n' (S.kernelExpAngw.fdf n.d) (S.kernelExpAngw.fdf n'.d) =
      some (some t) := e
    dsimp only
    rw [e', S.ofPair_eq]
    simp only [Option.getD_some, tval]
    by_cases hs : S.kernelExpAngw.selJ n ∧ S.kernelExpAngw.selK n n'
    · rw [if_pos hs, if_pos hs.2.1, one_mul]
      exact ev
    · rw [if_neg hs, zero_mul]
      by_cases hE : S.pairElements n n'
      · have : ¬ n.d < S.rc ∨ ¬ n'.d < S.rc := by
          by_contra hcon
          push Not at hcon
          exact hs ⟨⟨SymFnc.pairElements_left hE, hcon.1⟩, hE, hcon.2⟩
        have hz := (h.fc_fdf he).2
        rcases this with h1 | h1
        · have := hz _ (not_lt.1 h1); rw [hd] at this; simp [Neighbor.site, this]
        · have := hz _ (not_lt.1 h1); rw [hd'] at this; simp [Neighbor.site, this]
      · rw [if_neg hE]; ring
  | CompAngn =>
    have he : ¬ S.IsExp := by simp [SymFnc.IsExp, hk]
    have hT := hT he
    dsimp only
    rw [S.ofPair_eq]
    by_cases hs : S.kernelCompAngn.selJ n ∧ S.kernelCompAngn.selK n n'
    · have h3 : S.rl < (n.dr - n'.dr).norm ∧ (n.dr - n'.dr).norm < S.rc := by
        have := not_or.1 hs.2.2.2
        exact ⟨not_le.1 fun hle => this.2 ((S.r2l_iff hT.apart).2 hle),
          (narrow_iff _ _ hrc).1 (not_le.1 this.1)⟩
      obtain ⟨t, e, ev⟩ := SymFnc.compAngn_value h he ha (fun _ _ => 1) hd hd' hp hp' hT
        hs.1.2.symm hs.2.2.1.symm h3
      have e' : S.kernelCompAngn.body n n' (S.kernelCompAngn.fdf n.d) (S.kernelCompAngn.fdf n'.d) =
        some t := e
      rw [e', if_pos hs, if_pos hs.2.1, one_mul, Option.getD_some, ev]
      show _ * (1 : ℝ) = _
      rw [one_mul, mul_one]
      rfl
    · rw [if_neg hs, zero_mul]
      by_cases hE : S.pairElements n n'
      · have : ¬ (S.rl < n.d ∧ n.d < S.rc) ∨ ¬ (S.rl < n'.d ∧ n'.d < S.rc) ∨
            ¬ (S.rl < (n.dr - n'.dr).norm ∧ (n.dr - n'.dr).norm < S.rc) := by
          by_contra hcon
          rw [not_or, not_or, not_not, not_not, not_not] at hcon
          refine hs ⟨⟨SymFnc.pairElements_left hE, hcon.1.symm⟩, hE, hcon.2.1.symm, ?_⟩
          rw [not_or, S.r2l_iff (u := n.dr) (v := n'.dr) hT.apart, not_le, not_le, narrow_iff _ _ hrc]
          exact hcon.2.2.symm
        rcases this with h1 | h1 | h1
        · have := radial_zero S _ h1; rw [hd] at this; simp [Neighbor.site, this]
        · have := radial_zero S _ h1; rw [hd'] at this; simp [Neighbor.site, this]
        · have := radial_zero S _ h1; simp [Neighbor.site, this]
      · rw [if_neg hE]; ring
  | CompAngnWeighted =>
    have he : ¬ S.IsExp := by simp [SymFnc.IsExp, hk]
    have hT := hT he
    dsimp only
    by_cases hs : S.kernelCompAngnWeighted.selJ n ∧ S.kernelCompAngnWeighted.selK n n'
    · have h3 : S.rl < (n.dr - n'.dr).norm ∧ (n.dr - n'.dr).norm < S.rc := by
        have := not_or.1 hs.2.2
        exact ⟨not_le.1 fun hle => this.2 ((S.r2l_iff hT.apart).2 hle),
          (narrow_iff _ _ hrc).1 (not_le.1 this.1)⟩
      obtain ⟨t, e, ev⟩ := SymFnc.compAngn_value h he ha S.pairWeight hd hd' hp hp' hT
        hs.1.symm hs.2.1.symm h3
      have e' : S.kernelCompAngnWeighted.body n n' (S.kernelCompAngnWeighted.fdf n.d)
        (S.kernelCompAngnWeighted.fdf n'.d) = some t := e
      rw [e', if_pos hs, Option.getD_some, ev]
      show _ * (1 : ℝ) = _
      simp only [SymFnc.pairWeight, SymFnc.Z, Neighbor.site]
      push_cast
      ring
    · rw [if_neg hs, zero_mul]
      have : ¬ (S.rl < n.d ∧ n.d < S.rc) ∨ ¬ (S.rl < n'.d ∧ n'.d < S.rc) ∨
          ¬ (S.rl < (n.dr - n'.dr).norm ∧ (n.dr - n'.dr).norm < S.rc) := by
        by_contra hcon
        rw [not_or, not_or, not_not, not_not, not_not] at hcon
        refine hs ⟨hcon.1.symm, hcon.2.1.symm, ?_⟩
        rw [not_or, S.r2l_iff (u := n.dr) (v := n'.dr) hT.apart, not_le, not_le, narrow_iff _ _ hrc]
        exact hcon.2.2.symm
      rcases this with h1 | h1 | h1
      · have := radial_zero S _ h1; rw [hd] at this; simp [Neighbor.site, this]
      · have := radial_zero S _ h1; rw [hd'] at this; simp [Neighbor.site, this]
      · have := radial_zero S _ h1; simp [Neighbor.site, this]
  | CompAngw =>
    have he : ¬ S.IsExp := by simp [SymFnc.IsExp, hk]
    have hT := hT he
    dsimp only
    rw [S.ofPair_eq]
    by_cases hs : S.kernelCompAngw.selJ n ∧ S.kernelCompAngw.selK n n'
    · obtain ⟨t, e, ev⟩ := SymFnc.compAngw_value h he ha (fun _ _ => 1) hd hd' hp hp' hT
        hs.1.2.symm hs.2.2.symm
      have e' : S.kernelCompAngw.body n n' (S.kernelCompAngw.fdf n.d) (S.kernelCompAngw.fdf n'.d) =
        some t := e
      rw [e', if_pos hs, if_pos hs.2.1, one_mul, Option.getD_some, ev]
      show _ * (1 : ℝ) = _
      rw [one_mul, mul_one]
      rfl
    · rw [if_neg hs, zero_mul]
      by_cases hE : S.pairElements n n'
      · have : ¬ (S.rl < n.d ∧ n.d < S.rc) ∨ ¬ (S.rl < n'.d ∧ n'.d < S.rc) := by
          by_contra hcon
          rw [not_or, not_not, not_not] at hcon
          exact hs ⟨⟨SymFnc.pairElements_left hE, hcon.1.symm⟩, hE, hcon.2.symm⟩
        rcases this with h1 | h1
        · have := radial_zero S _ h1; rw [hd] at this; simp [Neighbor.site, this]
        · have := radial_zero S _ h1; rw [hd'] at this; simp [Neighbor.site, this]
      · rw [if_neg hE]; ring
  | CompAngwWeighted =>
    have he : ¬ S.IsExp := by simp [SymFnc.IsExp, hk]
    have hT := hT he
    dsimp only
    by_cases hs : S.kernelCompAngwWeighted.selJ n ∧ S.kernelCompAngwWeighted.selK n n'
    · obtain ⟨t, e, ev⟩ := SymFnc.compAngw_value h he ha S.pairWeight hd hd' hp hp' hT
        hs.1.symm hs.2.symm
      have e' : S.kernelCompAngwWeighted.body n n' (S.kernelCompAngwWeighted.fdf n.d)
        (S.kernelCompAngwWeighted.fdf n'.d) = some t := e
      rw [e', if_pos hs, Option.getD_some, ev]
      show _ * (1 : ℝ) = _
      simp only [SymFnc.pairWeight, SymFnc.Z, Neighbor.site]
      push_cast
      ring
    · rw [if_neg hs, zero_mul]
      have : ¬ (S.rl < n.d ∧ n.d < S.rc) ∨ ¬ (S.rl < n'.d ∧ n'.d < S.rc) := by
        by_contra hcon
        rw [not_or, not_not, not_not] at hcon
        exact hs ⟨hcon.1.symm, hcon.2.symm⟩
      rcases this with h1 | h1
      · have := radial_zero S _ h1; rw [hd] at this; simp [Neighbor.site, this]
      · have := radial_zero S _ h1; rw [hd'] at this; simp [Neighbor.site, this]

open Classical in
/-- The value contributed by a neighbour is the summand of the formula. -/
theorem SymFnc.site_value {S : SymFnc} (h : S.Valid) (ha : ¬ S.IsAng) {n : Neighbor}
    (hd : n.d = n.dr.norm) :
    (if S.rkernel.sel n then S.rkernel.term n (S.rkernel.fdf n.d) else 0) = S.siteTerm n.site := by
  unfold SymFnc.rkernel SymFnc.siteTerm
  have hg : ∀ r, Real.exp (-S.eta * (r - S.rs) * (r - S.rs)) = S.gauss r := by
    intro r; unfold SymFnc.gauss; ring_nf
  cases hk : S.kind with
  | ExpRad =>
    have he : S.IsExp := by simp [SymFnc.IsExp, hk]
    simp only [SymFnc.kernelExpRad, hg, (h.fc_fdf he).1]
    have hs : n.site.dr.norm = n.d := hd.symm
    by_cases h1 : n.site.element = S.e1
    · rw [if_pos h1, hs]
      by_cases h2 : n.d < S.rc
      · rw [if_pos ⟨h1.symm, h2⟩]
      · rw [if_neg (fun k => h2 k.2), (h.fc_fdf he).2 _ (not_lt.1 h2), mul_zero]
    · rw [if_neg (fun k => h1 k.1.symm), if_neg h1]
  | ExpRadWeighted =>
    have he : S.IsExp := by simp [SymFnc.IsExp, hk]
    simp only [SymFnc.kernelExpRadWeighted, Neighbor.site, hg, (h.fc_fdf he).1, SymFnc.Z]
    by_cases h2 : n.d < S.rc
    · rw [if_pos h2, hd]
    · rw [if_neg h2, ← hd, (h.fc_fdf he).2 _ (not_lt.1 h2), mul_zero]
  | CompRad =>
    have he : ¬ S.IsExp := by simp [SymFnc.IsExp, hk]
    change (if S.kernelCompRad.sel n then S.kernelCompRad.term n (S.kernelCompRad.fdf n.d) else 0) =
      if n.site.element = S.e1 then S.radial n.site.dr.norm else 0
    have hs : n.site.dr.norm = n.d := hd.symm
    by_cases h1 : n.site.element = S.e1
    · rw [if_pos h1, hs]
      by_cases h2 : S.rl < n.d ∧ n.d < S.rc
      · rw [if_pos ⟨h1.symm, h2⟩]
        exact h.cr_fdf he _ h2.1 h2.2
      · rw [if_neg (fun k => h2 k.2), radial_zero S _ h2]
    · rw [if_neg (fun k => h1 k.1.symm), if_neg h1]
  | CompRadWeighted =>
    have he : ¬ S.IsExp := by simp [SymFnc.IsExp, hk]
    change (if S.kernelCompRadWeighted.sel n then
      (S.cr.fdf n.d).1 * (S.atomicNumber n.element : ℝ) else 0) =
      (S.atomicNumber n.element : ℝ) * S.radial n.dr.norm
    by_cases h2 : S.rl < n.d ∧ n.d < S.rc
    · have h2' : S.kernelCompRadWeighted.sel n := h2
      rw [if_pos h2', ← hd, h.cr_fdf he _ h2.1 h2.2, mul_comm]
    · have h2' : ¬ S.kernelCompRadWeighted.sel n := h2
      rw [if_neg h2', ← hd, radial_zero S _ h2, mul_zero]
  | _ => exact absurd (by simp [SymFnc.IsAng, hk]) ha

/-! ### `calculate` -/

theorem SymFnc.rkernel_fdf {S : SymFnc} (ha : ¬ S.IsAng) : S.rkernel.fdf = S.cachedFunction := by
  unfold SymFnc.rkernel SymFnc.cachedFunction
  cases hk : S.kind <;> first | rfl | exact absurd (by simp [SymFnc.IsAng, hk]) ha

theorem SymFnc.pkernel_fdf {S : SymFnc} (ha : S.IsAng) : S.pkernel.fdf = S.cachedFunction := by
  unfold SymFnc.pkernel SymFnc.cachedFunction
  cases hk : S.kind <;> first | rfl | exact absurd ha (by simp [SymFnc.IsAng, hk])

theorem SymFnc.rkernel_sel {S : SymFnc} (ha : ¬ S.IsAng) (n : Neighbor) (h : S.rkernel.sel n) :
    n.d < S.rc ∧ S.checkRelevantElement n.element := by
  unfold SymFnc.rkernel at h
  unfold SymFnc.checkRelevantElement
  cases hk : S.kind with
  | ExpRad => rw [hk] at h; exact ⟨h.2, by simp [← h.1]⟩
  | CompRad => rw [hk] at h; exact ⟨h.2.2, by simp [← h.1]⟩
  | ExpRadWeighted => rw [hk] at h; exact ⟨h, rfl⟩
  | CompRadWeighted => rw [hk] at h; exact ⟨h.2, rfl⟩
  | _ => exact absurd (by simp [SymFnc.IsAng, hk]) ha

theorem SymFnc.pkernel_selJ {S : SymFnc} (ha : S.IsAng) (n : Neighbor) (h : S.pkernel.selJ n) :
    n.d < S.rc ∧ S.checkRelevantElement n.element := by
  unfold SymFnc.pkernel at h
  unfold SymFnc.checkRelevantElement
  cases hk : S.kind with
  | ExpAngn => rw [hk] at h; exact ⟨h.2, by rcases h.1 with e | e <;> simp [e]⟩
  | ExpAngw => rw [hk] at h; exact ⟨h.2, by rcases h.1 with e | e <;> simp [e]⟩
  | CompAngn => rw [hk] at h; exact ⟨h.2.1, by rcases h.1 with e | e <;> simp [e]⟩
  | CompAngw => rw [hk] at h; exact ⟨h.2.1, by rcases h.1 with e | e <;> simp [e]⟩
  | ExpAngnWeighted => rw [hk] at h; exact ⟨h, rfl⟩
  | CompAngnWeighted => rw [hk] at h; exact ⟨h.1, rfl⟩
  | CompAngwWeighted => rw [hk] at h; exact ⟨h.1, rfl⟩
  | _ => exact absurd ha (by simp [SymFnc.IsAng, hk])

theorem SymFnc.pkernel_selK {S : SymFnc} (ha : S.IsAng) (n n' : Neighbor)
    (h : S.pkernel.selK n n') : n'.d < S.rc ∧ S.checkRelevantElement n'.element := by
  have hel : S.pairElements n n' → S.e1 = n'.element ∨ S.e2 = n'.element := by
    rintro (⟨-, e⟩ | ⟨-, e⟩)
    · exact Or.inr e
    · exact Or.inl e
  unfold SymFnc.pkernel at h
  unfold SymFnc.checkRelevantElement
  cases hk : S.kind with
  | ExpAngn => rw [hk] at h; exact ⟨h.2.1, by rcases hel h.1 with e | e <;> simp [e]⟩
  | ExpAngw => rw [hk] at h; exact ⟨h.2, by rcases hel h.1 with e | e <;> simp [e]⟩
  | CompAngn => rw [hk] at h; exact ⟨h.2.1.1, by rcases hel h.1 with e | e <;> simp [e]⟩
  | CompAngw => rw [hk] at h; exact ⟨h.2.1, by rcases hel h.1 with e | e <;> simp [e]⟩
  | ExpAngnWeighted => rw [hk] at h; exact ⟨h.1, rfl⟩
  | CompAngnWeighted => rw [hk] at h; exact ⟨h.1.1, rfl⟩
  | CompAngwWeighted => rw [hk] at h; exact ⟨h.1, rfl⟩
  | _ => exact absurd ha (by simp [SymFnc.IsAng, hk])

/-- The loop bounds leave out only neighbours beyond the cutoff. -/
theorem SymFnc.bound_ok (S : SymFnc) {a : Atom} (hl : a.ListOK S.rc) {m : ℕ}
    (hm : m = a.numNeighbors ∨ m = a.getStoredMinNumNeighbors S.rc) :
    m ≤ a.neighbors.length ∧ ∀ k n, a.neighbors[k]? = some n → m ≤ k → S.rc ≤ n.d := by
  rcases hm with rfl | rfl
  · rw [hl.num]
    refine ⟨le_rfl, fun k n hk hle => ?_⟩
    rw [List.getElem?_eq_none hle] at hk
    cases hk
  · refine ⟨hl.stored_le, fun k n hk hle => hl.stored n ?_⟩
    refine List.mem_of_getElem? (i := k - a.getStoredMinNumNeighbors S.rc) ?_
    rw [List.getElem?_drop, Nat.add_sub_cancel' hle]
    exact hk

theorem SymFnc.rkernel_bound (S : SymFnc) (a : Atom) :
    S.rkernel.bound a = a.numNeighbors ∨ S.rkernel.bound a = a.getStoredMinNumNeighbors S.rc := by
  unfold SymFnc.rkernel
  split <;> first | exact Or.inl rfl | exact Or.inr rfl

theorem SymFnc.pkernel_bound (S : SymFnc) (a : Atom) :
    S.pkernel.bound a = a.numNeighbors ∨ S.pkernel.bound a = a.getStoredMinNumNeighbors S.rc := by
  unfold SymFnc.pkernel
  split <;> first | exact Or.inl rfl | exact Or.inr rfl

theorem SymFnc.pkernel_checkJ {S : SymFnc} (ha : S.IsAng) (h : S.pkernel.checkJ = true) :
    S.IsExp ∧ S.IsAng := by
  refine ⟨?_, ha⟩
  unfold SymFnc.pkernel at h
  unfold SymFnc.IsExp
  unfold SymFnc.IsAng at ha
  cases hk : S.kind <;> simp [hk, SymFnc.kernelCompAngn, SymFnc.kernelCompAngw,
    SymFnc.kernelCompAngnWeighted, SymFnc.kernelCompAngwWeighted] at h ha ⊢

open Classical in
/-- Everything `calculate` adds up: raw value (without the normalisation of the angular functions),
derivative for the central atom and for each neighbour (with opposite sign). -/
noncomputable def SymFnc.total (S : SymFnc) (derivatives : Bool) (a : Atom) : Contrib :=
  if S.IsAng then PS a.neighbors.length (S.pairContrib S.pkernel S.terms derivatives a)
  else ∑ j ∈ Finset.range a.neighbors.length, S.rkernel.contrib derivatives a j

/-- The loop bound of an angular function covers all contributions. -/
theorem SymFnc.total_of_bound_ang {S : SymFnc} {a : Atom} (d : Bool) (hl : a.ListOK S.rc)
    (ha : S.IsAng) {m : ℕ} (hm : m = a.numNeighbors ∨ m = a.getStoredMinNumNeighbors S.rc) :
    PS m (S.pairContrib S.pkernel S.terms d a) = S.total d a := by
  obtain ⟨hb, hbeyond⟩ := S.bound_ok hl hm
  unfold SymFnc.total
  rw [if_pos ha]
  refine PS_extend hb _ fun j k hjk hmk hkn => ?_
  unfold SymFnc.pairContrib
  cases hj : a.neighbors[j]? with
  | none => rfl
  | some nj =>
    cases hk : a.neighbors[k]? with
    | none => rfl
    | some nk =>
      refine if_neg fun hsel => ?_
      have := (S.pkernel_selK ha nj nk hsel.2).1
      have := hbeyond k nk hk hmk
      linarith

/-- The loop bound of a radial function covers all contributions. -/
theorem SymFnc.total_of_bound_rad {S : SymFnc} {a : Atom} (d : Bool) (hl : a.ListOK S.rc)
    (ha : ¬ S.IsAng) {m : ℕ} (hm : m = a.numNeighbors ∨ m = a.getStoredMinNumNeighbors S.rc) :
    ∑ j ∈ Finset.range m, S.rkernel.contrib d a j = S.total d a := by
  obtain ⟨hb, hbeyond⟩ := S.bound_ok hl hm
  unfold SymFnc.total
  rw [if_neg ha]
  refine Finset.sum_subset (Finset.range_mono hb) fun k hk hk' => ?_
  unfold RadialKernel.contrib
  cases hn : a.neighbors[k]? with
  | none => rfl
  | some n =>
    refine if_neg fun hsel => ?_
    have := (S.rkernel_sel ha n hsel).1
    have := hbeyond k n hn (by simpa using hk')
    linarith

/-- The value of an angular function is that of the formula. -/
theorem SymFnc.total_value_ang {S : SymFnc} {a : Atom} (derivatives : Bool) (hV : S.Valid)
    (hl : a.ListOK S.rc) (hT : S.TripletsOK a.env) (ha : S.IsAng) :
    (S.total derivatives a).1 * S.pkernel.pnorm = S.formula a.env := by
  classical
  have henv : a.env = a.neighbors.map Neighbor.site := rfl
  unfold SymFnc.total SymFnc.formula
  rw [if_pos ha, pairSum_eq, henv, List.length_map]
  have hz : (List.map S.siteTerm (List.map Neighbor.site a.neighbors)).sum = 0 := by
    refine List.sum_eq_zero fun c hc => ?_
    obtain ⟨x, -, rfl⟩ := List.mem_map.1 hc
    unfold SymFnc.siteTerm
    cases hk : S.kind <;> first | rfl | exact absurd ha (by simp [SymFnc.IsAng, hk])
  rw [hz, zero_add]
  have hfst : (PS a.neighbors.length (S.pairContrib S.pkernel S.terms derivatives a)).1 =
      PS a.neighbors.length
        (fun j k => (S.pairContrib S.pkernel S.terms derivatives a j k).1) := by
    unfold PS
    rw [Prod.fst_sum]
    refine Finset.sum_congr rfl fun j _ => ?_
    rw [Prod.fst_sum]
    refine Finset.sum_congr rfl fun k _ => ?_
    by_cases hjk : j < k
    · rw [if_pos hjk, if_pos hjk]
    · rw [if_neg hjk, if_neg hjk]; rfl
  rw [hfst]
  unfold PS
  rw [Finset.sum_mul]
  refine Finset.sum_congr rfl fun j hj => ?_
  rw [Finset.sum_mul]
  refine Finset.sum_congr rfl fun k hk => ?_
  by_cases hjk : j < k
  · rw [if_pos hjk, if_pos hjk]
    have hj' : j < a.neighbors.length := Finset.mem_range.1 hj
    have hk' : k < a.neighbors.length := Finset.mem_range.1 hk
    have hmj : a.neighbors[j] ∈ a.neighbors := List.getElem_mem hj'
    have hmk : a.neighbors[k] ∈ a.neighbors := List.getElem_mem hk'
    have hTjk : ¬ S.IsExp → S.TripletOK a.neighbors[j].site a.neighbors[k].site := by
      intro he
      have := List.pairwise_iff_getElem.1 (hT he ha) j k (by simpa [henv] using hj')
        (by simpa [henv] using hk') hjk
      simpa [henv] using this
    have := SymFnc.pair_value hV ha (hl.d _ hmj) (hl.d _ hmk) (hl.pos _ hmj) (hl.pos _ hmk) hTjk
    unfold SymFnc.pairContrib at2
    simp only [List.getElem?_map, List.getElem?_eq_getElem hj', List.getElem?_eq_getElem hk',
      Option.map_some]
    rw [← this]
    congr 1
    by_cases hsel : S.pkernel.selJ a.neighbors[j] ∧
      S.pkernel.selK a.neighbors[j] a.neighbors[k]
    · rw [if_pos hsel, if_pos hsel]
      cases S.terms a.neighbors[j] a.neighbors[k] <;> rfl
    · rw [if_neg hsel, if_neg hsel]; rfl
  · rw [if_neg hjk, if_neg hjk, zero_mul]

/-- The value of a radial function is that of the formula. -/
theorem SymFnc.total_value_rad {S : SymFnc} {a : Atom} (derivatives : Bool) (hV : S.Valid)
    (hl : a.ListOK S.rc) (ha : ¬ S.IsAng) :
    (S.total derivatives a).1 = S.formula a.env := by
  classical
  have henv : a.env = a.neighbors.map Neighbor.site := rfl
  unfold SymFnc.total SymFnc.formula
  have hz : pairSum S.pairTerm a.env = 0 := by
    rw [pairSum_eq]
    unfold PS
    refine Finset.sum_eq_zero fun j _ => Finset.sum_eq_zero fun k _ => ?_
    have : at2 S.pairTerm a.env j k = 0 := by
      unfold at2
      split
      · unfold SymFnc.pairTerm
        cases hk : S.kind <;> first | rfl | exact absurd (by simp [SymFnc.IsAng, hk]) ha
      · rfl
    rw [this, ite_self]
  rw [hz, add_zero, if_neg ha, list_sum_getD, henv, List.length_map, List.length_map,
    Prod.fst_sum]
  refine Finset.sum_congr rfl fun k hk => ?_
  have hk' : k < a.neighbors.length := Finset.mem_range.1 hk
  have := SymFnc.site_value hV ha (hl.d _ (List.getElem_mem hk'))
  unfold RadialKernel.contrib
  simp only [List.getElem?_map, List.getElem?_eq_getElem hk', Option.map_some, Option.getD_some]
  rw [← this]
  by_cases hsel : S.rkernel.sel a.neighbors[k]
  · rw [if_pos hsel, if_pos hsel]
  · rw [if_neg hsel, if_neg hsel]; rfl

/-- `calculate` stores the scaled value of the formula and adds the total derivatives. -/
theorem SymFnc.calculate_eq {S : SymFnc} {L : CacheLayout} {R : ℝ} {a : Atom}
    {derivatives : Bool} (hV : S.Valid) (hl : a.ListOK S.rc) (hA : S.Allocated a derivatives)
    (hT : S.TripletsOK a.env) (hL : L.Disjoint) (hS : S.CacheUse L) (hR : S.rc ≤ R)
    (hC : a.CacheOK L R) :
    ∃ caches, CachesOK L R a caches ∧ S.calculate a derivatives =
      some (S.finish a (S.total derivatives a) caches (S.formula a.env)) := by
  classical
  have henv : a.env = a.neighbors.map Neighbor.site := rfl
  by_cases ha : S.IsAng
  · obtain ⟨hb, hbeyond⟩ := S.bound_ok hl (S.pkernel_bound a)
    obtain ⟨caches, hok, e⟩ := SymFnc.pairCalculate_eq (T := S.terms) (S.pkernel_local hV ha)
      (S.pkernel_fdf ha) (S.pkernel_selJ ha) (fun n n' _ => S.pkernel_selK ha n n')
      (S.pkernel_checkJ ha) hL hS hR hA hb hC
    refine ⟨caches, hok, ?_⟩
    have e1 : S.calculate a derivatives = S.pairCalculate S.pkernel a derivatives := by
      unfold SymFnc.calculate SymFnc.pkernel
      cases hk : S.kind <;> first | rfl | exact absurd ha (by simp [SymFnc.IsAng, hk])
    have e2 : S.pairTotal S.pkernel S.terms derivatives a (S.pkernel.bound a) =
        S.total derivatives a := by
      rw [pairTotal_eq, SymFnc.total_of_bound_ang derivatives hl ha (S.pkernel_bound a)]
    have e3 := S.total_value_ang derivatives hV hl hT ha
    rw [e1, e, e2, e3]
  · obtain ⟨hb, hbeyond⟩ := S.bound_ok hl (S.rkernel_bound a)
    obtain ⟨caches, hok, e⟩ := SymFnc.radialCalculate_eq S.rkernel_local
      (S.rkernel_fdf ha) (S.rkernel_sel ha) hL hS hR hA hb hC
    refine ⟨caches, hok, ?_⟩
    have hcache : (S.kind = .ExpRad ∨ S.kind = .CompRad) → S.cacheAtE1 = some () := by
      intro hk
      unfold SymFnc.cacheAtE1
      have hci : S.cacheIndices[S.e1]? = some (S.cacheIndices[S.e1]'hA.cache.1) :=
        List.getElem?_eq_getElem _
      generalize S.cacheIndices[S.e1]'hA.cache.1 = ci at hci
      rw [hci]
      simp only [Option.bind_eq_bind, Option.bind_some]
      have hrel : S.checkRelevantElement S.e1 := by
        unfold SymFnc.checkRelevantElement
        rcases hk with hk | hk <;> simp [hk]
      rcases hS.slots S.e1 ci hrel hci with rfl | ⟨c, -, rfl, -⟩ <;> rfl
    have e1 : S.calculate a derivatives = S.radialCalculate S.rkernel a derivatives := by
      unfold SymFnc.calculate SymFnc.rkernel
      cases hk : S.kind with
      | ExpRad =>
        simp only [hcache (Or.inl hk), Option.bind_eq_bind, Option.bind_some]
      | CompRad =>
        simp only [hcache (Or.inr hk), Option.bind_eq_bind, Option.bind_some]
      | ExpRadWeighted => rfl
      | CompRadWeighted => rfl
      | _ => exact absurd (by simp [SymFnc.IsAng, hk]) ha
    have e2 : ((List.range (S.rkernel.bound a)).map (S.rkernel.contrib derivatives a)).sum =
        S.total derivatives a := by
      rw [list_sum_range, SymFnc.total_of_bound_rad derivatives hl ha (S.rkernel_bound a)]
    have e3 := S.total_value_rad derivatives hV hl ha
    rw [e1, e, e2, e3]

end N2P2
