import Mathlib.Tactic.Linarith
import Mathlib.Tactic.FieldSimp
import Mathlib.Tactic.Ring
import Mathlib.Tactic.LinearCombination
import Mathlib.Data.List.Nodup
import Verif.Model.Kspace
import Verif.Lemma.Geometry
import Verif.Lemma.NeighborList
import Verif.Spec.Electrostatics

/-! The reciprocal grid. -/

namespace N2P2

theorem mem_intRange {a b x : ℤ} : x ∈ intRange a b ↔ a ≤ x ∧ x ≤ b := by
  simp only [intRange, List.mem_map, List.mem_range]
  constructor
  · rintro ⟨k, h1, rfl⟩; omega
  · rintro ⟨h1, h2⟩; exact ⟨(x - a).toNat, by omega, by omega⟩

theorem intRange_nodup (a b : ℤ) : (intRange a b).Nodup := by
  refine List.Nodup.map ?_ List.nodup_range
  intro x y h
  simpa using h

/-- The triples in one half of the space. -/
def HalfPos (m : ℤ × ℤ × ℤ) : Prop :=
  0 < m.1 ∨ (m.1 = 0 ∧ 0 < m.2.1) ∨ (m.1 = 0 ∧ m.2.1 = 0 ∧ 0 < m.2.2)

theorem mem_kLoop {n : Fin 3 → ℤ} {m : ℤ × ℤ × ℤ} :
    m ∈ kLoop n ↔ HalfPos m ∧ m.1 ≤ n 0 ∧ (-n 1 ≤ m.2.1 ∧ m.2.1 ≤ n 1) ∧
      (-n 2 ≤ m.2.2 ∧ m.2.2 ≤ n 2) := by
  obtain ⟨i, j, k⟩ := m
  simp only [kLoop, List.mem_flatMap, List.mem_map, List.mem_filter, mem_intRange, HalfPos,
    Prod.mk.injEq, decide_eq_true_eq]
  constructor
  · rintro ⟨i', hi, j', hj, k', ⟨hk, hne⟩, rfl, rfl, rfl⟩
    split_ifs at hj hk <;> omega
  · rintro ⟨h, h0, h1, h2⟩
    refine ⟨i, by omega, j, ?_, k, ⟨?_, ?_⟩, rfl, rfl, rfl⟩
    · split_ifs <;> omega
    · split_ifs <;> omega
    · omega

theorem kLoop_nodup (n : Fin 3 → ℤ) : (kLoop n).Nodup := by
  unfold kLoop
  refine List.nodup_flatMap.2 ⟨fun i _ => List.nodup_flatMap.2 ⟨fun j _ => ?_, ?_⟩, ?_⟩
  · refine ((intRange_nodup _ _).filter _).map ?_
    intro x y h
    simpa using h
  · refine (intRange_nodup _ _).imp ?_
    intro j j' hne x h1 h2
    simp only [List.mem_map] at h1 h2
    obtain ⟨_, _, rfl⟩ := h1
    obtain ⟨_, _, h⟩ := h2
    simp only [Prod.mk.injEq] at h
    exact hne h.2.1.symm
  · refine (intRange_nodup _ _).imp ?_
    intro i i' hne x h1 h2
    simp only [List.mem_map, List.mem_flatMap] at h1 h2
    obtain ⟨_, _, _, _, rfl⟩ := h1
    obtain ⟨_, _, _, _, h⟩ := h2
    simp only [Prod.mk.injEq] at h
    exact hne h.1.symm

/-- The entry of the grid for a vector. -/
noncomputable def kEntry (eta pre : ℝ) (K : Vec3) : Kvector :=
  ⟨K, K.norm2, Real.exp (-0.5 * eta * eta * K.norm2) * 2.0 * pre / K.norm2⟩

theorem shift_triple (b : Fin 3 → Vec3) (m : ℤ × ℤ × ℤ) :
    (m.1 : ℝ) • b 0 + (m.2.1 : ℝ) • b 1 + (m.2.2 : ℝ) • b 2 = shift b (bcVec m) := by
  simp [shift, Fin.sum_univ_three, bcVec]

open Classical in
theorem foldl_step (l : List (ℤ × ℤ × ℤ)) (g : KspaceGrid) :
    l.foldl KspaceGrid.step g = { g with
      kvectors := g.kvectors ++ ((l.map fun m => shift g.kbox (bcVec m)).filter
        fun K => K.norm2 < g.kCut * g.kCut).map (kEntry g.eta g.pre) } := by
  induction l generalizing g with
  | nil => simp
  | cons m l ih =>
    rw [List.foldl_cons, List.map_cons, List.filter_cons]
    have hs : g.step m = if (shift g.kbox (bcVec m)).norm2 < g.kCut * g.kCut then
        { g with kvectors := g.kvectors ++ [kEntry g.eta g.pre (shift g.kbox (bcVec m))] }
        else g := by
      unfold KspaceGrid.step
      simp only [shift_triple]
      rfl
    by_cases h : (shift g.kbox (bcVec m)).norm2 < g.kCut * g.kCut
    · rw [hs, if_pos h, ih]
      simp [h]
    · rw [hs, if_neg h, ih]
      simp [h]

/-- The reciprocal box. -/
noncomputable def recipBox (box : Fin 3 → Vec3) : Fin 3 → Vec3 :=
  let pre := 2 * Real.pi / |boxDet box|
  ![pre • (box 1).cross (box 2), pre • (box 2).cross (box 0), pre • (box 0).cross (box 1)]

theorem recipBox_nonSingular {box : Fin 3 → Vec3} (h : NonSingular box) :
    NonSingular (recipBox box) := by
  rw [nonSingular_iff] at h ⊢
  have e : boxDet (recipBox box) = (2 * Real.pi / |boxDet box|) ^ 3 * boxDet box ^ 2 := by
    simp [recipBox, boxDet, Vec3.cross]
    ring
  rw [e]
  have := Real.pi_pos
  have := abs_pos.2 h
  positivity

theorem recip_expand (box : Fin 3 → Vec3) (K : Vec3) :
    boxDet box • K = (∑ c, K c * box 0 c) • (box 1).cross (box 2) +
      (∑ c, K c * box 1 c) • (box 2).cross (box 0) +
      (∑ c, K c * box 2 c) • (box 0).cross (box 1) := by
  funext i
  fin_cases i <;> simp [boxDet, Vec3.cross, Fin.sum_univ_three] <;> ring

theorem recipBox_dot (box : Fin 3 → Vec3) (f : Fin 3 → ℝ) (j : Fin 3) :
    ∑ c, cartesian (recipBox box) f c * box j c =
      f j * (2 * Real.pi / |boxDet box| * boxDet box) := by
  fin_cases j <;>
    simp [cartesian, recipBox, boxDet, Vec3.cross, Fin.sum_univ_three] <;> ring

theorem isReciprocal_iff {box : Fin 3 → Vec3} (h : NonSingular box) (K : Vec3) :
    IsReciprocal box K ↔ ∃ n, K = shift (recipBox box) n := by
  have h' := h
  rw [nonSingular_iff] at h
  have hs : boxDet box = |boxDet box| ∨ boxDet box = -|boxDet box| := by
    rcases abs_choice (boxDet box) with e | e <;> rw [e] <;> simp
  have hp := abs_pos.2 h
  constructor
  · intro hK
    choose m hm using hK
    have e := recip_expand box K
    rw [hm, hm, hm] at e
    have key : ∀ s : ℤ, ((s : ℝ) * |boxDet box| = boxDet box) → (s : ℝ) * s = 1 →
        K = shift (recipBox box) (fun k => s * m k) := by
      intro s hs hs2
      have : K = (boxDet box)⁻¹ • (boxDet box • K) := by rw [smul_smul, inv_mul_cancel₀ h, one_smul]
      rw [this, e]
      funext c
      simp only [shift, recipBox, Fin.sum_univ_three, Pi.add_apply, Pi.smul_apply, smul_eq_mul,
        Matrix.cons_val_zero, Matrix.cons_val_one, Matrix.cons_val]
      generalize |boxDet box| = a at hs hp
      rw [← hs]
      have hs0 : (s : ℝ) ≠ 0 := by rintro h0; rw [h0] at hs2; norm_num at hs2
      push_cast
      field_simp
      have : (s : ℝ) ^ 2 = 1 := by rw [sq]; exact hs2
      rw [this]
      ring
    rcases hs with e | e
    · exact ⟨_, key 1 (by push_cast; rw [one_mul]; exact e.symm) (by norm_num)⟩
    · exact ⟨_, key (-1) (by push_cast; rw [neg_one_mul]; exact e.symm) (by norm_num)⟩
  · rintro ⟨n, rfl⟩ j
    rw [shift_eq, recipBox_dot]
    rcases hs with e | e
    · refine ⟨n j, ?_⟩
      rw [← e]; field_simp
    · refine ⟨-n j, ?_⟩
      rw [show boxDet box = -|boxDet box| from e, abs_neg, abs_abs]
      push_cast
      field_simp

theorem norm2_lt_kCut (v : Vec3) {c : ℝ} (hc : 0 ≤ c) : v.norm2 < c * c ↔ len v < c := by
  rw [← not_le, ← not_le, len_eq, norm_eq, Real.le_sqrt hc, sq]
  exact norm2_nonneg v

/-- Enough multiples of the reciprocal box vectors are tried. -/
theorem recip_range {kbox : Fin 3 → Vec3} (h : NonSingular kbox) {kCut : ℝ} {m : Fin 3 → ℤ}
    (hm : len (shift kbox m) < kCut) (k : Fin 3) {p : ℕ}
    (hp : whileCount (fun n => (n : ℝ) * boxProj kbox k ≤ kCut) = some p) :
    -(p : ℤ) ≤ m k ∧ m k ≤ p := by
  refine copies_suffice (x := 0) (boxProj_pos h k) hp (by norm_num) ?_
  have := boxProj_bound h (fun k => (m k : ℝ)) k
  rw [← shift_eq, ← len_eq] at this
  rw [zero_add]
  linarith

open Classical in
/-- The grid in closed form. -/
theorem setup_eq {box : Fin 3 → Vec3} (h : NonSingular box) (p : EwaldParameters)
    (g0 : KspaceGrid) : ∃ g n, g0.setup box p = some g ∧
      g.kvectors = g0.kvectors ++ (((kLoop n).map fun m => shift (recipBox box) (bcVec m)).filter
        fun K => K.norm2 < p.kCut * p.kCut).map (kEntry p.eta (2 * Real.pi / |boxDet box|)) ∧
      ∀ m, len (shift (recipBox box) m) < p.kCut → ∀ k, -n k ≤ m k ∧ m k ≤ n k := by
  have hr := recipBox_nonSingular h
  obtain ⟨p0, h0⟩ := whileCount_pos (c := p.kCut) (boxProj_pos hr 0)
  obtain ⟨p1, h1⟩ := whileCount_pos (c := p.kCut) (boxProj_pos hr 1)
  obtain ⟨p2, h2⟩ := whileCount_pos (c := p.kCut) (boxProj_pos hr 2)
  have hb : (![(2.0 * Real.pi / |(box 0).dot ((box 1).cross (box 2))|) • (box 1).cross (box 2),
      (2.0 * Real.pi / |(box 0).dot ((box 1).cross (box 2))|) • (box 2).cross (box 0),
      (2.0 * Real.pi / |(box 0).dot ((box 1).cross (box 2))|) • (box 0).cross (box 1)]
        : Fin 3 → Vec3) = recipBox box := by
    rw [triple_eq]; norm_num [recipBox]
  have e : g0.setup box p = some ((kLoop ![(p0 : ℤ), (p1 : ℤ), (p2 : ℤ)]).foldl KspaceGrid.step
      { g0 with
        volume := |boxDet box|
        pre := 2.0 * Real.pi / |boxDet box|
        kbox := recipBox box
        eta := p.eta
        kCut := p.kCut
        n := ![(p0 : ℤ), (p1 : ℤ), (p2 : ℤ)] }) := by
    unfold KspaceGrid.setup KspaceGrid.calculatePbcCopies
    simp only [hb]
    have h0' : whileCount (fun n => (n : ℝ) * |(recipBox box 0).dot
      ((recipBox box 1).cross (recipBox box 2)).normalize| ≤ p.kCut) = some p0 := h0
    have h1' : whileCount (fun n => (n : ℝ) * |(recipBox box 1).dot
      ((recipBox box 0).cross (recipBox box 2)).normalize| ≤ p.kCut) = some p1 := h1
    have h2' : whileCount (fun n => (n : ℝ) * |(recipBox box 2).dot
      ((recipBox box 0).cross (recipBox box 1)).normalize| ≤ p.kCut) = some p2 := h2
    rw [h0', h1', h2', triple_eq]
    rfl
  refine ⟨_, ![(p0 : ℤ), (p1 : ℤ), (p2 : ℤ)], e, ?_, ?_⟩
  · rw [foldl_step]
    norm_num
  · intro m hm k
    fin_cases k
    · exact recip_range hr hm 0 h0
    · exact recip_range hr hm 1 h1
    · exact recip_range hr hm 2 h2

end N2P2
