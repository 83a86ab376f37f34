import Verif.Lemma.DistributionCount

/-! Histograms of angles. -/

namespace N2P2

variable {rc : ℝ} {u v : Structure} {D : DistributionSetup}

theorem degrees_comm (v w : Vec3) : degrees v w = degrees w v := by
  unfold degrees
  rw [mul_comm (len v), show (∑ k, v k * w k) = ∑ k, w k * v k from Finset.sum_congr rfl fun k _ => mul_comm (v k) (w k)]

theorem degrees_bounds (v w : Vec3) : 0 ≤ degrees v w ∧ degrees v w ≤ 180 := by
  unfold degrees
  have h1 := Real.arccos_nonneg ((∑ k, v k * w k) / (len v * len w))
  have h2 := Real.arccos_le_pi ((∑ k, v k * w k) / (len v * len w))
  have hp := Real.pi_pos
  refine ⟨by positivity, ?_⟩
  rw [div_le_iff₀ hp]
  linarith

theorem inAngleBin_unique {b n m : ℕ} {x : ℝ} (hb : 0 < b) (hn : n < b) (hm : m < b) (h1 : InAngleBin b n x)
    (h2 : InAngleBin b m x) : n = m := by
  have hpos : (0 : ℝ) < 180 / b := by positivity
  have key : ∀ {n m : ℕ}, m < b → InAngleBin b n x → InAngleBin b m x → m ≤ n := by
    intro n m hm h1 h2
    rcases h1.2 with h | h
    · have := h2.1.trans_lt h
      have := lt_of_mul_lt_mul_right this hpos.le
      have : m < n + 1 := by exact_mod_cast this
      omega
    · omega
  exact le_antisymm (key hn h2 h1) (key hm h1 h2)

/-- The bin found by the program. -/
theorem angleBin_spec (hb : 0 < D.bins) {nj nk : Neighbor} (hj : nj.d = len nj.dr) (hk : nk.d = len nk.dr) (hj0 : nj.d ≠ 0)
    (hk0 : nk.d ≠ 0) : ∃ n < D.bins, angleBin D nj nk = some n ∧ InAngleBin D.bins n (degrees nj.dr nk.dr) := by
  classical
  have hp := Real.pi_pos
  have hbr : (0 : ℝ) < D.bins := by exact_mod_cast hb
  have hda : (0 : ℝ) < 180 / D.bins := by positivity
  unfold angleBin
  rw [if_neg (mul_ne_zero hj0 hk0)]
  have hth : nj.dr.dot nk.dr / (nj.d * nk.d) = (∑ k, nj.dr k * nk.dr k) / (len nj.dr * len nk.dr) := by
    rw [hj, hk, Fin.sum_univ_three]
    rfl
  have hdeg : degrees nj.dr nk.dr = Real.arccos (nj.dr.dot nk.dr / (nj.d * nk.d)) * 180 / Real.pi := by
    unfold degrees
    rw [hth]
  dsimp only
  set x := nj.dr.dot nk.dr / (nj.d * nk.d)
  by_cases h1 : x ≥ 1
  · rw [if_pos h1]
    rw [Real.arccos_of_one_le h1] at hdeg
    refine ⟨0, hb, rfl, ?_⟩
    rw [hdeg]
    refine ⟨by simp, .inl ?_⟩
    norm_num
    positivity
  · rw [if_neg h1]
    by_cases h2 : x ≤ -1
    · rw [if_pos h2]
      rw [Real.arccos_of_le_neg_one h2] at hdeg
      refine ⟨D.bins - 1, by omega, rfl, ?_, .inr (by omega)⟩
      rw [hdeg, Nat.cast_sub hb, mul_comm Real.pi, mul_div_assoc, div_self hp.ne', ← mul_div_assoc, div_le_iff₀ hbr]
      push_cast
      linarith
    · rw [if_neg h2]
      push Not at h1 h2
      have h3 : Real.arccos x < Real.pi := by
        refine lt_of_le_of_ne (Real.arccos_le_pi x) fun h => ?_
        rw [Real.arccos_eq_pi] at h
        linarith
      have h4 := Real.arccos_nonneg x
      have h5 : Real.arccos x * 180 / Real.pi < 180 := by
        rw [div_lt_iff₀ hp]
        linarith
      have h6 : 0 ≤ Real.arccos x * 180 / Real.pi := by positivity
      have h7 : D.da = 180 / D.bins := rfl
      refine ⟨_, ?_, rfl, ?_⟩
      · rw [Nat.floor_lt (by rw [h7]; positivity), h7, div_lt_iff₀ hda]
        rw [mul_div_cancel₀ _ hbr.ne']
        exact h5
      · rw [hdeg]
        have h8 := (Nat.floor_eq_iff (a := Real.arccos x * 180 / Real.pi / D.da) (by rw [h7]; positivity)).1 rfl
        rw [h7, le_div_iff₀ hda, div_lt_iff₀ hda] at h8
        exact ⟨by rw [h7]; exact h8.1, .inl (by rw [h7]; exact h8.2)⟩

/-- What two neighbours add to the histogram. -/
noncomputable def angleTable (D : DistributionSetup) (nj nk : Neighbor) : PairTable :=
  unitTable (min nj.element nk.element, max nj.element nk.element) ((angleBin D nj nk).getD 0) 1

theorem couplesSum_mul {α : Type} (c : ℝ) (F : α → α → ℝ) (l : List α) :
    c * couplesSum F l = couplesSum (fun x y => c * F x y) l := by
  induction l with
  | nil => exact mul_zero c
  | cons x l ih =>
    show c * ((l.map (F x)).sum + couplesSum F l) = (l.map fun y => c * F x y).sum + couplesSum _ l
    rw [mul_add, ih, List.sum_map_mul_left]

/-- An angle: atom in the middle and two images. -/
abbrev AngleIndex := ℕ × (ℕ × (Fin 3 → ℤ)) × (ℕ × (Fin 3 → ℤ))

/-- The angle `t` has the elements `i`, `j`, `k` and satisfies `P`. -/
def Structure.angleSatisfies (u : Structure) (i j k : ℕ) (P : ℝ → Prop) (t : AngleIndex) : Prop :=
  t.2.1 ≠ t.2.2 ∧ u.elementOf t.1 = i ∧ u.elementOf t.2.1.1 = j ∧ u.elementOf t.2.2.1 = k ∧
    P (degrees (u.bond (t.1, t.2.1)) (u.bond (t.1, t.2.2)))

/-- All angles within the cutoff. -/
def angleList (n : ℕ) (imgs : ℕ → List (ℕ × (Fin 3 → ℤ))) : List AngleIndex :=
  (List.range n).flatMap fun p => ((imgs p).flatMap fun x => (imgs p).map fun y => (x, y)).map fun z => (p, z)

theorem angleList_nodup {n : ℕ} {imgs : ℕ → List (ℕ × (Fin 3 → ℤ))} (h : ∀ p, (imgs p).Nodup) : (angleList n imgs).Nodup := by
  unfold angleList
  rw [List.nodup_flatMap]
  refine ⟨fun p _ => List.Nodup.map (fun a b h => (Prod.mk.inj h).2) ?_, List.nodup_range.imp fun {a b} hab => ?_⟩
  · rw [List.nodup_flatMap]
    refine ⟨fun x _ => (h p).map fun a b h => (Prod.mk.inj h).2, (h p).imp fun {a b} hab => ?_⟩
    intro x h1 h2
    obtain ⟨y, -, rfl⟩ := List.mem_map.1 h1
    obtain ⟨z, -, k⟩ := List.mem_map.1 h2
    exact hab (Prod.mk.inj k).1.symm
  · intro x h1 h2
    obtain ⟨y, -, rfl⟩ := List.mem_map.1 h1
    obtain ⟨z, -, k⟩ := List.mem_map.1 h2
    exact hab (Prod.mk.inj k).1.symm

theorem mem_angleList {n : ℕ} {imgs : ℕ → List (ℕ × (Fin 3 → ℤ))} {t : AngleIndex} :
    t ∈ angleList n imgs ↔ t.1 < n ∧ t.2.1 ∈ imgs t.1 ∧ t.2.2 ∈ imgs t.1 := by
  unfold angleList
  constructor
  · intro h
    obtain ⟨p, hp, h⟩ := List.mem_flatMap.1 h
    obtain ⟨z, hz, rfl⟩ := List.mem_map.1 h
    obtain ⟨x, hx, h⟩ := List.mem_flatMap.1 hz
    obtain ⟨y, hy, rfl⟩ := List.mem_map.1 h
    exact ⟨List.mem_range.1 hp, hx, hy⟩
  · rintro ⟨h1, h2, h3⟩
    exact List.mem_flatMap.2 ⟨_, List.mem_range.2 h1, List.mem_map.2 ⟨_, List.mem_flatMap.2 ⟨_, h2,
      List.mem_map.2 ⟨_, h3, rfl⟩⟩, rfl⟩⟩

theorem angleList_sum {n : ℕ} {imgs : ℕ → List (ℕ × (Fin 3 → ℤ))} (G : AngleIndex → ℝ) :
    ((angleList n imgs).map G).sum =
      ((List.range n).map fun p => ((imgs p).map fun x => ((imgs p).map fun y => G (p, x, y)).sum).sum).sum := by
  unfold angleList
  rw [sum_bind]
  congr 1
  refine List.map_congr_left fun p _ => ?_
  rw [List.map_map, sum_bind]
  congr 1
  refine List.map_congr_left fun x _ => ?_
  rw [List.map_map]
  rfl

theorem angleList_set {imgs : ℕ → List (ℕ × (Fin 3 → ℤ))}
    (hmem : ∀ p < u.atoms.length, ∀ x, x ∈ imgs p ↔ IsImage u rc p x) (i j k : ℕ) (P : ℝ → Prop) :
    {t | t ∈ angleList u.atoms.length imgs ∧ u.angleSatisfies i j k P t} = anglesWith u rc i j k P := by
  ext ⟨p, x, y⟩
  constructor
  · rintro ⟨h1, h2, h3, h4, h5, h6⟩
    obtain ⟨h7, h8, h9⟩ := mem_angleList.1 h1
    obtain ⟨k1, k2⟩ := isBond_image.2 ⟨(hmem p h7 x).1 h8, h3, h4, rfl⟩
    obtain ⟨k3, k4⟩ := isBond_image.2 ⟨(hmem p h7 y).1 h9, h3, h5, rfl⟩
    exact ⟨h2, _, _, k1, k3, k2, k4, h6⟩
  · rintro ⟨h2, v, w, k1, k3, k2, k4, h6⟩
    obtain ⟨h7, h3, h4, rfl⟩ := isBond_image.1 ⟨k1, k2⟩
    obtain ⟨h8, -, h5, rfl⟩ := isBond_image.1 ⟨k3, k4⟩
    have hp := (isImage_unfold.1 h7).1
    exact ⟨mem_angleList.2 ⟨hp, (hmem p hp x).2 h7, (hmem p hp y).2 h8⟩, h2, h3, h4, h5, h6⟩

open Classical in
/-- The histogram of angles. Angles between equal elements appear in two orders in the set and once in the histogram. -/
theorem angles_counted (h : HasLists rc u v) (hb : 0 < D.bins) (hap : ∀ p x, IsImage u rc p x → u.bond (p, x) ≠ 0) {i j k n : ℕ}
    (hjk : j ≤ k) (hn : n < D.bins) :
    (if j = k then 2 else 1) * (v.atoms.map fun a => if a.element = i then couplesSum (angleTable D) a.neighbors else 0).sum (j, k) n =
      ((anglesWith u rc i j k (InAngleBin D.bins n)).ncard : ℝ) := by
  obtain ⟨imgs, hnd, hmem, hat⟩ := h.sums
  let H : ℕ → (ℕ × (Fin 3 → ℤ)) → (ℕ × (Fin 3 → ℤ)) → ℝ := fun p x y =>
    if u.elementOf p = i ∧ u.elementOf x.1 = j ∧ u.elementOf y.1 = k ∧
      InAngleBin D.bins n (degrees (u.bond (p, x)) (u.bond (p, y))) then 1 else 0
  have e1 : ∀ (a : Atom) (p : ℕ), v.atoms[p]? = some a →
      (if j = k then 2 else 1) * (if a.element = i then couplesSum (angleTable D) a.neighbors else 0) (j, k) n =
        ((imgs p).map fun x => ((imgs p).map fun y => if u.angleSatisfies i j k (InAngleBin D.bins n) (p, x, y) then (1 : ℝ) else 0).sum).sum := by
    intro a p ha
    obtain ⟨he, hf⟩ := hat p a ha
    have hp : p < u.atoms.length := by
      rw [← h.size]
      exact (List.getElem?_eq_some_iff.1 ha).1
    have hH : ∀ x y, (if u.angleSatisfies i j k (InAngleBin D.bins n) (p, x, y) then (1 : ℝ) else 0) =
        if x = y then 0 else H p x y := by
      intro x y
      by_cases hxy : x = y
      · rw [if_pos hxy, if_neg fun h => h.1 hxy]
      · rw [if_neg hxy]
        show _ = ite _ _ _
        refine if_congr ?_ rfl rfl
        exact ⟨fun h => h.2, fun h => ⟨hxy, h⟩⟩
    simp only [hH]
    rw [← couplesSum_ordered _ _ (hnd p), he]
    by_cases hi : u.elementOf p = i
    · rw [if_pos hi, couplesSum_apply, couplesSum_mul]
      have hf' : List.Forall₂ (fun (nb : Neighbor) x => (nb.element = u.elementOf x.1 ∧ nb.dr = u.bond (p, x) ∧
          nb.d = len (u.bond (p, x))) ∧ u.bond (p, x) ≠ 0) a.neighbors (imgs p) := by
        have hz : ∀ x ∈ imgs p, u.bond (p, x) ≠ 0 := fun x hx => hap p x ((hmem p hp x).1 hx)
        revert hz
        generalize imgs p = l at hf
        generalize a.neighbors = ns at hf ⊢
        intro hz
        induction hf with
        | nil => exact .nil
        | cons h1 _ ih => exact .cons ⟨h1, hz _ List.mem_cons_self⟩ (ih fun x hx => hz x (List.mem_cons_of_mem _ hx))
      refine couplesSum_forall₂ hf' ?_
      rintro nj nk x y ⟨⟨a1, a2, a3⟩, a4⟩ ⟨⟨b1, b2, b3⟩, b4⟩
      have hne : ∀ w : Vec3, w ≠ 0 → len w ≠ 0 := by
        intro w hw h0
        apply hw
        funext t
        rw [len, Real.sqrt_eq_zero (by positivity), Fin.sum_univ_three] at h0
        have := sq_nonneg (w 0)
        have := sq_nonneg (w 1)
        have := sq_nonneg (w 2)
        have q0 : w 0 ^ 2 = 0 := by linarith
        have q1 : w 1 ^ 2 = 0 := by linarith
        have q2 : w 2 ^ 2 = 0 := by linarith
        fin_cases t
        · exact pow_eq_zero_iff (two_ne_zero) |>.1 q0
        · exact pow_eq_zero_iff (two_ne_zero) |>.1 q1
        · exact pow_eq_zero_iff (two_ne_zero) |>.1 q2
      obtain ⟨m, hm, g1, g2⟩ := angleBin_spec hb (a3.trans (congrArg len a2.symm)) (b3.trans (congrArg len b2.symm))
        (a3 ▸ hne _ a4) (b3 ▸ hne _ b4)
      rw [a2, b2] at g2
      have hmn : n = m ↔ InAngleBin D.bins n (degrees (u.bond (p, x)) (u.bond (p, y))) :=
        ⟨fun h => h ▸ g2, fun h => inAngleBin_unique hb hn hm h g2⟩
      show _ * angleTable D nj nk (j, k) n = ite _ _ _ + ite _ _ _
      unfold angleTable unitTable
      rw [g1, Option.getD_some, degrees_comm (u.bond (p, y)), a1, b1]
      simp only [hmn]
      by_cases hq : InAngleBin D.bins n (degrees (u.bond (p, x)) (u.bond (p, y)))
      · simp only [hq, hi, true_and, and_true, Prod.mk.injEq]
        generalize u.elementOf x.1 = s
        generalize u.elementOf y.1 = t
        rcases lt_trichotomy s t with hst | hst | hst
        · rw [min_eq_left hst.le, max_eq_right hst.le, if_neg (show ¬ (t = j ∧ s = k) by omega), add_zero]
          by_cases hk : j = s ∧ k = t
          · rw [if_pos hk, if_pos (show s = j ∧ t = k from ⟨hk.1.symm, hk.2.symm⟩), if_neg (show ¬ j = k by omega), one_mul]
          · rw [if_neg hk, if_neg (show ¬ (s = j ∧ t = k) from fun h => hk ⟨h.1.symm, h.2.symm⟩), mul_zero]
        · subst hst
          rw [min_self, max_self]
          by_cases hk : j = s ∧ k = s
          · rw [if_pos hk, if_pos (show s = j ∧ s = k from ⟨hk.1.symm, hk.2.symm⟩), if_pos (show j = k by omega)]
            norm_num
          · rw [if_neg hk, if_neg (show ¬ (s = j ∧ s = k) from fun h => hk ⟨h.1.symm, h.2.symm⟩)]
            norm_num
        · rw [min_eq_right hst.le, max_eq_left hst.le, if_neg (show ¬ (s = j ∧ t = k) by omega), zero_add]
          by_cases hk : j = t ∧ k = s
          · rw [if_pos hk, if_pos (show t = j ∧ s = k from ⟨hk.1.symm, hk.2.symm⟩), if_neg (show ¬ j = k by omega), one_mul]
          · rw [if_neg hk, if_neg (show ¬ (t = j ∧ s = k) from fun h => hk ⟨h.1.symm, h.2.symm⟩), mul_zero]
      · simp only [hq, and_false, if_false, mul_zero, add_zero]
    · rw [if_neg hi]
      have : (fun x y => H p x y + H p y x) = fun _ _ => (0 : ℝ) * 0 := by
        funext x y
        show ite _ _ _ + ite _ _ _ = _
        rw [if_neg fun h => hi h.1, if_neg fun h => hi h.1]
        norm_num
      rw [this, ← couplesSum_mul 0 fun _ _ => (0 : ℝ), zero_mul]
      exact mul_zero _
  rw [sum_apply, ← List.sum_map_mul_left, sum_forall₂ (forall₂_range v.atoms) e1, h.size,
    ← angleList_sum fun t => if u.angleSatisfies i j k (InAngleBin D.bins n) t then (1 : ℝ) else 0,
    sum_indicator _ (angleList_nodup hnd), angleList_set hmem]

open Classical in
/-- Every angle is in exactly one interval. -/
theorem angles_total (h : HasLists rc u v) {b : ℕ} (hb : 0 < b) (i j k : ℕ) :
    ∑ n ∈ Finset.range b, ((anglesWith u rc i j k (InAngleBin b n)).ncard : ℝ) =
      ((anglesWith u rc i j k fun _ => True).ncard : ℝ) := by
  obtain ⟨imgs, hnd, hmem, -⟩ := h.sums
  have e : ∀ P, ((anglesWith u rc i j k P).ncard : ℝ) =
      ((angleList u.atoms.length imgs).map fun t => if u.angleSatisfies i j k P t then (1 : ℝ) else 0).sum := by
    intro P
    rw [sum_indicator _ (angleList_nodup hnd), angleList_set hmem]
  simp only [e]
  have hbr : (0 : ℝ) < b := by exact_mod_cast hb
  have hda : (0 : ℝ) < 180 / b := by positivity
  generalize angleList u.atoms.length imgs = T
  induction T with
  | nil => simp
  | cons t T ih =>
    simp only [List.map_cons, List.sum_cons]
    rw [Finset.sum_add_distrib, ih]
    congr 1
    set x := degrees (u.bond (t.1, t.2.1)) (u.bond (t.1, t.2.2)) with hx
    obtain ⟨h0, h180⟩ := degrees_bounds (u.bond (t.1, t.2.1)) (u.bond (t.1, t.2.2))
    rw [← hx] at h0 h180
    have hex : ∃ m < b, InAngleBin b m x := by
      by_cases hlt : x < 180
      · refine ⟨⌊x / (180 / b)⌋₊, ?_, ?_⟩
        · rw [Nat.floor_lt (by positivity), div_lt_iff₀ hda, mul_div_cancel₀ _ hbr.ne']
          exact hlt
        · have h8 := (Nat.floor_eq_iff (a := x / (180 / b)) (by positivity)).1 rfl
          rw [le_div_iff₀ hda, div_lt_iff₀ hda] at h8
          exact ⟨h8.1, .inl h8.2⟩
      · refine ⟨b - 1, by omega, ?_, .inr (by omega)⟩
        rw [Nat.cast_sub hb, ← mul_div_assoc, div_le_iff₀ hbr]
        push_cast
        nlinarith
    obtain ⟨m, hm, hmx⟩ := hex
    rw [Finset.sum_eq_single m]
    · refine if_congr ?_ rfl rfl
      exact ⟨fun h => ⟨h.1, h.2.1, h.2.2.1, h.2.2.2.1, trivial⟩, fun h => ⟨h.1, h.2.1, h.2.2.1, h.2.2.2.1, hmx⟩⟩
    · intro n hn hne
      refine if_neg fun h => hne ?_
      exact inAngleBin_unique hb (Finset.mem_range.1 hn) hm h.2.2.2.2 hmx
    · intro h
      exact absurd (Finset.mem_range.2 hm) h

end N2P2
