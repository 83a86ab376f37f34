import Verif.Lemma.ModeExample

/-! The force of an atom on its own image in `exCrystal`. -/

namespace N2P2

theorem abs_le_len (v : Vec3) (k : Fin 3) : |v k| ≤ len v := by
  refine Real.abs_le_sqrt ?_
  rw [Fin.sum_univ_three]
  have := sq_nonneg (v 0)
  have := sq_nonneg (v 1)
  have := sq_nonneg (v 2)
  fin_cases k
  · show v 0 ^ 2 ≤ _; linarith
  · show v 1 ^ 2 ≤ _; linarith
  · show v 2 ^ 2 ≤ _; linarith

theorem exCrystal_separation (i : ℕ) (p : ℕ × (Fin 3 → ℤ)) :
    exCrystal.separation i p = exCrystal.position i - exCrystal.position p.1 +
      ![(p.2 0 : ℝ) * 2, (p.2 1 : ℝ) * 10, (p.2 2 : ℝ) * 10] := by
  rw [← shift_brick]; rfl

theorem exCrystal_position : exCrystal.position 0 = ![0, 0, 0] ∧
    exCrystal.position 1 = ![0, 5 / 2, 0] := by
  simp [exCrystal, exSystem_position]

theorem exCrystal_length : exCrystal.atoms.length = 2 := by
  simp [exCrystal, exSystem_length]

theorem exCrystal_elementOf : exCrystal.elementOf 0 = 0 ∧ exCrystal.elementOf 1 = 1 := by
  simp [exCrystal, exSystem_elementOf]

theorem exCrystal_apart : exCrystal.Apart := by
  rintro i hi ⟨j, q⟩ ⟨hj, -, hne⟩ h0
  rw [exCrystal_length] at hi hj
  rw [exCrystal_separation] at h0
  have e0 := congrFun h0 0
  have e1 := congrFun h0 1
  have e2 := congrFun h0 2
  have key : ∀ {x y : ℝ}, exCrystal.position i = ![0, x, 0] → exCrystal.position j = ![0, y, 0] →
      q 0 = 0 ∧ q 2 = 0 ∧ x - y + q 1 * 10 = 0 := by
    intro x y hx hy
    simp [hx, hy] at e0 e1 e2
    exact ⟨e0, e2, e1⟩
  have hp := exCrystal_position
  interval_cases i <;> interval_cases j
  · obtain ⟨h1, h2, h3⟩ := key hp.1 hp.1
    apply hne
    have : q 1 = 0 := by
      have : (q 1 : ℝ) = 0 := by linarith
      exact_mod_cast this
    rw [show q = 0 from funext fun k => by fin_cases k <;> assumption]
  · obtain ⟨h1, h2, h3⟩ := key hp.1 hp.2
    have : q 1 * 4 = 1 := by
      have : (q 1 : ℝ) * 4 = 1 := by linarith
      exact_mod_cast this
    omega
  · obtain ⟨h1, h2, h3⟩ := key hp.2 hp.1
    have : q 1 * 4 = -1 := by
      have : (q 1 : ℝ) * 4 = -1 := by linarith
      exact_mod_cast this
    omega
  · obtain ⟨h1, h2, h3⟩ := key hp.2 hp.2
    apply hne
    have : q 1 = 0 := by
      have : (q 1 : ℝ) = 0 := by linarith
      exact_mod_cast this
    rw [show q = 0 from funext fun k => by fin_cases k <;> assumption]

/-- Direction of the neighbours of the first atom. -/
theorem exCrystal_y (p : ℕ × (Fin 3 → ℤ))
    (hl : len (exCrystal.separation 0 p) ≤ 3) :
    (p.1 = 0 → exCrystal.separation 0 p 1 = 0) ∧
    (p.1 = 1 → exCrystal.separation 0 p 1 = -(5 / 2)) := by
  have hy := (abs_le_len _ 1).trans hl
  obtain ⟨j, q⟩ := p
  rw [abs_le] at hy
  rw [exCrystal_separation] at hy ⊢
  have hpos := exCrystal_position
  have hq : ∀ y : ℝ, -3 ≤ y + q 1 * 10 → y + q 1 * 10 ≤ 3 → -(5 / 2) ≤ y → y ≤ 0 →
      (q 1 : ℝ) = 0 := by
    intro y h1 h2 h3 h4
    have h5 : (q 1 : ℝ) < 1 := by linarith
    have h6 : (-1 : ℝ) < q 1 := by linarith
    have h5 : q 1 < 1 := by exact_mod_cast h5
    have h6 : -1 < q 1 := by exact_mod_cast h6
    have : q 1 = 0 := by omega
    exact_mod_cast this
  constructor
  · rintro rfl
    simp [hpos.1] at hy ⊢
    have := hq 0 (by linarith) (by linarith) (by norm_num) le_rfl
    exact_mod_cast this
  · rintro rfl
    simp [hpos.1, hpos.2] at hy ⊢
    have := hq (-(5 / 2)) (by linarith) (by linarith) le_rfl (by norm_num)
    exact_mod_cast this

theorem exCut_pos {r : ℝ} (h0 : 0 ≤ r) (h3 : r < 3) : 0 < ((mkCutoff .COS 3 0).fdf r).1 := by
  have hc : -1 < Real.cos (Real.pi * (r / 3)) := by
    rw [← Real.cos_pi]
    have hp := Real.pi_pos
    refine Real.cos_lt_cos_of_nonneg_of_le_pi (by positivity) le_rfl ?_
    nlinarith
  unfold CutoffFunction.fdf CutoffFunction.fdfInner
  rw [if_neg (by simpa [mkCutoff] using h3)]
  simp only [mkCutoff]
  have h : ¬ r < 3 * 0 := by simpa using h0
  simp only [h, if_false]
  have e : (r - 3 * 0) * (1 / (3 - 3 * 0)) = r / 3 := by ring
  rw [e]
  norm_num
  linarith

/-- The third prefactor of a pair is positive. -/
theorem exFn_terms {nj nl : Neighbor} (hj : 0 < nj.d) (hl : 0 < nl.d) (hj3 : nj.d < 3)
    (hl3 : nl.d < 3) : ∃ t, (exFn 0).terms nj nl = some t ∧ 0 ≤ t.p3 ∧
      (nj.dr.dot nl.dr = 0 → 0 < t.p3) := by
  set w := Real.exp (-(exFn 0).eta * ((nj.d - (exFn 0).rs) * (nj.d - (exFn 0).rs) +
    (nl.d - (exFn 0).rs) * (nl.d - (exFn 0).rs))) with hw
  set pl := 1 + (exFn 0).lambda * (nj.dr.dot nl.dr * (1 / nj.d / nl.d)) with hpl
  have hfg : ∃ fg, (exFn 0).expAngPower w pl = some fg ∧ 0 ≤ fg ∧ (0 < pl → 0 < fg) := by
    unfold SymFnc.expAngPower
    have hw0 : 0 < w := Real.exp_pos _
    by_cases h : pl ≤ 0
    · rw [if_pos h]
      exact ⟨0, rfl, le_rfl, fun h' => absurd h (not_le.2 h')⟩
    · rw [if_neg h, if_pos (show (exFn 0).useIntegerPow = true from rfl)]
      have : powInt pl ((exFn 0).zetaInt - 1) = some 1 := by
        show powInt pl (1 - 1) = some 1
        simp [powInt, powLoop]
      rw [this]
      exact ⟨w * 1, rfl, by positivity, fun _ => by positivity⟩
  obtain ⟨fg, e, h1, h2⟩ := hfg
  have c1 := exCut_pos hj.le hj3
  have c2 := exCut_pos hl.le hl3
  have hr : 0 < 1 / nj.d / nl.d := by positivity
  have h2z : (0 : ℝ) < 2 ^ (1 - (exFn 0).zeta) := by positivity
  have hzl : (exFn 0).zeta * (exFn 0).lambda = 1 := by
    show (1 : ℝ) * 1 = 1; norm_num
  have hT : (exFn 0).terms nj nl =
      ((exFn 0).bodyExpAngw nj nl ((mkCutoff .COS 3 0).fdf nj.d)
        ((mkCutoff .COS 3 0).fdf nl.d)).getD none := rfl
  rw [hT]
  unfold SymFnc.bodyExpAngw
  simp only [← hw, ← hpl, e, Option.bind_eq_bind, Option.bind_some, Option.getD_some, hzl]
  refine ⟨_, rfl, ?_, ?_⟩
  · simp only; positivity
  · intro h
    have : 0 < fg := h2 (by rw [hpl, h]; norm_num)
    simp only; positivity

theorem exFn_pair {a : Atom} {k : ℕ} {nk : Neighbor} (hk : a.neighbors[k]? = some nk)
    (hk0 : nk.element = 0) (hky : nk.dr 1 = 0)
    (hO : ∀ n ∈ a.neighbors, n.element = 1 → n.dr 1 = -(5 / 2))
    (hd : ∀ n ∈ a.neighbors, 0 < n.d) (j l : ℕ) (hjl : j < l) :
    ((exFn 0).pairContrib (exFn 0).pkernel (exFn 0).terms true a j l).2.2 k 1 ≤ 0 ∧
    ∀ nj nl, a.neighbors[j]? = some nj → a.neighbors[l]? = some nl → nj.d < 3 → nl.d < 3 →
      nj.dr.dot nl.dr = 0 → (j = k ∧ nl.element = 1 ∨ l = k ∧ nj.element = 1) →
      ((exFn 0).pairContrib (exFn 0).pkernel (exFn 0).terms true a j l).2.2 k 1 < 0 := by
  unfold SymFnc.pairContrib
  cases hj : a.neighbors[j]? with
  | none => exact ⟨le_rfl, nofun⟩
  | some nj =>
    cases hl : a.neighbors[l]? with
    | none => exact ⟨le_rfl, nofun⟩
    | some nl =>
      have hdj := hd _ (List.mem_of_getElem? hj)
      have hdl := hd _ (List.mem_of_getElem? hl)
      have hsel : ((exFn 0).pkernel.selJ nj ∧ (exFn 0).pkernel.selK nj nl) ↔
          ((0 = nj.element ∨ 1 = nj.element) ∧ nj.d < 3) ∧
          ((0 = nj.element ∧ 1 = nl.element) ∨ (1 = nj.element ∧ 0 = nl.element)) ∧ nl.d < 3 :=
        Iff.rfl
      by_cases hs : (exFn 0).pkernel.selJ nj ∧ (exFn 0).pkernel.selK nj nl
      · simp only [if_pos hs]
        obtain ⟨⟨-, hj3⟩, hel, hl3⟩ := hsel.1 hs
        obtain ⟨t, ht, h1, h2⟩ := exFn_terms hdj hdl hj3 hl3
        rw [ht]
        have hsf : (exFn 0).sf = 1 := rfl
        simp only [SymFnc.pairContribOf, if_true, hsf, mul_one]
        by_cases e1 : j = k
        · subst e1
          rw [hj] at hk
          obtain rfl := Option.some.inj hk
          have hO := hO _ (List.mem_of_getElem? hl) (by omega)
          have hne : l ≠ j := by omega
          simp [hne.symm, hky, hO]
          exact ⟨h1, fun _ _ h _ => h2 h⟩
        · by_cases e2 : l = k
          · subst e2
            rw [hl] at hk
            obtain rfl := Option.some.inj hk
            have hO := hO _ (List.mem_of_getElem? hj) (by omega)
            have hne : l ≠ j := by omega
            simp [hne, hky, hO]
            exact ⟨h1, fun _ _ h _ => h2 h⟩
          · have e1' : k ≠ j := fun h => e1 h.symm
            have e2' : k ≠ l := fun h => e2 h.symm
            simp [e1', e2', e1, e2]
      · simp only [if_neg hs]
        refine ⟨le_rfl, fun nj' nl' e1 e2 h3 h4 _ h => ?_⟩
        cases e1
        cases e2
        exfalso
        apply hs
        rw [hsel]
        rcases h with ⟨rfl, h⟩ | ⟨rfl, h⟩
        · rw [hj] at hk
          cases hk
          exact ⟨⟨Or.inl hk0.symm, h3⟩, Or.inl ⟨hk0.symm, h.symm⟩, h4⟩
        · rw [hl] at hk
          cases hk
          exact ⟨⟨Or.inr h.symm, h3⟩, Or.inr ⟨h.symm, hk0.symm⟩, h4⟩

/-- Component 1 of the derivative for neighbour `k`. -/
noncomputable def yPart (k : ℕ) : Contrib →+ ℝ where
  toFun x := x.2.2 k 1
  map_zero' := rfl
  map_add' _ _ := rfl

theorem yPart_PS (k n : ℕ) (f : ℕ → ℕ → Contrib) :
    yPart k (PS n f) = PS n fun j l => yPart k (f j l) := by
  unfold PS
  rw [map_sum]
  refine Finset.sum_congr rfl fun j _ => ?_
  rw [map_sum]
  refine Finset.sum_congr rfl fun l _ => ?_
  split_ifs
  · rfl
  · exact map_zero _

theorem PS_nonpos {n : ℕ} {f : ℕ → ℕ → ℝ} (h : ∀ j l, j < l → f j l ≤ 0) : PS n f ≤ 0 := by
  refine Finset.sum_nonpos fun j _ => Finset.sum_nonpos fun l _ => ?_
  split_ifs with e
  · exact h j l e
  · exact le_rfl

theorem PS_neg {n : ℕ} {f : ℕ → ℕ → ℝ} (h : ∀ j l, j < l → f j l ≤ 0) {j l : ℕ} (hjl : j < l)
    (hl : l < n) (hlt : f j l < 0) : PS n f < 0 := by
  have h' : ∀ j l, (if j < l then f j l else 0) ≤ 0 := by
    intro j l
    split_ifs with e
    · exact h j l e
    · exact le_rfl
  refine Finset.sum_neg' (fun j _ => Finset.sum_nonpos fun l _ => h' j l)
    ⟨j, Finset.mem_range.2 (hjl.trans hl), ?_⟩
  refine Finset.sum_neg' (fun l _ => h' j l) ⟨l, Finset.mem_range.2 hl, ?_⟩
  rw [if_pos hjl]
  exact hlt

open Classical in
/-- The pair forces of the images of the first atom of `exCrystal` pull all in one direction. -/
theorem exCrystal_self {M : Mode} {El : ℕ → ElementData} {A : ℕ → Atom} {cs : List Atom}
    (hR : M.listRadius exCrystal = 3) (h : ForceState M exPotential 2 exCrystal El A cs) :
    forceFrom exPotential exCrystal A
      (inputGrad exPotential exCrystal A) 0 0 1 < 0 ∧ forceFrom exPotential exCrystal A
      (inputGrad exPotential exCrystal A) 1 1 = 0 := by
  constructor
  · have hi : 0 < exCrystal.atoms.length := by rw [exCrystal_length]; norm_num
    obtain ⟨b, hb, -⟩ := h.atom 0 hi
    obtain ⟨imgs, hL⟩ := listOf_of hi hb.position hb.list
    rw [hR] at hL
    obtain ⟨hnd, hmem, hlen, hnb⟩ := hL
    have hgrad : inputGrad exPotential exCrystal A 0 0 = 1 := by
      unfold inputGrad
      rw [exCrystal_elementOf.1]
      simp [exPotential, exNet, NetShape.tangent, NetShape.out, Activation.d1, Activation.eval,
        NetShape.unit, NetShape.divisor]
    have hfun : exPotential.functions (exCrystal.elementOf 0) = [exFn 0] := by
      rw [exCrystal_elementOf.1]; rfl
    have hpair : ∀ k, pairForceOf exPotential exCrystal A (inputGrad exPotential exCrystal A) 0 k 1 =
        PS (A 0).neighbors.length fun j l =>
          ((exFn 0).pairContrib (exFn 0).pkernel (exFn 0).terms true (A 0) j l).2.2 k 1 := by
      intro k
      have ha : (exFn 0).IsAng := by
        refine ⟨?_, ?_, ?_, ?_⟩ <;> exact nofun
      have hk := yPart_PS k (A 0).neighbors.length
        ((exFn 0).pairContrib (exFn 0).pkernel (exFn 0).terms true (A 0))
      have ht : (exFn 0).total true (A 0) = PS (A 0).neighbors.length
          ((exFn 0).pairContrib (exFn 0).pkernel (exFn 0).terms true (A 0)) := if_pos ha
      rw [← ht] at hk
      unfold pairForceOf pairForce
      rw [hfun]
      simp only [List.length_singleton, Finset.sum_range_one, hgrad, one_smul]
      exact hk
    have hN : ∀ (k : ℕ) (nb : Neighbor), (A 0).neighbors[k]? = some nb → ∃ p : ℕ × (Fin 3 → ℤ),
        p ∈ imgs ∧ imgs[k]? = some p ∧ nb.index = p.1 ∧ nb.element = exCrystal.elementOf p.1 ∧
        nb.dr = exCrystal.separation 0 p ∧ nb.d = len (exCrystal.separation 0 p) := by
      intro k nb hk
      have hk' : k < imgs.length := by
        rw [← hlen]; exact (List.getElem?_eq_some_iff.1 hk).1
      exact ⟨_, List.getElem_mem hk', List.getElem?_eq_getElem hk',
        hnb k nb _ hk (List.getElem?_eq_getElem hk')⟩
    have hO : ∀ n ∈ (A 0).neighbors, n.element = 1 → n.dr 1 = -(5 / 2) := by
      intro n hn he
      obtain ⟨k, hk⟩ := List.getElem?_of_mem hn
      obtain ⟨p, hp, -, -, e2, e3, -⟩ := hN k n hk
      have hp := (hmem p).1 hp
      rw [e3]
      refine (exCrystal_y p hp.2).2 ?_
      have h1 := hp.1.1
      rw [exCrystal_length] at h1
      have h2 := exCrystal_elementOf.1
      by_contra hne
      rw [show p.1 = 0 by omega, h2] at e2
      omega
    have hd : ∀ n ∈ (A 0).neighbors, 0 < n.d := by
      intro n hn
      obtain ⟨k, hk⟩ := List.getElem?_of_mem hn
      obtain ⟨p, hp, -, -, -, -, e⟩ := hN k n hk
      rw [e, len_eq]
      exact norm_pos fun h0 => exCrystal_apart 0 hi p ((hmem p).1 hp).1 (norm2_eq_zero h0)
    have hself : ∀ (k : ℕ) (nb : Neighbor), (A 0).neighbors[k]? = some nb → nb.index = 0 →
        nb.element = 0 ∧ nb.dr 1 = 0 := by
      intro k nb hk h0
      obtain ⟨p, hp, -, e1, e2, e3, -⟩ := hN k nb hk
      rw [h0] at e1
      rw [e2, e3, ← e1]
      exact ⟨exCrystal_elementOf.1, (exCrystal_y p ((hmem p).1 hp).2).1 e1.symm⟩
    -- the image in direction 0 and the other atom
    have s1 : exCrystal.separation 0 (0, ![1, 0, 0]) = ![2, 0, 0] := by
      rw [exCrystal_separation, sub_self, zero_add]
      funext k; fin_cases k <;> simp
    have s2 : exCrystal.separation 0 (1, 0) = ![0, -(5 / 2), 0] := by
      rw [exCrystal_separation]
      funext k; fin_cases k <;> simp [exCrystal_position]
    have l1 : len (![2, 0, 0] : Vec3) = 2 := by
      rw [len, Fin.sum_univ_three]
      show √(2 ^ 2 + 0 ^ 2 + 0 ^ 2) = 2
      rw [show (2 : ℝ) ^ 2 + 0 ^ 2 + 0 ^ 2 = 2 ^ 2 by norm_num]
      exact Real.sqrt_sq (by norm_num)
    have l2 : len (![0, -(5 / 2), 0] : Vec3) = 5 / 2 := by
      rw [len, Fin.sum_univ_three]
      show √(0 ^ 2 + (-(5 / 2)) ^ 2 + 0 ^ 2) = 5 / 2
      rw [show (0 : ℝ) ^ 2 + (-(5 / 2)) ^ 2 + 0 ^ 2 = (5 / 2) ^ 2 by norm_num]
      exact Real.sqrt_sq (by norm_num)
    have hp1 : ((0, ![1, 0, 0]) : ℕ × (Fin 3 → ℤ)) ∈ imgs := by
      refine (hmem _).2 ⟨⟨hi, Or.inl rfl, by simp⟩, ?_⟩
      rw [s1, l1]; norm_num
    have hp2 : ((1, 0) : ℕ × (Fin 3 → ℤ)) ∈ imgs := by
      refine (hmem _).2 ⟨⟨by rw [exCrystal_length]; norm_num, Or.inl rfl, by simp⟩, ?_⟩
      rw [s2, l2]; norm_num
    obtain ⟨k1, hk1, e1⟩ := List.getElem_of_mem hp1
    obtain ⟨k2, hk2, e2⟩ := List.getElem_of_mem hp2
    have hk1' : k1 < (A 0).neighbors.length := by rw [hlen]; exact hk1
    have hk2' : k2 < (A 0).neighbors.length := by rw [hlen]; exact hk2
    have g1 := List.getElem?_eq_getElem hk1'
    have g2 := List.getElem?_eq_getElem hk2'
    obtain ⟨i1, -, r1, d1⟩ := hnb k1 _ _ g1 (List.getElem?_eq_getElem hk1)
    obtain ⟨i2, q2, r2, d2⟩ := hnb k2 _ _ g2 (List.getElem?_eq_getElem hk2)
    rw [e1] at i1 r1 d1
    rw [e2] at i2 q2 r2 d2
    rw [s1] at r1 d1
    rw [s2] at r2 d2
    rw [l1] at d1
    rw [l2] at d2
    rw [exCrystal_elementOf.2] at q2
    have hle : ∀ k nb, (A 0).neighbors[k]? = some nb → nb.index = 0 → ∀ j l, j < l →
        ((exFn 0).pairContrib (exFn 0).pkernel (exFn 0).terms true (A 0) j l).2.2 k 1 ≤ 0 :=
      fun k nb hk h0 j l hjl =>
        (exFn_pair hk (hself k nb hk h0).1 (hself k nb hk h0).2 hO hd j l hjl).1
    have hlt : pairForceOf exPotential exCrystal A (inputGrad exPotential exCrystal A) 0 k1 1 < 0 := by
      rw [hpair]
      have hne : k1 ≠ k2 := by
        rintro rfl
        rw [i1] at i2
        cases i2
      have hdot1 : Vec3.dot ((A 0).neighbors[k1]).dr ((A 0).neighbors[k2]).dr = 0 := by
        rw [r1, r2]; simp [Vec3.dot]
      have hdot2 : Vec3.dot ((A 0).neighbors[k2]).dr ((A 0).neighbors[k1]).dr = 0 := by
        rw [r1, r2]; simp [Vec3.dot]
      have hP := exFn_pair g1 (hself _ _ g1 i1).1 (hself _ _ g1 i1).2 hO hd
      rcases lt_or_gt_of_ne hne with hlt | hlt
      · exact PS_neg (hle _ _ g1 i1) hlt hk2' ((hP _ _ hlt).2 _ _ g1 g2 (by rw [d1]; norm_num)
          (by rw [d2]; norm_num) hdot1 (Or.inl ⟨rfl, q2⟩))
      · exact PS_neg (hle _ _ g1 i1) hlt hk1' ((hP _ _ hlt).2 _ _ g2 g1 (by rw [d2]; norm_num)
          (by rw [d1]; norm_num) hdot2 (Or.inr ⟨rfl, q2⟩))
    unfold forceFrom
    rw [Finset.sum_apply]
    refine Finset.sum_neg' (fun k hk => ?_) ⟨k1, Finset.mem_range.2 hk1', ?_⟩
    · split_ifs with e
      · rw [hpair]
        have hk' := Finset.mem_range.1 hk
        have gk := List.getElem?_eq_getElem hk'
        have : (A 0).neighbors[k].index = 0 := by
          have := e
          unfold nbIndex at this
          rw [gk] at this
          exact this
        exact PS_nonpos (hle k _ gk this)
      · exact le_rfl
    · have : nbIndex (A 0) k1 = 0 := by
        unfold nbIndex
        rw [g1]
        exact i1
      rw [if_pos this]
      exact hlt
  · have hgrad : inputGrad exPotential exCrystal A 1 0 = 0 := by
      unfold inputGrad
      rw [exCrystal_elementOf.2]
      simp [exPotential, exNet, NetShape.tangent, NetShape.out, Activation.d1, Activation.eval,
        NetShape.unit, NetShape.divisor]
    unfold forceFrom
    refine Finset.sum_eq_zero fun k _ => ?_
    split_ifs
    · unfold pairForceOf pairForce
      rw [exCrystal_elementOf.2]
      simp only [exPotential, List.length_singleton, Finset.sum_range_one]
      show inputGrad exPotential exCrystal A 1 0 • _ = _
      rw [hgrad, zero_smul]
    · rfl

end N2P2
