import Verif.Lemma.Screening
import Verif.Lemma.CurveDeriv

/-! Derivatives of the matrix of the charge equilibration: closed forms of the loops. -/

namespace N2P2

/-- What one pair of atoms adds to the derivatives: `w` is the gradient of the matrix entry with
respect to the position of atom `i`. -/
noncomputable def pairD (Q : ℕ → ℝ) (i j : ℕ) (w : Vec3) (a b : ℕ) : Vec3 :=
  ((if a = i then (1 : ℝ) else if a = j then -1 else 0) *
    (if b = i then Q j else if b = j then Q i else 0)) • w

theorem pairD_add (Q : ℕ → ℝ) (i j : ℕ) (w w' : Vec3) :
    pairD Q i j (w + w') = pairD Q i j w + pairD Q i j w' := by
  funext a b
  exact smul_add _ _ _

theorem pairD_zero (Q : ℕ → ℝ) (i j : ℕ) : pairD Q i j 0 = 0 := by
  funext a b
  exact smul_zero _

theorem pairD_list_sum (Q : ℕ → ℝ) (i j : ℕ) (l : List Vec3) :
    (l.map (pairD Q i j)).sum = pairD Q i j l.sum := by
  induction l with
  | nil => rw [List.map_nil, List.sum_nil, List.sum_nil, pairD_zero]
  | cons w l ih => rw [List.map_cons, List.sum_cons, List.sum_cons, ih, pairD_add]

theorem addDAdrQ_eq (D : ℕ → ℕ → Vec3) (Q : ℕ → ℝ) {i j : ℕ} (h : i ≠ j) (w : Vec3) :
    addDAdrQ D i j w (Q i) (Q j) = D + pairD Q i j w := by
  funext a b
  unfold addDAdrQ pairD
  simp only [mset_apply, Pi.add_apply]
  by_cases ha : a = i
  · subst ha
    by_cases hb : b = a
    · subst hb
      simp [h]
    · by_cases hb' : b = j
      · subst hb'
        simp [h, Ne.symm h]
      · simp [h, hb, hb']
  · by_cases ha' : a = j
    · subst ha'
      by_cases hb : b = i
      · subst hb
        simp [h, Ne.symm h, sub_eq_add_neg]
      · by_cases hb' : b = a
        · subst hb'
          simp [Ne.symm h, sub_eq_add_neg]
        · simp [Ne.symm h, hb, hb']
    · simp [ha, ha']

theorem setDAdrQ_eq (D : ℕ → ℕ → Vec3) (Q : ℕ → ℝ) {i j : ℕ} (h : i ≠ j) (w : Vec3)
    (h1 : D i j = 0) (h2 : D j i = 0) :
    setDAdrQ D i j w (Q i) (Q j) = D + pairD Q i j w := by
  rw [← addDAdrQ_eq D Q h]
  funext a b
  unfold setDAdrQ addDAdrQ
  simp only [mset_apply]
  have e1 : ¬ (i = j) := h
  have e2 : ¬ (j = i) := Ne.symm h
  simp only [e1, e2, h1, h2, and_false, false_and, if_false, zero_add, zero_sub]

/-- The derivatives of the matrix times the charges, from the gradients of the entries. -/
noncomputable def totalD (Q : ℕ → ℝ) (n : ℕ) (g : ℕ → ℕ → Vec3) : ℕ → ℕ → Vec3 :=
  ∑ i ∈ Finset.range n, ∑ j ∈ Finset.Ico (i + 1) n, pairD Q i j (g i j)

theorem openLoop_eq (Q : ℕ → ℝ) (n : ℕ) (g : ℕ → ℕ → Vec3) (D : ℕ → ℕ → Vec3)
    (hD : ∀ a b, a ≠ b → D a b = 0) :
    loop n (fun i D => loopFrom (i + 1) n (fun j D => setDAdrQ D i j (g i j) (Q i) (Q j)) D) D =
      D + totalD Q n g := by
  have hz : ∀ (i j a b : ℕ), a ≠ b → ¬ ((a = i ∧ b = j) ∨ (a = j ∧ b = i)) → i ≠ j →
      pairD Q i j (g i j) a b = 0 := by
    intro i j a b hab hne hij
    unfold pairD
    by_cases ha : a = i
    · subst ha
      rw [if_neg (Ne.symm hab), if_neg (fun h => hne (Or.inl ⟨rfl, h⟩)), mul_zero, zero_smul]
    · by_cases ha' : a = j
      · subst ha'
        rw [if_neg (fun h => hne (Or.inr ⟨rfl, h⟩)), if_neg (Ne.symm hab), mul_zero, zero_smul]
      · rw [if_neg ha, if_neg ha', zero_mul, zero_smul]
  refine loop_induction (fun i (E : ℕ → ℕ → Vec3) => E = D + ∑ i ∈ Finset.range i,
    ∑ j ∈ Finset.Ico (i + 1) n, pairD Q i j (g i j)) (by simp) ?_
  intro i hi E hE
  rw [Finset.sum_range_succ, ← add_assoc, ← hE]
  refine loopFrom_induction (fun j (F : ℕ → ℕ → Vec3) => F = E +
    ∑ j ∈ Finset.Ico (i + 1) j, pairD Q i j (g i j)) (by omega) (by simp) ?_
  intro j hj hjn F hF
  have key : ∀ a b, (a = i ∧ b = j) ∨ (a = j ∧ b = i) → F a b = 0 := by
    intro a b hab
    have hne : a ≠ b := by omega
    rw [hF, hE]
    simp only [Pi.add_apply, Finset.sum_apply]
    rw [hD a b hne, zero_add]
    have e1 : ∑ x ∈ Finset.range i, ∑ y ∈ Finset.Ico (x + 1) n, pairD Q x y (g x y) a b = 0 := by
      refine Finset.sum_eq_zero fun x hx => Finset.sum_eq_zero fun y hy => ?_
      have := Finset.mem_range.1 hx
      have := Finset.mem_Ico.1 hy
      exact hz x y a b hne (by omega) (by omega)
    have e2 : ∑ y ∈ Finset.Ico (i + 1) j, pairD Q i y (g i y) a b = 0 := by
      refine Finset.sum_eq_zero fun y hy => ?_
      have := Finset.mem_Ico.1 hy
      exact hz i y a b hne (by omega) (by omega)
    rw [e1, e2, add_zero]
  rw [setDAdrQ_eq F Q (by omega) _ (key i j (Or.inl ⟨rfl, rfl⟩)) (key j i (Or.inr ⟨rfl, rfl⟩)),
    Finset.sum_Ico_succ_top hj, ← add_assoc, ← hF]

/-- Gradient of a Coulomb interaction as it is coded. -/
noncomputable def coulombGrad (γ ε : ℝ) (dr : Vec3) : Vec3 :=
  (((2 / (√Real.pi * γ) * Real.exp (-(dr.norm / γ) ^ 2) - erf (dr.norm / γ) / dr.norm) •
    dr.div (dr.norm ^ 2)) : Vec3).div ε

/-- Gradient of the real part of the Ewald sum as it is coded. -/
noncomputable def ewaldRealGrad (η γ ε : ℝ) (dr : Vec3) : Vec3 :=
  (((2 / √Real.pi * (-Real.exp (-(dr.norm / η) ^ 2) / η + Real.exp (-(dr.norm / γ) ^ 2) / γ)
    - 1 / dr.norm * (erfc (dr.norm / η) - erfc (dr.norm / γ))) •
    dr.div (dr.norm ^ 2)) : Vec3).div ε

/-- Gradient of the reciprocal part as it is coded. -/
noncomputable def ewaldRecipGrad (kv : List Kvector) (ε : ℝ) (dr : Vec3) : Vec3 :=
  Vec3.div (kv.foldl (fun d gv => d - (2 * gv.coeff * Real.sin (gv.k.dot dr)) • gv.k) 0) ε

theorem openDeriv_eq (P : ElecParams) (s : Structure) (D : ℕ → ℕ → Vec3)
    (hD : ∀ a b, a ≠ b → D a b = 0) :
    openDeriv P s D = D + totalD (fun i => (s.atom i).charge) s.numAtoms (fun i j =>
      coulombGrad (P.gammaSqrt2 (s.atom i).element (s.atom j).element) P.fourPiEps
        ((s.atom i).r - (s.atom j).r)) := by
  rw [← openLoop_eq _ _ _ _ hD]
  rfl

/-! ### Periodic -/

/-- The pair of neighbour `k` of atom `i`. -/
noncomputable def realPairD (P : ElecParams) (p : EwaldParameters) (s : Structure) (i : ℕ)
    (n : Neighbor) : ℕ → ℕ → Vec3 :=
  if n.tag.toNat ≤ i then 0 else pairD (fun i => (s.atom i).charge) i n.tag.toNat
    (ewaldRealGrad (√2 * p.eta) (P.gammaSqrt2 (s.atom i).element (s.atom n.tag.toNat).element)
      P.fourPiEps n.dr)

theorem realDeriv_eq {P : ElecParams} {p : EwaldParameters} {s : Structure} (h : ListsOK p s) {i : ℕ}
    (hi : i < s.numAtoms) (hd : ∀ n ∈ (s.atom i).neighbors, n.d = n.dr.norm)
    (D : ℕ → ℕ → Vec3) {buf : ErfcBuf} (hb : buf.Holds s.atoms 2 (erfcArg P p s)) :
    ∃ buf', (List.range ((s.atom i).getStoredMinNumNeighbors p.rCut)).foldlM
        (realDerivStep P (√2 * p.eta) s i) (D, buf) =
        some (D + (((s.atom i).neighbors.take ((s.atom i).getStoredMinNumNeighbors p.rCut)).map
          (realPairD P p s i)).sum, buf') ∧
      buf'.Holds s.atoms 2 (erfcArg P p s) := by
  refine Exists.elim (foldlM_range_induction
    (f := realDerivStep P (√2 * p.eta) s i)
    (fun m (st : (ℕ → ℕ → Vec3) × ErfcBuf) => st.2.Holds s.atoms 2 (erfcArg P p s) ∧
      st.1 = D + (((s.atom i).neighbors.take m).map (realPairD P p s i)).sum)
    ((s.atom i).getStoredMinNumNeighbors p.rCut) (D, buf) ⟨hb, by simp⟩ ?_) ?_
  rotate_left
  · rintro ⟨B, buf'⟩ ⟨h1, h2, h3⟩
    exact ⟨buf', h1.trans (by rw [← h3]), h2⟩
  rintro m hm ⟨C, c⟩ ⟨hc, hC⟩
  dsimp only at hc hC
  have hl : m < (s.atom i).neighbors.length := lt_of_lt_of_le hm (h.stored i hi)
  have hn := List.getElem?_eq_getElem hl
  rw [List.take_add_one, hn]
  set n := (s.atom i).neighbors[m] with hnd
  have hmem : n ∈ (s.atom i).neighbors := List.getElem_mem hl
  obtain ⟨t0, t1⟩ := h.tag i hi n hmem
  rw [Option.toList_some, List.map_append, List.sum_append, ← add_assoc, ← hC, List.map_singleton,
    List.sum_singleton]
  unfold realDerivStep
  dsimp only
  rw [hn]
  simp only [Option.bind_eq_bind, Option.bind_some]
  rw [if_neg (by omega)]
  by_cases hlt : n.tag.toNat ≤ i
  · rw [if_pos hlt]
    refine ⟨_, rfl, hc, ?_⟩
    rw [realPairD, if_pos hlt, add_zero]
  · rw [if_neg hlt]
    have hk : m < (s.atom i).numNeighbors := by rw [h.num i hi]; exact hl
    obtain ⟨c1, e1, hc1⟩ := hc.getf (h.get hi) hk (v := 0) (by norm_num)
    obtain ⟨c2, e2, hc2⟩ := hc1.getf (h.get hi) hk (v := 1) (by norm_num)
    have x0 : erfcArg P p s i m 0 = n.d / (√2 * p.eta) := by
      unfold erfcArg; rw [hn]; rfl
    have x1 : erfcArg P p s i m 1 =
        n.d / P.gammaSqrt2 (s.atom i).element (s.atom n.tag.toNat).element := by
      unfold erfcArg; rw [hn, ← h.element i hi n hmem]; rfl
    rw [x0] at e1
    rw [x1] at e2
    simp only [e1, Option.bind_some, e2]
    refine ⟨_, rfl, hc2, ?_⟩
    rw [realPairD, if_neg hlt, addDAdrQ_eq C (fun i => (s.atom i).charge) (by omega), hd n hmem]
    rfl

theorem recipDeriv_eq (P : ElecParams) (kv : List Kvector) (s : Structure) {i : ℕ}
    (hi : i < s.numAtoms) (D : ℕ → ℕ → Vec3) :
    recipDeriv P kv s i D = D + ∑ j ∈ Finset.Ico (i + 1) s.numAtoms,
      pairD (fun i => (s.atom i).charge) i j
        (ewaldRecipGrad kv P.fourPiEps ((s.atom i).r - (s.atom j).r)) := by
  refine loopFrom_induction (fun j (F : ℕ → ℕ → Vec3) => F = D + ∑ j ∈ Finset.Ico (i + 1) j,
      pairD (fun i => (s.atom i).charge) i j
        (ewaldRecipGrad kv P.fourPiEps ((s.atom i).r - (s.atom j).r))) (by omega) (by simp) ?_
  intro j hj _ F hF
  dsimp only
  rw [addDAdrQ_eq F (fun i => (s.atom i).charge) (by omega), Finset.sum_Ico_succ_top hj,
    ← add_assoc, ← hF]
  rfl

/-- Gradient of an entry of the matrix with periodic boundary conditions. -/
noncomputable def ewaldGrad (P : ElecParams) (p : EwaldParameters) (kv : List Kvector)
    (s : Structure) (i j : ℕ) : Vec3 :=
  ((((s.atom i).neighbors.take ((s.atom i).getStoredMinNumNeighbors p.rCut)).filter
    fun n => n.tag.toNat = j).map fun n =>
      ewaldRealGrad (√2 * p.eta) (P.gammaSqrt2 (s.atom i).element (s.atom j).element)
      P.fourPiEps n.dr).sum + ewaldRecipGrad kv P.fourPiEps ((s.atom i).r - (s.atom j).r)

theorem periodicDeriv_eq {P : ElecParams} {p : EwaldParameters} {s : Structure} (h : ListsOK p s)
    (hd : ∀ i < s.numAtoms, ∀ n ∈ (s.atom i).neighbors, n.d = n.dr.norm) {g : KspaceGrid}
    (hg : KspaceGrid.init.setup s.box p = some g) (D : ℕ → ℕ → Vec3) {buf : ErfcBuf}
    (hb : buf.Holds s.atoms 2 (erfcArg P p s)) :
    ∃ buf', periodicDeriv P p s D buf = some (D + totalD (fun i => (s.atom i).charge) s.numAtoms
        (ewaldGrad P p g.kvectors s), buf') ∧ buf'.Holds s.atoms 2 (erfcArg P p s) := by
  refine Exists.elim (foldlM_range_induction
    (f := fun st i => do
      let st ← (List.range ((s.atom i).getStoredMinNumNeighbors p.rCut)).foldlM
        (realDerivStep P (√2 * p.eta) s i) st
      some (recipDeriv P g.kvectors s i st.1, st.2))
    (fun m (st : (ℕ → ℕ → Vec3) × ErfcBuf) => st.2.Holds s.atoms 2 (erfcArg P p s) ∧
      st.1 = D + ∑ i ∈ Finset.range m, ∑ j ∈ Finset.Ico (i + 1) s.numAtoms,
        pairD (fun i => (s.atom i).charge) i j (ewaldGrad P p g.kvectors s i j))
    s.numAtoms (D, buf) ⟨hb, by simp⟩ ?_) ?_
  rotate_left
  · rintro ⟨B, buf'⟩ ⟨h1, h2, h3⟩
    refine ⟨buf', ?_, h2⟩
    unfold periodicDeriv
    rw [hg]
    refine h1.trans ?_
    rw [totalD, ← h3]
  rintro i hi ⟨C, c⟩ ⟨hc, hC⟩
  dsimp only at hc hC
  obtain ⟨c', e, hc'⟩ := realDeriv_eq (P := P) h hi (hd i hi) C hc
  simp only [Option.bind_eq_bind]
  rw [e]
  refine ⟨_, rfl, hc', ?_⟩
  dsimp only
  rw [recipDeriv_eq _ _ _ hi, Finset.sum_range_succ, ← add_assoc, ← hC, add_assoc]
  congr 1
  simp only [ewaldGrad, pairD_add]
  rw [Finset.sum_add_distrib]
  congr 1
  simp only [← pairD_list_sum, List.map_map]
  refine Eq.trans ?_ (sum_filter_tag
    ((s.atom i).neighbors.take ((s.atom i).getStoredMinNumNeighbors p.rCut))
    (fun n => n.tag.toNat) (fun n j => pairD (fun i => (s.atom i).charge) i j
      (ewaldRealGrad (√2 * p.eta) (P.gammaSqrt2 (s.atom i).element (s.atom j).element)
      P.fourPiEps n.dr)) (fun n hn => ?_)).symm
  · congr 1
    refine List.map_congr_left fun n _ => ?_
    unfold realPairD
    by_cases hlt : n.tag.toNat ≤ i
    · rw [if_pos hlt, if_pos (by omega)]
    · rw [if_neg hlt, if_neg (by omega)]
  · have := h.tag i hi n (List.mem_of_mem_take hn)
    omega

end N2P2
