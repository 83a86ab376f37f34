import Verif.Lemma.SameLists
import Verif.Props.Cutoff

/-! Derivatives of the electrostatic energy: closed forms of the loops. -/

namespace N2P2

variable {q : Qeq} {s : Structure}

theorem update_add_single {α M : Type*} [DecidableEq α] [AddCommMonoid M] (f : α → M) (i : α) (x : M) :
    Function.update f i (f i + x) = f + Pi.single i x := by
  funext a
  by_cases h : a = i
  · subst h
    simp
  · simp [h]

theorem addScreen_eq (st : (ℕ → Vec3) × (ℕ → ℝ)) (i j : ℕ) (T : Vec3) (S Qi Qj : ℝ) :
    addScreen st i j T S Qi Qj = (st.1 + (Pi.single i T - Pi.single j T),
      st.2 + (Pi.single i (Qj * S) + Pi.single j (Qi * S))) := by
  unfold addScreen
  dsimp only
  simp only [sub_eq_add_neg, update_add_single, add_assoc]
  rw [Pi.single_neg]

/-- Coefficient of a charge in the derivative with respect to another. -/
noncomputable def chargeCoeff (P : ElecParams) (s : Structure) (i j : ℕ) : ℝ :=
  if i ≠ j then s.A i j else if s.isPeriodic then s.A i i - P.hardness (s.atom i).element -
    1 / (P.sigmaSqrtPi (s.atom i).element * P.fourPiEps) else 0

theorem matrixPart_eq (P : ElecParams) (s : Structure) (i : ℕ) (st : (ℕ → Vec3) × (ℕ → ℝ)) :
    matrixPart P s i st =
      (st.1 + Pi.single i (∑ j ∈ Finset.range s.numAtoms,
        (1 / 2 * (s.atom j).charge) • (s.atom i).dAdrQ.getD j 0),
       st.2 + Pi.single i (∑ j ∈ Finset.range s.numAtoms,
        chargeCoeff P s i j * (s.atom j).charge)) := by
  unfold matrixPart
  refine loop_induction (s := st) (fun m (t : (ℕ → Vec3) × (ℕ → ℝ)) => t =
    (st.1 + Pi.single i (∑ j ∈ Finset.range m,
        (1 / 2 * (s.atom j).charge) • (s.atom i).dAdrQ.getD j 0),
       st.2 + Pi.single i (∑ j ∈ Finset.range m,
        chargeCoeff P s i j * (s.atom j).charge))) (by simp) ?_
  rintro j _ t rfl
  dsimp only
  simp only [update_add_single, Finset.sum_range_succ, Pi.single_add, ← add_assoc]
  congr 1
  unfold chargeCoeff
  by_cases h : i = j
  · subst h
    simp only [ne_eq, not_true_eq_false, if_false]
    by_cases hp : s.isPeriodic = true
    · simp only [hp, if_true]
      rw [mul_comm (s.atom i).charge]
    · rw [if_neg hp, if_neg hp, zero_mul, Pi.single_zero, add_zero]
  · simp only [ne_eq, h, not_false_eq_true, if_true]
    rw [mul_comm (s.atom j).charge]

theorem screen_outer (P : ElecParams) (γ Qi Qj : ℝ) {d : ℝ} (dr : Vec3) (h : d ≥ P.fs.outer) :
    screenT P γ Qi Qj d dr = 0 ∧ screenS P γ d = 0 := by
  have h1 : P.fs.f d = 1 := P.fs.f_outer (not_lt.2 h)
  have h2 : P.fs.df d = 0 := by
    unfold ScreeningFunction.df
    rw [if_pos (Or.inl h)]
    norm_num
  constructor
  · unfold screenT
    dsimp only
    rw [h1, h2]
    simp [Vec3.div]
  · unfold screenS
    rw [h1]
    simp

/-- The pair of atoms `i` and `j` at distance vector `dr`. -/
noncomputable def screenPair (P : ElecParams) (s : Structure) (i j : ℕ) (d : ℝ) (dr : Vec3) :
    (ℕ → Vec3) × (ℕ → ℝ) :=
  (Pi.single i (screenT P (P.gammaSqrt2 (s.atom i).element (s.atom j).element) (s.atom i).charge
      (s.atom j).charge d dr) -
    Pi.single j (screenT P (P.gammaSqrt2 (s.atom i).element (s.atom j).element) (s.atom i).charge
      (s.atom j).charge d dr),
   Pi.single i ((s.atom j).charge *
      screenS P (P.gammaSqrt2 (s.atom i).element (s.atom j).element) d) +
    Pi.single j ((s.atom i).charge *
      screenS P (P.gammaSqrt2 (s.atom i).element (s.atom j).element) d))

theorem screenPair_outer (P : ElecParams) (s : Structure) (i j : ℕ) {d : ℝ} (dr : Vec3)
    (h : d ≥ P.fs.outer) : screenPair P s i j d dr = 0 := by
  unfold screenPair
  rw [(screen_outer P _ _ _ dr h).1, (screen_outer P _ 0 0 dr h).2]
  simp

theorem openScreen_eq (P : ElecParams) (s : Structure) {i : ℕ} (hi : i < s.numAtoms)
    (st : (ℕ → Vec3) × (ℕ → ℝ)) :
    openScreen P s i st = st + ∑ j ∈ Finset.Ico (i + 1) s.numAtoms,
      screenPair P s i j ((s.atom i).r - (s.atom j).r).norm ((s.atom i).r - (s.atom j).r) := by
  classical
  rw [← loopFrom_add_sum _ (by omega)]
  unfold openScreen
  congr 1
  funext j t
  dsimp only
  by_cases h : ((s.atom i).r - (s.atom j).r).norm ≥ P.fs.outer
  · rw [if_pos h, screenPair_outer P s i j _ h, add_zero]
  · rw [if_neg h, addScreen_eq]
    rfl

theorem periodicScreen_eq (P : ElecParams) (s : Structure) (i : ℕ) (l : List Neighbor)
    (ht : ∀ n ∈ l, 0 ≤ n.tag ∧ n.tag < (s.numAtoms : ℤ)) (hs : l.Pairwise fun x y => x.d ≤ y.d)
    (st : (ℕ → Vec3) × (ℕ → ℝ)) :
    periodicScreen P s i l st = some (st + (l.map fun n => if n.tag.toNat < i then 0 else
      screenPair P s i n.tag.toNat n.d n.dr).sum) := by
  induction l generalizing st with
  | nil => simp [periodicScreen]
  | cons n l ih =>
    obtain ⟨t0, t1⟩ := ht n (by simp)
    obtain ⟨hs1, hs2⟩ := List.pairwise_cons.1 hs
    have ih := ih (fun m hm => ht m (List.mem_cons_of_mem _ hm)) hs2
    rw [periodicScreen, if_neg (by omega), List.map_cons, List.sum_cons]
    dsimp only
    by_cases hlt : n.tag.toNat < i
    · rw [if_pos hlt, if_pos hlt, ih, zero_add]
    · rw [if_neg hlt, if_neg hlt]
      by_cases hd : n.d ≥ P.fs.outer
      · rw [if_pos hd, screenPair_outer _ _ _ _ _ hd, zero_add]
        have : (l.map fun n => if n.tag.toNat < i then 0 else
            screenPair P s i n.tag.toNat n.d n.dr).sum = 0 := by
          refine List.sum_eq_zero fun x hx => ?_
          obtain ⟨m, hm, rfl⟩ := List.mem_map.1 hx
          split_ifs
          · rfl
          · exact screenPair_outer _ _ _ _ _ (le_trans hd (hs1 m hm))
        rw [this, add_zero]
      · rw [if_neg hd, addScreen_eq, ih, ← add_assoc st (screenPair _ _ _ _ _ _)]
        rfl

/-! ### All atoms -/

/-- Contribution of a pair to the derivatives: gradient `T` and interaction `S`. -/
noncomputable def pairTS (Q : ℕ → ℝ) (i j : ℕ) (T : Vec3) (S : ℝ) : (ℕ → Vec3) × (ℕ → ℝ) :=
  (Pi.single i T - Pi.single j T, Pi.single i (Q j * S) + Pi.single j (Q i * S))

theorem pairTS_add (Q : ℕ → ℝ) (i j : ℕ) (T T' : Vec3) (S S' : ℝ) :
    pairTS Q i j (T + T') (S + S') = pairTS Q i j T S + pairTS Q i j T' S' := by
  unfold pairTS
  simp only [mul_add, Pi.single_add, Prod.mk_add_mk]
  congr 1 <;> abel

theorem pairTS_zero (Q : ℕ → ℝ) (i j : ℕ) : pairTS Q i j 0 0 = 0 := by
  unfold pairTS
  simp

theorem pairTS_sum {α : Type*} (Q : ℕ → ℝ) (i j : ℕ) (l : List α) (T : α → Vec3) (S : α → ℝ) :
    (l.map fun a => pairTS Q i j (T a) (S a)).sum = pairTS Q i j (l.map T).sum (l.map S).sum := by
  induction l with
  | nil => simp [pairTS_zero]
  | cons a l ih => simp only [List.map_cons, List.sum_cons, ih, pairTS_add]

theorem pairTS_same (Q : ℕ → ℝ) (i : ℕ) (T : Vec3) : pairTS Q i i T 0 = 0 := by
  unfold pairTS
  simp

/-- The sums which the code forms. -/
noncomputable def energySums (P : ElecParams) (s : Structure) (T : ℕ → ℕ → Vec3) (S : ℕ → ℕ → ℝ) :
    (ℕ → Vec3) × (ℕ → ℝ) :=
  ∑ i ∈ Finset.range s.numAtoms, ((Pi.single i (∑ j ∈ Finset.range s.numAtoms,
        (1 / 2 * (s.atom j).charge) • (s.atom i).dAdrQ.getD j 0),
       Pi.single i (∑ j ∈ Finset.range s.numAtoms, chargeCoeff P s i j * (s.atom j).charge)) +
    ∑ j ∈ Finset.Ico i s.numAtoms, pairTS (fun i => (s.atom i).charge) i j (T i j) (S i j))

theorem energyFold_eq {P : ElecParams} {T : ℕ → ℕ → Vec3} {S : ℕ → ℕ → ℝ}
    {f : (ℕ → Vec3) × (ℕ → ℝ) → ℕ → Option ((ℕ → Vec3) × (ℕ → ℝ))}
    (hf : ∀ i < s.numAtoms, ∀ st, f st i = some (matrixPart P s i st +
      ∑ j ∈ Finset.Ico i s.numAtoms, pairTS (fun i => (s.atom i).charge) i j (T i j) (S i j))) :
    (List.range s.numAtoms).foldlM f 0 = some (energySums P s T S) := by
  obtain ⟨t, h1, h2⟩ := foldlM_range_induction (f := f)
    (fun k t => t = ∑ i ∈ Finset.range k, ((Pi.single i (∑ j ∈ Finset.range s.numAtoms,
        (1 / 2 * (s.atom j).charge) • (s.atom i).dAdrQ.getD j 0),
       Pi.single i (∑ j ∈ Finset.range s.numAtoms, chargeCoeff P s i j * (s.atom j).charge)) +
    ∑ j ∈ Finset.Ico i s.numAtoms, pairTS (fun i => (s.atom i).charge) i j (T i j) (S i j)))
    s.numAtoms 0 (by simp) (fun i hi t ht => ⟨_, hf i hi t, by
      rw [matrixPart_eq, Finset.sum_range_succ, ← ht, ← add_assoc]
      rfl⟩)
  rw [h1, h2]
  rfl

/-! ### Gradients -/

theorem hasDerivAt_screened {fs : ScreeningFunction} {i o : ℝ} (hfs : fs.Configured i o)
    {P : ElecParams} (hP : P.fs = fs) (γ Qi Qj : ℝ) {u : ℝ → Vec3} {w : Vec3} {t : ℝ}
    (hu : HasDerivAt u w t) (h : 0 < (u t).norm) :
    HasDerivAt (fun t => Qi * Qj * (erf ((u t).norm / γ) / (P.fourPiEps * (u t).norm) *
        (fs.f (u t).norm - 1)))
      ((screenT P γ Qi Qj (u t).norm (u t)).dot w) t := by
  have hc := hasDerivAt_coulomb γ P.fourPiEps hu h
  have hn := hasDerivAt_norm hu h
  have hf := HasDerivAt.comp (h₂ := fs.f) (h := fun t => (u t).norm) t
    (C54_derivative fs i o hfs (u t).norm).1 hn
  refine ((hc.mul (hf.sub_const 1)).const_mul (Qi * Qj)).congr_deriv ?_
  unfold screenT coulombGrad
  rw [hP]
  simp only [div_dot, smul_dot, Function.comp_apply]
  field_simp
  ring

theorem screenS_eq (q : Qeq) (e f : ℕ) (d : ℝ) :
    screenS q.params (q.params.gammaSqrt2 e f) d = q.coulomb e f d * (q.fs.f d - 1) := by
  rw [q.gammaSqrt2_eq]
  unfold screenS Qeq.coulomb
  show erf (d / (√2 * q.γ e f)) * (q.fs.f d - 1) / d / q.fourPiEps = _
  rw [div_div, mul_comm d]
  ring

/-- The derivatives of the energy: sums over pairs of the gradients of the screening. -/
theorem energyLoop_eq {W : Structure → ℕ → ℕ → ℝ} {i o : ℝ} (hn : s.numAtoms = s.atoms.length)
    (hfs : q.fs.Configured i o) (hW : q.IsScreening s W) (hap : s.Apart) :
    ∃ T S, (List.range s.numAtoms).foldlM (fun st i =>
        let st := matrixPart q.params s i st
        if s.isPeriodic then periodicScreen q.params s i (s.atom i).neighbors st
        else some (openScreen q.params s i st)) ((fun _ => 0), (fun _ => 0)) =
        some (energySums q.params s T S) ∧
      (∀ i j, i ≤ j → j < s.atoms.length → S i j = W s i j) ∧
      ∀ r v t0, s.Moves r v t0 → ∀ i j, i ≤ j → j < s.atoms.length →
        HasDerivAt (fun t => (s.atom i).charge * (s.atom j).charge * W (s.at r t) i j)
          ((T i j).dot (v i - v j)) t0 := by
  cases hW with
  | cluster hp =>
    refine ⟨fun i j => screenT q.params (q.params.gammaSqrt2 (s.atom i).element (s.atom j).element)
        (s.atom i).charge (s.atom j).charge ((s.atom i).r - (s.atom j).r).norm
        ((s.atom i).r - (s.atom j).r), fun i j => if i = j then 0 else
        screenS q.params (q.params.gammaSqrt2 (s.atom i).element (s.atom j).element)
        ((s.atom i).r - (s.atom j).r).norm, energyFold_eq fun i hi st => ?_, ?_, ?_⟩
    · dsimp only
      rw [if_neg (by simp [hp]), openScreen_eq _ _ hi, Finset.sum_eq_sum_Ico_succ_bot hi, if_pos rfl,
        pairTS_same, zero_add]
      congr 2
      refine Finset.sum_congr rfl fun j hj => ?_
      rw [if_neg (by have := (Finset.mem_Ico.1 hj).1; omega)]
      rfl
    · intro i j _ _
      dsimp only
      unfold Qeq.openW
      split_ifs
      · rfl
      · rw [screenS_eq, Structure.atom_element, Structure.atom_element, Structure.atom_r,
          Structure.atom_r, ← len_eq]
        rfl
    · intro r v t0 hm i j hij hj
      dsimp only
      unfold Qeq.openW
      by_cases h : i = j
      · subst h
        simp only [if_true, mul_zero, sub_self]
        refine (hasDerivAt_const t0 (0 : ℝ)).congr_deriv ?_
        simp [Vec3.dot]
      · simp only [if_neg h]
        have hi : i < s.atoms.length := by omega
        have e : (fun t => (s.at r t).position i - (s.at r t).position j) = fun t => r i t - r j t := by
          funext t
          rw [at_position t hi, at_position t hj]
        have e0 : r i t0 - r j t0 = (s.atom i).r - (s.atom j).r := by
          rw [hm.start i hi, hm.start j hj, Structure.atom_r, Structure.atom_r]
        have hu := (hm.velocity i hi).sub (hm.velocity j hj)
        have hsep := hap i hi (j, 0) ⟨hj, Or.inr rfl, fun h => by
          have := congrArg Prod.fst h
          simp at this
          omega⟩
        have hpos : 0 < (r i t0 - r j t0).norm := by
          rw [e0]
          refine norm_pos_of_ne fun h => hsep ?_
          rw [Structure.atom_r, Structure.atom_r] at h
          unfold Structure.separation
          simp only [h, shift, zero_add]
          funext c
          simp
        have := hasDerivAt_screened hfs (P := q.params) rfl
          (q.params.gammaSqrt2 (s.atom i).element (s.atom j).element) (s.atom i).charge
          (s.atom j).charge hu hpos
        rw [Pi.sub_apply, e0] at this
        refine this.congr_of_eventuallyEq (Filter.Eventually.of_forall fun t => ?_)
        dsimp only
        rw [at_position t hi, at_position t hj, Pi.sub_apply, len_eq, Qeq.openV, Qeq.coulomb,
          at_elementOf, at_elementOf, at_position t hi, at_position t hj, q.gammaSqrt2_eq,
          Structure.atom_element, Structure.atom_element, len_eq]
        rfl
  | periodic hp full imgs hl hs =>
    have hfar : ∀ i < s.atoms.length, ∃ rest, full i = imgs i ++ rest ∧
        ∀ p ∈ rest, (s.separation i p).norm ≥ q.fs.outer := by
      intro i hi
      refine ⟨(full i).drop ((s.atom i).getStoredMinNumNeighbors q.fs.outer), ?_, fun p hp => ?_⟩
      · rw [hs.take i hi, List.take_append_drop]
      · by_contra hlt
        have h1 := hs.complete i hi p (hl.partner i hi p (List.mem_of_mem_drop hp))
          (by rw [len_eq]; exact (not_le.1 hlt).le)
        have h2 := hl.nodup i hi
        rw [← List.take_append_drop ((s.atom i).getStoredMinNumNeighbors q.fs.outer) (full i),
          List.nodup_append] at h2
        rw [hs.take i hi] at h1
        exact h2.2.2 p h1 p hp rfl
    have hsum : ∀ {M : Type} [AddCommMonoid M] (f : ℕ × (Fin 3 → ℤ) → M) (i j : ℕ),
        i < s.atoms.length → (∀ p, (s.separation i p).norm ≥ q.fs.outer → f p = 0) →
        (((full i).filter fun p => p.1 = j).map f).sum =
          (((imgs i).filter fun p => p.1 = j).map f).sum := by
      intro M _ f i j hi hf
      obtain ⟨rest, h1, h2⟩ := hfar i hi
      rw [h1, List.filter_append, List.map_append, List.sum_append]
      rw [List.sum_eq_zero (l := (rest.filter fun p => p.1 = j).map f), add_zero]
      intro x hx
      obtain ⟨p, hp, rfl⟩ := List.mem_map.1 hx
      exact hf p (h2 p (List.mem_filter.1 hp).1)
    refine ⟨fun i j => (((full i).filter fun p => p.1 = j).map fun p =>
        screenT q.params (q.params.gammaSqrt2 (s.atom i).element (s.atom j).element)
        (s.atom i).charge (s.atom j).charge (s.separation i p).norm (s.separation i p)).sum,
      fun i j => (((full i).filter fun p => p.1 = j).map fun p =>
        screenS q.params (q.params.gammaSqrt2 (s.atom i).element (s.atom j).element)
        (s.separation i p).norm).sum, energyFold_eq fun i hi st => ?_, ?_, ?_⟩
    · dsimp only
      have hil : i < s.atoms.length := hn ▸ hi
      have hf : List.Forall₂ _ (s.atom i).neighbors (full i) :=
        hl.describes i _ (Structure.atom_get hil)
      have ok : ListsOK { eta := 0, rCut := q.fs.outer, kCut := 0 } s := hs.listsOK hn hl _ rfl
      rw [if_pos hp, periodicScreen_eq _ _ _ _ (ok.tag i hi)
        (hl.ordered _ (List.mem_of_getElem? (Structure.atom_get hil)))]
      congr 2
      simp only [← pairTS_sum]
      rw [sum_filter_tag (full i) Prod.fst (fun p j => pairTS (fun i => (s.atom i).charge) i j
        (screenT q.params (q.params.gammaSqrt2 (s.atom i).element (s.atom j).element)
          (s.atom i).charge (s.atom j).charge (s.separation i p).norm (s.separation i p))
        (screenS q.params (q.params.gammaSqrt2 (s.atom i).element (s.atom j).element)
          (s.separation i p).norm)) (fun p hp => by rw [hn]; exact (hl.partner i hil p hp).1)]
      clear ok
      generalize (s.atom i).neighbors = l at hf
      generalize full i = l' at hf
      induction hf with
      | nil => rfl
      | @cons nb p l l' hp _ ih =>
        obtain ⟨ht, -, hdr, hd⟩ := describes_at hp
        rw [List.map_cons, List.sum_cons, ih, List.map_cons, List.sum_cons, ht, Int.toNat_natCast,
          hdr, hd, len_eq]
        rfl
    · intro i j hij hj
      dsimp only
      rw [hsum _ i j (by omega) fun p hp => (screen_outer q.params _ 0 0 0 hp).2]
      unfold Qeq.screenW
      congr 1
      refine List.map_congr_left fun p _ => ?_
      rw [screenS_eq, Structure.atom_element, Structure.atom_element, ← len_eq]
    · intro r v t0 hm i j hij hj
      dsimp only
      have hi : i < s.atoms.length := by omega
      rw [hsum _ i j hi fun p hp => (screen_outer q.params _ _ _ _ hp).1, list_sum_dot]
      have e : (fun t => (s.atom i).charge * (s.atom j).charge * q.screenW (s.at r t) imgs i j) =
          fun t => (((imgs i).filter fun p => p.1 = j).map fun p =>
            (s.atom i).charge * (s.atom j).charge *
            (erf (((s.at r t).separation i p).norm /
              q.params.gammaSqrt2 (s.atom i).element (s.atom j).element) /
              (q.params.fourPiEps * ((s.at r t).separation i p).norm) *
              (q.fs.f ((s.at r t).separation i p).norm - 1))).sum := by
        funext t
        unfold Qeq.screenW Qeq.coulomb
        rw [← List.sum_map_mul_left, at_elementOf, at_elementOf, q.gammaSqrt2_eq,
          Structure.atom_element, Structure.atom_element]
        simp only [len_eq]
        rfl
      rw [e]
      refine hasDerivAt_list_sum _ _ _ fun p hp => ?_
      obtain ⟨hp1, hp2⟩ := List.mem_filter.1 hp
      have hp2 : p.1 = j := by simpa using hp2
      have hpart := hs.partner i hi p hp1
      obtain ⟨hsep, h0⟩ := hm.separation hi hpart.1
      rw [hp2] at hsep
      have := hasDerivAt_screened hfs (P := q.params) rfl
          (q.params.gammaSqrt2 (s.atom i).element (s.atom j).element) (s.atom i).charge
          (s.atom j).charge hsep (by rw [h0]; exact norm_pos_of_ne (hap i hi p hpart))
      rwa [h0] at this

end N2P2
