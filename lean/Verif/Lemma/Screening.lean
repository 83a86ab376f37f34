import Verif.Lemma.QeqRun

/-! The electrostatic energy in closed form. -/

namespace N2P2

variable {q : Qeq} {s : Structure}

theorem matrixEnergy_eq {U : ℕ → ℝ} {V : ℕ → ℕ → ℝ} (hn : s.numAtoms = s.atoms.length)
    {B : ℕ → ℕ → ℝ} (hB : ∀ a b, a < s.atoms.length → b < s.atoms.length →
      B a b = symMat (fun i => q.J (s.elementOf i) + U i) V a b) (Q : ℕ → ℝ) :
    matrixEnergy q.params s (borderMatrix s.numAtoms B) Q =
      Qeq.coulombEnergy s.atoms.length U V Q := by
  rw [← quadratic_eq, matrixEnergy, hn]
  congr 1
  refine Finset.sum_congr rfl fun i hi => ?_
  have hi := Finset.mem_range.1 hi
  rw [Finset.mul_sum]
  refine Finset.sum_congr rfl fun j hj => ?_
  have hj := Finset.mem_range.1 hj
  rw [borderMatrix_apply, if_neg (by omega), if_neg (by omega), hB i j hi hj]
  have : (symMat (fun i => q.J (s.elementOf i) + U i) V i j -
      if i = j then q.params.hardness (s.atom i).element else 0) = symMat U V i j := by
    unfold symMat
    by_cases h : i = j
    · rw [if_pos h, if_pos h, if_pos h, Structure.atom_element]
      show q.J _ + U i - q.J _ = _
      ring
    · rw [if_neg h, if_neg h, if_neg h, sub_zero]
  rw [this]
  ring

theorem loop_add_sum {M : Type*} [AddCommMonoid M] (g : ℕ → M) (n : ℕ) (e : M) :
    loop n (fun i e => e + g i) e = e + ∑ i ∈ Finset.range n, g i := by
  refine loop_induction (fun i (t : M) => t = e + ∑ i ∈ Finset.range i, g i) (by simp) ?_
  intro i _ t ht
  rw [ht, Finset.sum_range_succ, add_assoc]

theorem loopFrom_add_sum {M : Type*} [AddCommMonoid M] (g : ℕ → M) {a b : ℕ} (hab : a ≤ b) (e : M) :
    loopFrom a b (fun i e => e + g i) e = e + ∑ i ∈ Finset.Ico a b, g i := by
  refine loopFrom_induction (fun i (t : M) => t = e + ∑ i ∈ Finset.Ico a i, g i) hab (by simp) ?_
  intro i h _ t ht
  rw [ht, Finset.sum_Ico_succ_top h, add_assoc]

theorem sum_upper {M : Type*} [AddCommMonoid M] (n : ℕ) (f : ℕ → ℕ → M) :
    ∑ i ∈ Finset.range n, ∑ j ∈ Finset.Ico (i + 1) n, f i j =
      ∑ j ∈ Finset.range n, ∑ i ∈ Finset.range j, f i j := by
  refine Finset.sum_comm' fun i j => ?_
  simp only [Finset.mem_range, Finset.mem_Ico]
  omega

theorem ScreeningFunction.f_outer (fs : ScreeningFunction) {r : ℝ} (h : ¬ r < fs.outer) :
    fs.f r = 1 := by
  unfold ScreeningFunction.f
  rw [if_pos (not_lt.1 h)]
  norm_num

/-- Energy of the screening without periodic boundary conditions. -/
theorem openScreening_eq (hper : s.isPeriodic = false) :
    s.calculateScreeningEnergy q.params = some (∑ i ∈ Finset.range s.numAtoms,
      -(1 / 2 * (q.self (s.elementOf i) * (s.atom i).charge ^ 2)) +
      ∑ j ∈ Finset.range s.numAtoms, ∑ i ∈ Finset.range j, s.A i j *
        (q.fs.f (len (s.position i - s.position j)) - 1) * (s.atom i).charge * (s.atom j).charge) := by
  classical
  unfold Structure.calculateScreeningEnergy
  rw [if_neg (by simp [hper])]
  congr 1
  rw [← sum_upper, ← Finset.sum_add_distrib]
  refine Eq.trans ?_ (zero_add _)
  rw [← loop_add_sum]
  congr 1
  funext i e
  dsimp only
  have hg : (fun (j : ℕ) (e : ℝ) => if ((s.atom i).r - (s.atom j).r).norm < q.params.fs.outer then
      e + (s.atom i).charge * (s.atom j).charge * s.A i j *
        (q.params.fs.f ((s.atom i).r - (s.atom j).r).norm - 1) else e) =
      fun j e => e + s.A i j * (q.fs.f (len (s.position i - s.position j)) - 1) *
        (s.atom i).charge * (s.atom j).charge := by
    funext j e
    rw [Structure.atom_r, Structure.atom_r, ← len_eq]
    show (if _ < q.fs.outer then _ else _) = _
    by_cases h : len (s.position i - s.position j) < q.fs.outer
    · rw [if_pos h]
      show e + _ * (q.fs.f _ - 1) = _
      ring
    · rw [if_neg h, q.fs.f_outer h]
      ring
  have hs : -(s.atom i).charge * (s.atom i).charge / (2 * q.params.sigmaSqrtPi (s.atom i).element *
      q.params.fourPiEps) = -(1 / 2 * (q.self (s.elementOf i) * (s.atom i).charge ^ 2)) := by
    rw [Structure.atom_element]
    show _ / (2 * (√Real.pi * q.σ _) * q.fourPiEps) = _
    unfold Qeq.self
    rw [mul_assoc 2, div_mul_eq_div_div, mul_comm (√Real.pi * q.σ _)]
    ring
  rw [hs]
  rcases Nat.lt_or_ge i s.numAtoms with hi | hi
  · refine Eq.trans ?_ (add_assoc _ _ _)
    rw [← loopFrom_add_sum _ (by omega), ← hg]
  · rw [loopFrom, Nat.sub_eq_zero_of_le (by omega), Finset.Ico_eq_empty (by omega),
      Finset.sum_empty, add_zero]
    rfl

theorem foldlM_range_add {f : ℝ → ℕ → Option ℝ} {g : ℕ → ℝ} (n : ℕ)
    (h : ∀ k < n, ∀ e, f e k = some (e + g k)) (e : ℝ) :
    (List.range n).foldlM f e = some (e + ∑ k ∈ Finset.range n, g k) := by
  obtain ⟨t, h1, h2⟩ := foldlM_range_induction (f := f)
    (fun k t => t = e + ∑ k ∈ Finset.range k, g k) n e (by simp) (fun k hk t ht =>
      ⟨_, h k hk t, by rw [ht, Finset.sum_range_succ, add_assoc]⟩)
  rw [h1, h2]

theorem sum_filter_tag {α M : Type*} [AddCommMonoid M] (l : List α) (t : α → ℕ) (f : α → ℕ → M)
    {a n : ℕ}
    (h : ∀ p ∈ l, t p < n) :
    ∑ j ∈ Finset.Ico a n, ((l.filter fun p => t p = j).map fun p => f p j).sum =
      (l.map fun p => if t p < a then 0 else f p (t p)).sum := by
  induction l with
  | nil => simp
  | cons p l ih =>
    have hp := h p (by simp)
    rw [List.map_cons, List.sum_cons, ← ih fun p hp => h p (List.mem_cons_of_mem _ hp)]
    have : ∀ j ∈ Finset.Ico a n, (((p :: l).filter fun p => t p = j).map fun p => f p j).sum =
        (if t p = j then f p j else 0) + ((l.filter fun p => t p = j).map fun p => f p j).sum := by
      intro j _
      rw [List.filter_cons]
      by_cases hj : t p = j
      · rw [if_pos (by simpa using hj), if_pos hj, List.map_cons, List.sum_cons]
      · rw [if_neg (by simpa using hj), if_neg hj, zero_add]
    rw [Finset.sum_congr rfl this, Finset.sum_add_distrib]
    congr 1
    rw [Finset.sum_ite_eq]
    by_cases ha : t p < a
    · rw [if_neg (by rw [Finset.mem_Ico]; omega), if_pos ha]
    · rw [if_pos (by rw [Finset.mem_Ico]; omega), if_neg ha]

theorem periodicScreening_eq (hper : s.isPeriodic = true) (hn : s.numAtoms = s.atoms.length)
    {full imgs : ℕ → List (ℕ × (Fin 3 → ℤ))} (hl : s.Listed full)
    (hi : s.Stored full q.fs.outer imgs) :
    s.calculateScreeningEnergy q.params = some (∑ i ∈ Finset.range s.atoms.length,
      (-(1 / 2 * (q.self (s.elementOf i) * (s.atom i).charge ^ 2)) +
      ∑ j ∈ Finset.Ico i s.atoms.length,
        q.screenW s imgs i j * (s.atom i).charge * (s.atom j).charge)) := by
  classical
  have ok : ListsOK { eta := 0, rCut := q.fs.outer, kCut := 0 } s := hi.listsOK hn hl _ rfl
  unfold Structure.calculateScreeningEnergy
  rw [if_pos (by simp [hper]), ← hn]
  refine (foldlM_range_add _ (fun i hi' e => ?_) 0).trans (by rw [zero_add])
  have hil : i < s.atoms.length := hn ▸ hi'
  dsimp only
  set a := s.atom i with ha
  have hb : ∀ k < a.getStoredMinNumNeighbors q.params.fs.outer, ∀ e : ℝ,
      (do
        let n ← a.neighbors[k]?
        if n.tag < 0 ∨ (s.numAtoms : ℤ) ≤ n.tag then none
        else
          let j := n.tag.toNat
          if j < i then some e
          else
            let Qj := (s.atom j).charge
            some (e + a.charge * Qj * erf (n.d / q.params.gammaSqrt2 a.element n.element)
              * (q.params.fs.f n.d - 1) / (n.d * q.params.fourPiEps))) =
      some (e + (a.neighbors[k]?.map fun n => if n.tag.toNat < i then 0 else
        a.charge * (s.atom n.tag.toNat).charge * erf (n.d / q.params.gammaSqrt2 a.element n.element)
              * (q.params.fs.f n.d - 1) / (n.d * q.params.fourPiEps)).getD 0) := by
    intro k hk e
    have hk : k < a.getStoredMinNumNeighbors q.fs.outer := hk
    have hlen : k < a.neighbors.length := lt_of_lt_of_le hk (ok.stored i hi')
    have hg := List.getElem?_eq_getElem hlen
    obtain ⟨t1, t2⟩ := ok.tag i hi' _ (List.getElem_mem hlen)
    rw [hg]
    simp only [Option.bind_eq_bind, Option.bind_some, Option.map_some, Option.getD_some]
    rw [if_neg (by omega)]
    split_ifs
    · rw [add_zero]
    · rfl
  refine (foldlM_range_add _ hb _).trans ?_
  rw [add_assoc]
  congr 2
  have hs : -a.charge * a.charge / (2 * q.params.sigmaSqrtPi a.element *
      q.params.fourPiEps) = -(1 / 2 * (q.self (s.elementOf i) * a.charge ^ 2)) := by
    rw [ha, Structure.atom_element]
    show _ / (2 * (√Real.pi * q.σ _) * q.fourPiEps) = _
    unfold Qeq.self
    rw [mul_assoc 2, div_mul_eq_div_div, mul_comm (√Real.pi * q.σ _)]
    ring
  rw [hs]
  congr 1
  have hW : ∀ j ∈ Finset.Ico i s.numAtoms, q.screenW s imgs i j * a.charge * (s.atom j).charge =
      (((imgs i).filter fun p => p.1 = j).map fun p =>
        q.coulomb (s.elementOf i) (s.elementOf j) (len (s.separation i p)) *
        (q.fs.f (len (s.separation i p)) - 1) * a.charge * (s.atom j).charge).sum := by
    intro j _
    rw [Qeq.screenW, mul_assoc, ← List.sum_map_mul_right]
    congr 1
    exact List.map_congr_left fun p _ => by ring
  rw [Finset.sum_congr rfl hW, sum_filter_tag (imgs i) Prod.fst (fun p j =>
    q.coulomb (s.elementOf i) (s.elementOf j) (len (s.separation i p)) *
        (q.fs.f (len (s.separation i p)) - 1) * a.charge * (s.atom j).charge)
    (fun p hp => by rw [hn]; exact (hi.partner i hil p hp).1)]
  have hf := hi.forall₂ hl hil
  have e1 : ∑ k ∈ Finset.range (a.getStoredMinNumNeighbors q.params.fs.outer),
      (a.neighbors[k]?.map fun n => if n.tag.toNat < i then 0 else
        a.charge * (s.atom n.tag.toNat).charge * erf (n.d / q.params.gammaSqrt2 a.element n.element)
              * (q.params.fs.f n.d - 1) / (n.d * q.params.fourPiEps)).getD 0 =
      ((a.neighbors.take (a.getStoredMinNumNeighbors q.fs.outer)).map fun n =>
        if n.tag.toNat < i then 0 else
        a.charge * (s.atom n.tag.toNat).charge * erf (n.d / q.params.gammaSqrt2 a.element n.element)
              * (q.params.fs.f n.d - 1) / (n.d * q.params.fourPiEps)).sum := by
    have hle : a.getStoredMinNumNeighbors q.fs.outer ≤ a.neighbors.length := ok.stored i hi'
    show ∑ k ∈ Finset.range (a.getStoredMinNumNeighbors q.fs.outer), _ = _
    generalize a.getStoredMinNumNeighbors q.fs.outer = m at hle
    induction m with
    | zero => simp
    | succ m ih =>
      rw [Finset.sum_range_succ, ih (by omega), List.take_add_one, List.map_append,
        List.sum_append, List.getElem?_eq_getElem (show m < a.neighbors.length by omega)]
      simp
  rw [e1]
  generalize a.neighbors.take (a.getStoredMinNumNeighbors q.fs.outer) = l at hf
  generalize imgs i = l' at hf
  clear e1 hW hs hb
  induction hf with
  | nil => rfl
  | @cons nb p l l' hp _ ih =>
    obtain ⟨ht, he, -, hd⟩ := describes_at hp
    rw [List.map_cons, List.sum_cons, ih, List.map_cons, List.sum_cons]
    congr 1
    rw [ht, Int.toNat_natCast]
    by_cases hj : p.1 < i
    · rw [if_pos hj, if_pos hj]
    · rw [if_neg hj, if_neg hj, hd, he, q.gammaSqrt2_eq, ha, Structure.atom_element]
      unfold Qeq.coulomb
      show _ * (q.fs.f _ - 1) / (_ * q.fourPiEps) = _
      ring

/-! ### Storing the charges changes nothing else -/

theorem storeCharges_get (A : ℕ → ℕ → ℝ) (Q : ℕ → ℝ) (i : ℕ) :
    (s.storeCharges A Q).atoms[i]? =
      (s.atoms[i]?).map fun (a : Atom) => if i < s.numAtoms then { a with charge := Q i } else a := by
  unfold Structure.storeCharges
  rw [List.getElem?_mapIdx]

theorem storeCharges_get' {A : ℕ → ℕ → ℝ} {Q : ℕ → ℝ} {i : ℕ} {b : Atom}
    (h : (s.storeCharges A Q).atoms[i]? = some b) : ∃ a, s.atoms[i]? = some a ∧
      b = if i < s.numAtoms then { a with charge := Q i } else a := by
  rw [storeCharges_get] at h
  obtain ⟨a, ha, rfl⟩ := Option.map_eq_some_iff.1 h
  exact ⟨a, ha, rfl⟩

theorem storeCharges_position (A : ℕ → ℕ → ℝ) (Q : ℕ → ℝ) (i : ℕ) :
    (s.storeCharges A Q).position i = s.position i := by
  unfold Structure.position
  rw [storeCharges_get]
  cases s.atoms[i]? with
  | none => rfl
  | some a => simp only [Option.map_some, Option.getD_some]; split_ifs <;> rfl

theorem storeCharges_elementOf (A : ℕ → ℕ → ℝ) (Q : ℕ → ℝ) (i : ℕ) :
    (s.storeCharges A Q).elementOf i = s.elementOf i := by
  unfold Structure.elementOf
  rw [storeCharges_get]
  cases s.atoms[i]? with
  | none => rfl
  | some a => simp only [Option.map_some, Option.getD_some]; split_ifs <;> rfl

theorem storeCharges_separation (A : ℕ → ℕ → ℝ) (Q : ℕ → ℝ) (i : ℕ) (p : ℕ × (Fin 3 → ℤ)) :
    (s.storeCharges A Q).separation i p = s.separation i p := by
  unfold Structure.separation
  rw [storeCharges_position, storeCharges_position]
  rfl

theorem storeCharges_describes {A : ℕ → ℕ → ℝ} {Q : ℕ → ℝ} {nb : Neighbor} {r : Vec3} {j : ℕ}
    {n : Fin 3 → ℤ} (h : nb.Describes s.box s.atoms r j n) :
    nb.Describes (s.storeCharges A Q).box (s.storeCharges A Q).atoms r j n := by
  obtain ⟨b, h1, h2, h3, h4, h5, h6⟩ := h
  refine ⟨if j < s.numAtoms then { b with charge := Q j } else b,
    by rw [storeCharges_get, h1]; rfl, h2, h3, ?_, ?_, h6⟩
  · rw [h4]; split_ifs <;> rfl
  · rw [h5]; split_ifs <;> rfl

theorem Structure.Listed.storeCharges {full : ℕ → List (ℕ × (Fin 3 → ℤ))} (h : s.Listed full)
    (A : ℕ → ℕ → ℝ) (Q : ℕ → ℝ) : (s.storeCharges A Q).Listed full := by
  have hlen := Structure.storeCharges_length (s := s) A Q
  refine ⟨h.sorted, fun b hb => ?_, fun i b hb => ?_, fun b hb => ?_,
    fun i hi => h.nodup i (hlen ▸ hi), fun i hi p hp => ?_⟩
  · obtain ⟨i, hi⟩ := List.getElem?_of_mem hb
    obtain ⟨a, ha, rfl⟩ := storeCharges_get' hi
    have := h.number a (List.mem_of_getElem? ha)
    split_ifs <;> exact this
  · obtain ⟨a, ha, rfl⟩ := storeCharges_get' hb
    have := (h.describes i a ha).imp fun nb p h => storeCharges_describes (A := A) (Q := Q) h
    split_ifs <;> exact this
  · obtain ⟨i, hi⟩ := List.getElem?_of_mem hb
    obtain ⟨a, ha, rfl⟩ := storeCharges_get' hi
    have := h.ordered a (List.mem_of_getElem? ha)
    split_ifs <;> exact this
  · have := h.partner i (hlen ▸ hi) p hp
    exact ⟨by rw [hlen]; exact this.1, this.2⟩

theorem storeCharges_stored (A : ℕ → ℕ → ℝ) (Q : ℕ → ℝ) (i : ℕ) (R : ℝ) :
    ((s.storeCharges A Q).atom i).getStoredMinNumNeighbors R =
      (s.atom i).getStoredMinNumNeighbors R := by
  unfold Structure.atom
  rw [List.getD_eq_getElem?_getD, List.getD_eq_getElem?_getD, storeCharges_get]
  cases s.atoms[i]? with
  | none => rfl
  | some a => simp only [Option.map_some, Option.getD_some]; split_ifs <;> rfl

theorem Structure.Stored.storeCharges {full imgs : ℕ → List (ℕ × (Fin 3 → ℤ))} {R : ℝ}
    (h : s.Stored full R imgs) (A : ℕ → ℕ → ℝ) (Q : ℕ → ℝ) :
    (s.storeCharges A Q).Stored full R imgs := by
  have hlen := Structure.storeCharges_length (s := s) A Q
  refine ⟨fun b hb => ?_, fun i hi => ?_, fun i hi => h.nodup i (hlen ▸ hi), fun i hi p hp => ?_,
    fun i hi p hp hd => ?_⟩
  · obtain ⟨i, hi⟩ := List.getElem?_of_mem hb
    obtain ⟨a, ha, rfl⟩ := storeCharges_get' hi
    have := h.le a (List.mem_of_getElem? ha)
    split_ifs <;> exact this
  · rw [storeCharges_stored]
    exact h.take i (hlen ▸ hi)
  · have := h.partner i (hlen ▸ hi) p hp
    exact ⟨by rw [hlen]; exact this.1, this.2⟩
  · refine h.complete i (hlen ▸ hi) p ⟨by rw [← hlen]; exact hp.1, hp.2⟩ ?_
    rwa [storeCharges_separation] at hd

theorem storeCharges_screenW (A : ℕ → ℕ → ℝ) (Q : ℕ → ℝ) (imgs : ℕ → List (ℕ × (Fin 3 → ℤ)))
    (i j : ℕ) : q.screenW (s.storeCharges A Q) imgs i j = q.screenW s imgs i j := by
  unfold Qeq.screenW
  simp only [storeCharges_separation, storeCharges_elementOf]

theorem storeCharges_charge (A : ℕ → ℕ → ℝ) (Q : ℕ → ℝ) {i : ℕ} (hi : i < s.atoms.length)
    (hn : s.numAtoms = s.atoms.length) : ((s.storeCharges A Q).atom i).charge = Q i := by
  rw [Structure.storeCharges_atom _ _ hi hn]

/-! ### The energy -/

variable {ls : LinSolve}

/-- The charge equilibration without derivatives. -/
theorem chargeEquilibration_false (hc : q.Covers s) (buf : ErfcBuf) :
    chargeEquilibration ls q s buf false = s.calculateElectrostaticEnergy ls q.params q.ewald buf := by
  unfold chargeEquilibration
  rw [if_neg (by
    rintro ⟨a, ha, h⟩
    have := hc a ha
    omega)]
  cases Structure.calculateElectrostaticEnergy ls q.params q.ewald s buf <;> rfl

theorem openScreening_store {A : ℕ → ℕ → ℝ} {Q : ℕ → ℝ} (hper : s.isPeriodic = false)
    (hn : s.numAtoms = s.atoms.length) :
    (s.storeCharges A Q).calculateScreeningEnergy q.params =
      some (∑ i ∈ Finset.range s.atoms.length, -(1 / 2 * (q.self (s.elementOf i) * Q i ^ 2)) +
        ∑ j ∈ Finset.range s.atoms.length, ∑ i ∈ Finset.range j, A i j *
          (q.fs.f (len (s.position i - s.position j)) - 1) * Q i * Q j) := by
  rw [openScreening_eq (by exact hper)]
  simp only [storeCharges_position, storeCharges_elementOf]
  show some (∑ i ∈ Finset.range s.numAtoms, _ + ∑ j ∈ Finset.range s.numAtoms, _) = _
  rw [hn]
  congr 2
  · refine Finset.sum_congr rfl fun i hi => ?_
    rw [storeCharges_charge _ _ (Finset.mem_range.1 hi) hn]
  · refine Finset.sum_congr rfl fun j hj => Finset.sum_congr rfl fun i hi => ?_
    have hj := Finset.mem_range.1 hj
    have hi := Finset.mem_range.1 hi
    rw [storeCharges_charge _ _ hj hn, storeCharges_charge _ _ (by omega) hn]
    rfl

theorem periodicScreening_store {A : ℕ → ℕ → ℝ} {Q : ℕ → ℝ} (hper : s.isPeriodic = true)
    (hn : s.numAtoms = s.atoms.length) {full imgs : ℕ → List (ℕ × (Fin 3 → ℤ))} (hl : s.Listed full)
    (hi : s.Stored full q.fs.outer imgs) :
    (s.storeCharges A Q).calculateScreeningEnergy q.params =
      some (∑ i ∈ Finset.range s.atoms.length,
        (-(1 / 2 * (q.self (s.elementOf i) * Q i ^ 2)) +
          ∑ j ∈ Finset.Ico i s.atoms.length, q.screenW s imgs i j * Q i * Q j)) := by
  have hlen := Structure.storeCharges_length (s := s) A Q
  rw [periodicScreening_eq (by exact hper) (by rw [hlen]; exact hn) (hl.storeCharges A Q)
    (hi.storeCharges A Q), hlen]
  congr 1
  refine Finset.sum_congr rfl fun i hi => ?_
  have hi := Finset.mem_range.1 hi
  rw [storeCharges_charge _ _ hi hn, storeCharges_elementOf]
  congr 1
  refine Finset.sum_congr rfl fun j hj => ?_
  have hj := (Finset.mem_Ico.1 hj).2
  rw [storeCharges_charge _ _ hj hn, storeCharges_screenW]

/-- Charges and energy after a run. -/
theorem qeq_energy {U : ℕ → ℝ} {V : ℕ → ℕ → ℝ} (hn : s.numAtoms = s.atoms.length)
    (hUV : q.IsInteraction s U V) {buf buf' : ErfcBuf} {d : Bool} {s' : Structure}
    (h : chargeEquilibration ls q s buf d = some (s', buf')) :
    ∃ B Q e, (∀ a b, a < s.atoms.length → b < s.atoms.length →
        B a b = symMat (fun i => q.J (s.elementOf i) + U i) V a b) ∧
      (∀ i < s.atoms.length, (s'.atom i).charge = Q i) ∧
      (s.storeCharges (borderMatrix s.numAtoms B) Q).calculateScreeningEnergy q.params = some e ∧
      s'.energyElec = Qeq.coulombEnergy s.atoms.length U V Q + e := by
  obtain ⟨s1, buf1, h1, hs⟩ := chargeEquilibration_inv h
  obtain ⟨B, buf2, -, hB, e⟩ := elecEnergy_eq ls hn hUV buf
  rw [e] at h1
  obtain ⟨x, hsc, hx⟩ := Option.map_eq_some_iff.1 h1
  replace hx := (Prod.mk.inj hx).1
  refine ⟨B, _, x, hB, fun i hi => ?_, hsc, ?_⟩
  · rw [(hs.atom i).1, ← hx]
    exact storeCharges_charge (borderMatrix s.numAtoms B) _ hi hn
  · rw [hs.energy, ← hx, ← matrixEnergy_eq hn hB]
    rfl

end N2P2
