import Verif.Lemma.ElecEnergyDeriv

/-! Charge equilibration with derivatives: what a run leaves in the structure. -/

namespace N2P2

variable {q : Qeq} {s : Structure} {ls : LinSolve}

/-! ### Directional derivatives -/

/-- Derivative along velocities `v`. -/
def alongV (n : ℕ) (v : ℕ → Vec3) : (ℕ → Vec3) →+ ℝ where
  toFun D := ∑ a ∈ Finset.range n, (D a).dot (v a)
  map_zero' := by simp [zero_dot]
  map_add' D E := by
    rw [← Finset.sum_add_distrib]
    exact Finset.sum_congr rfl fun a _ => add_dot _ _ _

/-- Derivative along changes `y` of the charges. -/
def alongQ (n : ℕ) (y : ℕ → ℝ) : (ℕ → ℝ) →+ ℝ where
  toFun d := ∑ a ∈ Finset.range n, d a * y a
  map_zero' := by simp
  map_add' D E := by
    rw [← Finset.sum_add_distrib]
    exact Finset.sum_congr rfl fun a _ => add_mul _ _ _

theorem alongV_single {n i : ℕ} (hi : i < n) (v : ℕ → Vec3) (w : Vec3) :
    alongV n v (Pi.single i w) = w.dot (v i) := by
  show ∑ a ∈ Finset.range n, ((Pi.single i w : ℕ → Vec3) a).dot (v a) = _
  rw [Finset.sum_eq_single i]
  · rw [Pi.single_eq_same]
  · intro a _ ha
    rw [Pi.single_eq_of_ne ha, zero_dot]
  · intro h
    exact absurd (Finset.mem_range.2 hi) h

theorem alongQ_single {n i : ℕ} (hi : i < n) (y : ℕ → ℝ) (x : ℝ) :
    alongQ n y (Pi.single i x) = x * y i := by
  show ∑ a ∈ Finset.range n, (Pi.single i x : ℕ → ℝ) a * y a = _
  rw [Finset.sum_eq_single i]
  · rw [Pi.single_eq_same]
  · intro a _ ha
    rw [Pi.single_eq_of_ne ha, zero_mul]
  · intro h
    exact absurd (Finset.mem_range.2 hi) h

theorem dot_sub (u v w : Vec3) : u.dot (v - w) = u.dot v - u.dot w := by
  simp only [Vec3.dot, Pi.sub_apply]
  ring

theorem energySums_alongV (P : ElecParams) (T : ℕ → ℕ → Vec3) (S : ℕ → ℕ → ℝ) (v : ℕ → Vec3) :
    alongV s.numAtoms v (energySums P s T S).1 =
      ∑ i ∈ Finset.range s.numAtoms, (∑ j ∈ Finset.range s.numAtoms,
        1 / 2 * (s.atom j).charge * ((s.atom i).dAdrQ.getD j 0).dot (v i) +
      ∑ j ∈ Finset.Ico i s.numAtoms, (T i j).dot (v i - v j)) := by
  unfold energySums
  rw [Prod.fst_sum, map_sum]
  refine Finset.sum_congr rfl fun i hi => ?_
  have hi := Finset.mem_range.1 hi
  rw [Prod.fst_add, map_add, Prod.fst_sum, map_sum, alongV_single hi]
  congr 1
  · rw [sum_dot]
    exact Finset.sum_congr rfl fun j _ => smul_dot _ _ _
  · refine Finset.sum_congr rfl fun j hj => ?_
    have hj := (Finset.mem_Ico.1 hj).2
    unfold pairTS
    dsimp only
    rw [map_sub, alongV_single hi, alongV_single hj, dot_sub]

theorem energySums_alongQ (P : ElecParams) (T : ℕ → ℕ → Vec3) (S : ℕ → ℕ → ℝ) (y : ℕ → ℝ) :
    alongQ s.numAtoms y (energySums P s T S).2 =
      ∑ i ∈ Finset.range s.numAtoms, (y i * (∑ j ∈ Finset.range s.numAtoms,
        chargeCoeff P s i j * (s.atom j).charge) +
      ∑ j ∈ Finset.Ico i s.numAtoms,
        S i j * ((s.atom i).charge * y j + (s.atom j).charge * y i)) := by
  unfold energySums
  rw [Prod.snd_sum, map_sum]
  refine Finset.sum_congr rfl fun i hi => ?_
  have hi := Finset.mem_range.1 hi
  rw [Prod.snd_add, map_add, Prod.snd_sum, map_sum, alongQ_single hi, mul_comm]
  congr 1
  refine Finset.sum_congr rfl fun j hj => ?_
  have hj := (Finset.mem_Ico.1 hj).2
  unfold pairTS
  dsimp only
  rw [map_add, alongQ_single hi, alongQ_single hj]
  ring

theorem sum_two {n i j : ℕ} (hi : i < n) (hj : j < n) (hij : i ≠ j) (x y : ℝ) (f : ℕ → ℝ) :
    ∑ a ∈ Finset.range n, (if a = i then x else if a = j then y else 0) * f a =
      x * f i + y * f j := by
  rw [← Finset.add_sum_erase _ _ (Finset.mem_range.2 hi), if_pos rfl,
    ← Finset.add_sum_erase _ _ (Finset.mem_erase.2 ⟨hij.symm, Finset.mem_range.2 hj⟩),
    if_neg hij.symm, if_pos rfl, Finset.sum_eq_zero, add_zero]
  intro a ha
  obtain ⟨h1, h2⟩ := Finset.mem_erase.1 ha
  rw [if_neg (Finset.mem_erase.1 h2).1, if_neg h1, zero_mul]

theorem pairD_along (Q : ℕ → ℝ) {n i j : ℕ} (hi : i < n) (hj : j < n) (hij : i ≠ j) (w : Vec3)
    (v : ℕ → Vec3) (y : ℕ → ℝ) :
    ∑ b ∈ Finset.range n, y b * ∑ a ∈ Finset.range n, (pairD Q i j w a b).dot (v a) =
      w.dot (v i - v j) * (Q i * y j + Q j * y i) := by
  have h : ∀ b, ∑ a ∈ Finset.range n, (pairD Q i j w a b).dot (v a) =
      (if b = i then Q j else if b = j then Q i else 0) * w.dot (v i - v j) := by
    intro b
    have : ∀ a ∈ Finset.range n, (pairD Q i j w a b).dot (v a) =
        (if a = i then (1 : ℝ) else if a = j then -1 else 0) *
          ((if b = i then Q j else if b = j then Q i else 0) * w.dot (v a)) := by
      intro a _
      unfold pairD
      rw [smul_dot, mul_assoc]
    rw [Finset.sum_congr rfl this, sum_two hi hj hij, dot_sub]
    ring
  have h2 : ∀ b ∈ Finset.range n, y b * ∑ a ∈ Finset.range n, (pairD Q i j w a b).dot (v a) =
      (if b = i then Q j else if b = j then Q i else 0) * (w.dot (v i - v j) * y b) := by
    intro b _
    rw [h]
    ring
  rw [Finset.sum_congr rfl h2, sum_two hi hj hij]
  ring

theorem totalD_along (Q : ℕ → ℝ) (n : ℕ) (g : ℕ → ℕ → Vec3) (v : ℕ → Vec3) (y : ℕ → ℝ) :
    ∑ b ∈ Finset.range n, y b * ∑ a ∈ Finset.range n, (totalD Q n g a b).dot (v a) =
      ∑ j ∈ Finset.range n, ∑ i ∈ Finset.range j,
        (g i j).dot (v i - v j) * (Q i * y j + Q j * y i) := by
  let L : (ℕ → ℕ → Vec3) →+ ℝ :=
    { toFun := fun D => ∑ b ∈ Finset.range n, y b * ∑ a ∈ Finset.range n, (D a b).dot (v a)
      map_zero' := by simp [zero_dot]
      map_add' := fun D E => by
        rw [← Finset.sum_add_distrib]
        refine Finset.sum_congr rfl fun b _ => ?_
        rw [← mul_add, ← Finset.sum_add_distrib]
        congr 1
        exact Finset.sum_congr rfl fun a _ => add_dot _ _ _ }
  show L (totalD Q n g) = _
  unfold totalD
  rw [map_sum, ← sum_upper]
  refine Finset.sum_congr rfl fun i hi => ?_
  rw [map_sum]
  refine Finset.sum_congr rfl fun j hj => ?_
  have hj := Finset.mem_Ico.1 hj
  exact pairD_along Q (by omega) (by omega) (by omega) _ v y

/-- One column of the derivatives: the change of the potential. -/
theorem totalD_column (Q : ℕ → ℝ) {n b : ℕ} (hb : b < n) (g : ℕ → ℕ → Vec3) (v : ℕ → Vec3) :
    ∑ a ∈ Finset.range n, (totalD Q n g a b).dot (v a) =
      ∑ j ∈ (Finset.range n).erase b,
        (g (min b j) (max b j)).dot (v (min b j) - v (max b j)) * Q j := by
  have h := totalD_along Q n g v (Pi.single b 1)
  have h2 := sum_symMat (fun _ => 0) (fun i j => (g i j).dot (v i - v j)) n Q (Pi.single b 1)
  have one : ∀ f : ℕ → ℝ, ∑ i ∈ Finset.range n, (Pi.single b 1 : ℕ → ℝ) i * f i = f b := by
    intro f
    rw [Finset.sum_eq_single b]
    · rw [Pi.single_eq_same, one_mul]
    · intro a _ ha
      rw [Pi.single_eq_of_ne ha, zero_mul]
    · intro h
      exact absurd (Finset.mem_range.2 hb) h
  rw [one] at h
  rw [one (fun i => ∑ j ∈ Finset.range n, symMat (fun _ => 0) (fun i j => (g i j).dot (v i - v j)) i j
    * Q j), symMat_row _ _ _ _ hb] at h2
  rw [h]
  simp only [zero_mul, Finset.sum_const_zero, zero_add] at h2
  exact h2.symm

/-! ### A run -/

namespace Structure

/-- The structure after `calculateDAdrQ`. -/
def withDAdrQ (s : Structure) (D : ℕ → ℕ → Vec3) : Structure :=
  { s with
    atoms := s.atoms.mapIdx fun i (a : Atom) => if i < s.numAtoms then
      { a with dAdrQ := (List.range (s.numAtoms + 1)).map (D i) } else a }

/-- The structure after `calculateElectrostaticEnergyDerivatives`. -/
def withDerivs (s : Structure) (st : (ℕ → Vec3) × (ℕ → ℝ)) : Structure :=
  { s with
    atoms := s.atoms.mapIdx fun i (a : Atom) =>
      { a with
        pEelecpr := st.1 i
        dEelecdQ := st.2 i } }

theorem SameLists.withDAdrQ (s : Structure) (D : ℕ → ℕ → Vec3) : s.SameLists (s.withDAdrQ D) := by
  refine of_mapIdx (fun i (a : Atom) => if i < s.numAtoms then
      { a with dAdrQ := (List.range (s.numAtoms + 1)).map (D i) } else a)
    (fun i a => ?_) rfl rfl rfl rfl rfl
  split_ifs <;> exact ⟨rfl, rfl, rfl, rfl, rfl⟩

theorem SameLists.withDerivs (s : Structure) (st : (ℕ → Vec3) × (ℕ → ℝ)) :
    s.SameLists (s.withDerivs st) :=
  of_mapIdx (fun i (a : Atom) =>
      { a with
        pEelecpr := st.1 i
        dEelecdQ := st.2 i })
    (fun _ _ => ⟨rfl, rfl, rfl, rfl, rfl⟩) rfl rfl rfl rfl rfl

theorem withDAdrQ_atom (D : ℕ → ℕ → Vec3) {i : ℕ} (hi : i < s.atoms.length)
    (hn : s.numAtoms = s.atoms.length) : (s.withDAdrQ D).atom i =
      { s.atom i with dAdrQ := (List.range (s.atoms.length + 1)).map (D i) } := by
  unfold Structure.atom Structure.withDAdrQ
  simp only [List.getD_eq_getElem?_getD, List.getElem?_mapIdx]
  rw [List.getElem?_eq_getElem hi]
  simp only [Option.map_some, Option.getD_some]
  rw [if_pos (hn ▸ hi), hn]

theorem withDerivs_atom (st : (ℕ → Vec3) × (ℕ → ℝ)) {i : ℕ} (hi : i < s.atoms.length) :
    (s.withDerivs st).atom i =
      { s.atom i with
        pEelecpr := st.1 i
        dEelecdQ := st.2 i } := by
  unfold Structure.atom Structure.withDerivs
  simp only [List.getD_eq_getElem?_getD, List.getElem?_mapIdx]
  rw [List.getElem?_eq_getElem hi]
  rfl

theorem storeCharges_dAdrQ (A : ℕ → ℕ → ℝ) (Q : ℕ → ℝ) (e : ℝ) (i : ℕ) :
    (((s.storeCharges A Q).withElec e).atom i).dAdrQ = (s.atom i).dAdrQ := by
  show (((s.storeCharges A Q)).atom i).dAdrQ = _
  unfold Structure.atom Structure.storeCharges
  simp only [List.getD_eq_getElem?_getD, List.getElem?_mapIdx]
  cases s.atoms[i]? with
  | none => rfl
  | some a => simp only [Option.map_some, Option.getD_some]; split_ifs <;> rfl

end Structure

theorem screening_some {W : Structure → ℕ → ℕ → ℝ} (hn : s.numAtoms = s.atoms.length)
    (hW : q.IsScreening s W) (A : ℕ → ℕ → ℝ) (Q : ℕ → ℝ) :
    ∃ e, (s.storeCharges A Q).calculateScreeningEnergy q.params = some e := by
  cases hW with
  | cluster hp => exact ⟨_, openScreening_store hp hn⟩
  | periodic hp full imgs hl hi => exact ⟨_, periodicScreening_store hp hn hl hi⟩

theorem Structure.SameLists.screening {s s' : Structure} {W : Structure → ℕ → ℕ → ℝ}
    (h : s.SameLists s') (hW : q.IsScreening s W) : q.IsScreening s' W := by
  cases hW with
  | cluster hp => exact .cluster (h.per.trans hp)
  | periodic hp full imgs hl hi => exact .periodic (h.per.trans hp) full imgs (h.listed hl) (h.storedList hi)

theorem Structure.SameLists.screening_eq {s s' s0 : Structure} {W : Structure → ℕ → ℕ → ℝ}
    (h : s.SameLists s') (hW : q.IsScreening s0 W) : W s' = W s := by
  cases hW with
  | cluster hp =>
    funext i j
    unfold Qeq.openW Qeq.openV
    rw [h.elementOf, h.elementOf, h.position, h.position]
  | periodic hp full imgs hl hi => exact h.screenW_eq imgs

theorem sum_diag {n : ℕ} (f : ℕ → ℕ → ℝ) :
    ∑ i ∈ Finset.range n, ∑ j ∈ Finset.Ico i n, f i j =
      ∑ i ∈ Finset.range n, f i i + ∑ j ∈ Finset.range n, ∑ i ∈ Finset.range j, f i j := by
  rw [← sum_upper, ← Finset.sum_add_distrib]
  refine Finset.sum_congr rfl fun i hi => ?_
  rw [Finset.sum_eq_sum_Ico_succ_bot (Finset.mem_range.1 hi)]

/-- What a run with derivatives leaves in the structure `s'`. -/
structure QeqRun (ls : LinSolve) (q : Qeq) (s : Structure) (U : Structure → ℕ → ℝ)
    (V W : Structure → ℕ → ℕ → ℝ) (s' : Structure) (B : ℕ → ℕ → ℝ) (Q : ℕ → ℝ)
    (g T : ℕ → ℕ → Vec3) : Prop where
  lists : s.SameLists s'
  B_eq : ∀ a b, a < s.atoms.length → b < s.atoms.length →
    B a b = symMat (fun i => q.J (s.elementOf i) + U s i) (V s) a b
  A : s'.A = borderMatrix s.atoms.length B
  Q_eq : Q = ls.run (s.atoms.length + 1) (borderMatrix s.atoms.length B) s.qeqRhs
  charge : ∀ i < s.atoms.length, (s'.atom i).charge = Q i
  dAdrQ : ∀ i < s.atoms.length, (s'.atom i).dAdrQ =
    (List.range (s.atoms.length + 1)).map (totalD Q s.atoms.length g i)
  grad : ∀ r v t0, s.Moves r v t0 → ∀ i j, i < j → j < s.atoms.length →
    HasDerivAt (fun t => V (s.at r t) i j) ((g i j).dot (v i - v j)) t0
  screen : ∀ r v t0, s.Moves r v t0 → ∀ i j, i ≤ j → j < s.atoms.length →
    HasDerivAt (fun t => Q i * Q j * W (s.at r t) i j) ((T i j).dot (v i - v j)) t0
  along_r : ∀ v : ℕ → Vec3, ∑ i ∈ Finset.range s.atoms.length, (s'.atom i).pEelecpr.dot (v i) =
    ∑ j ∈ Finset.range s.atoms.length, ∑ i ∈ Finset.range j,
      ((g i j).dot (v i - v j) * (Q i * Q j) + (T i j).dot (v i - v j))
  along_Q : ∀ y : ℕ → ℝ, ∑ i ∈ Finset.range s.atoms.length, (s'.atom i).dEelecdQ * y i =
    ∑ i ∈ Finset.range s.atoms.length,
      (U s i - q.self (s.elementOf i) + 2 * W s i i) * Q i * y i +
    ∑ j ∈ Finset.range s.atoms.length, ∑ i ∈ Finset.range j,
      (V s i j + W s i j) * (Q i * y j + Q j * y i)

theorem qeq_run {U : Structure → ℕ → ℝ} {V W : Structure → ℕ → ℕ → ℝ} {ri ro : ℝ}
    (hn : s.numAtoms = s.atoms.length) (hc : q.Covers s) (hUV : q.IsField s U V)
    (hW : q.IsScreening s W) (hfs : q.fs.Configured ri ro) (hap : s.Apart)
    (hfresh : ∀ a ∈ s.atoms, a.dAdrQ = []) (buf : ErfcBuf) :
    ∃ s' buf' B Q g T, chargeEquilibration ls q s buf true = some (s', buf') ∧
      QeqRun ls q s U V W s' B Q g T := by
  obtain ⟨B, buf1, hb, hB, e⟩ := elecEnergy_eq ls hn hUV.interaction buf
  dsimp only at e
  rw [hn] at e
  set n := s.atoms.length with hnd
  set A := borderMatrix n B with hA
  set Q := ls.run (n + 1) A s.qeqRhs with hQ
  obtain ⟨es, hes⟩ := screening_some hn hW A Q
  rw [hes, Option.map_some] at e
  generalize matrixEnergy q.params s A Q + es = E at e
  -- charges
  generalize hs1 : (s.storeCharges A Q).withElec E = s1 at e
  have l1 : s.SameLists s1 := hs1 ▸ Structure.SameLists.storeCharges s A Q E
  have n1 : s1.numAtoms = s1.atoms.length := by rw [l1.num, l1.count, hn]
  have c1 : ∀ i < n, (s1.atom i).charge = Q i := by
    intro i hi
    rw [← hs1]
    exact storeCharges_charge A Q hi hn
  have hf0 : ∀ i, (s.atom i).dAdrQ = [] := by
    intro i
    by_cases hi : i < n
    · exact hfresh _ (List.mem_of_getElem? (Structure.atom_get hi))
    · unfold Structure.atom
      rw [List.getD_eq_getElem?_getD, List.getElem?_eq_none (by omega)]
      rfl
  have f1 : ∀ i, (s1.atom i).dAdrQ = [] := by
    intro i
    rw [← hs1, Structure.storeCharges_dAdrQ, hf0]
  have A1 : s1.A = A := by rw [← hs1]; rfl
  -- derivatives of the matrix
  obtain ⟨g, buf2, e2, hg⟩ := matrixDeriv_eq (q := q) n1 (l1.field hUV) (l1.apart hap)
    (D := fun i j => (s1.atom i).dAdrQ.getD j 0) (fun a b _ => by rw [f1]; rfl)
    (buf := buf1) (by rw [l1.erfcArg]; exact l1.holds hb)
  have hD0 : (fun i j => (s1.atom i).dAdrQ.getD j 0) = (0 : ℕ → ℕ → Vec3) := by
    funext i j
    rw [f1]
    rfl
  have hD1 : totalD (fun i => (s1.atom i).charge) s1.atoms.length g = totalD Q n g := by
    rw [l1.count]
    unfold totalD
    refine Finset.sum_congr rfl fun i hi => Finset.sum_congr rfl fun j hj => ?_
    have hi := Finset.mem_range.1 hi
    have hj := (Finset.mem_Ico.1 hj).2
    unfold pairD
    dsimp only
    rw [c1 i hi, c1 j hj]
  rw [hD1, hD0, zero_add] at e2
  have e3 : s1.calculateDAdrQ q.params q.ewald buf1 = some (s1.withDAdrQ (totalD Q n g), buf2) := by
    unfold Structure.calculateDAdrQ
    rw [if_neg (by omega)]
    dsimp only
    rw [hD0, e2]
    rfl
  generalize hs2 : s1.withDAdrQ (totalD Q n g) = s2 at e3
  have l2' : s1.SameLists s2 := hs2 ▸ Structure.SameLists.withDAdrQ s1 _
  have l2 : s.SameLists s2 := l1.trans l2'
  have n2 : s2.numAtoms = s2.atoms.length := by rw [l2.num, l2.count, hn]
  have a2 : ∀ i < n, (s2.atom i).charge = Q i ∧
      (s2.atom i).dAdrQ = (List.range (n + 1)).map (totalD Q n g i) := by
    intro i hi
    rw [← hs2, Structure.withDAdrQ_atom _ (by rw [l1.count]; exact hi) n1, l1.count]
    exact ⟨c1 i hi, rfl⟩
  have A2 : s2.A = A := by rw [← hs2]; exact A1
  -- derivatives of the energy
  obtain ⟨T, S, e4, hS, hT⟩ := energyLoop_eq n2 hfs (l2.screening hW) (l2.apart hap)
  have e5 : s2.calculateElectrostaticEnergyDerivatives q.params =
      some (s2.withDerivs (energySums q.params s2 T S)) := by
    unfold Structure.calculateElectrostaticEnergyDerivatives
    rw [if_neg, e4]
    · rfl
    · rintro (h | ⟨i, hi, h⟩)
      · omega
      · rw [n2, l2.count] at hi
        rw [(a2 i hi).2, n2, l2.count] at h
        simp at h
        omega
  have N : s2.numAtoms = n := by rw [n2, l2.count]
  have st : ∀ i < n, ((s2.withDerivs (energySums q.params s2 T S)).atom i) =
      { s2.atom i with
        pEelecpr := (energySums q.params s2 T S).1 i
        dEelecdQ := (energySums q.params s2 T S).2 i } := fun i hi =>
    Structure.withDerivs_atom _ (by rw [l2.count]; exact hi)
  refine ⟨s2.withDerivs (energySums q.params s2 T S), buf2, B, Q, g, T, ?_,
    l2.trans (Structure.SameLists.withDerivs _ _), hB, A2, hQ, fun i hi => ?_, fun i hi => ?_, ?_, ?_,
    ?_, ?_⟩
  · unfold chargeEquilibration
    rw [if_neg (by
      rintro ⟨a, ha, h⟩
      have := hc a ha
      omega), e]
    simp only [Option.bind_eq_bind, Option.bind_some, if_true]
    rw [e3]
    simp only [Option.bind_some]
    rw [e5]
    rfl
  · rw [st i hi]
    exact (a2 i hi).1
  · rw [st i hi]
    exact (a2 i hi).2
  · intro r v t0 hm i j hij hj
    have := hg r v t0 (l1.moves hm) i j hij (by rw [l1.count]; exact hj)
    have e : ∀ t, V (s1.at r t) = V (s.at r t) := fun t => ((l1.at r t).field_eq hUV).2
    simp only [e] at this
    exact this
  · intro r v t0 hm i j hij hj
    have := hT r v t0 (l2.moves hm) i j hij (by rw [l2.count]; exact hj)
    have e : ∀ t, W (s2.at r t) = W (s.at r t) := fun t => (l2.at r t).screening_eq hW
    simp only [e] at this
    rwa [(a2 i (by omega)).1, (a2 j hj).1] at this
  · intro v
    have h1 : ∑ i ∈ Finset.range n,
        ((s2.withDerivs (energySums q.params s2 T S)).atom i).pEelecpr.dot (v i) =
        alongV s2.numAtoms v (energySums q.params s2 T S).1 := by
      rw [N]
      refine Finset.sum_congr rfl fun i hi => ?_
      rw [st i (Finset.mem_range.1 hi)]
    rw [h1, energySums_alongV, N, Finset.sum_add_distrib, sum_diag]
    have h2 : ∑ i ∈ Finset.range n, (T i i).dot (v i - v i) = 0 := by
      refine Finset.sum_eq_zero fun i _ => ?_
      rw [dot_sub, sub_self]
    have h3 : ∑ i ∈ Finset.range n, ∑ j ∈ Finset.range n,
        1 / 2 * (s2.atom j).charge * ((s2.atom i).dAdrQ.getD j 0).dot (v i) =
        1 / 2 * ∑ j ∈ Finset.range n, Q j * ∑ i ∈ Finset.range n,
          (totalD Q n g i j).dot (v i) := by
      rw [Finset.sum_comm, Finset.mul_sum]
      refine Finset.sum_congr rfl fun j hj => ?_
      have hj := Finset.mem_range.1 hj
      rw [Finset.mul_sum, Finset.mul_sum]
      refine Finset.sum_congr rfl fun i hi => ?_
      have hi := Finset.mem_range.1 hi
      rw [(a2 i hi).2, (a2 j hj).1]
      simp only [List.getD_eq_getElem?_getD, List.getElem?_map,
        List.getElem?_range (show j < n + 1 by omega), Option.map_some, Option.getD_some]
      ring
    rw [h2, h3, zero_add, totalD_along, Finset.mul_sum, ← Finset.sum_add_distrib]
    refine Finset.sum_congr rfl fun j _ => ?_
    rw [Finset.mul_sum, ← Finset.sum_add_distrib]
    refine Finset.sum_congr rfl fun i _ => ?_
    ring
  · intro y
    have h1 : ∑ i ∈ Finset.range n,
        ((s2.withDerivs (energySums q.params s2 T S)).atom i).dEelecdQ * y i =
        alongQ s2.numAtoms y (energySums q.params s2 T S).2 := by
      rw [N]
      refine Finset.sum_congr rfl fun i hi => ?_
      rw [st i (Finset.mem_range.1 hi)]
    have hcoef : ∀ i < n, ∀ j < n, chargeCoeff q.params s2 i j =
        symMat (fun i => U s i - q.self (s.elementOf i)) (V s) i j := by
      intro i hi j hj
      unfold chargeCoeff
      have hAB : ∀ k < n, A i k =
          symMat (fun i => q.J (s.elementOf i) + U s i) (V s) i k := fun k hk => by
        rw [hA, borderMatrix_apply, if_neg (by omega), if_neg (by omega), hB i k hi hk]
      rw [A2, hAB i hi, hAB j hj, (l2.atom i).2.1, Structure.atom_element]
      unfold symMat
      by_cases h : i = j
      · subst h
        simp only [ne_eq, not_true_eq_false, if_false, if_true]
        have hself : 1 / (q.params.sigmaSqrtPi (s.elementOf i) * q.params.fourPiEps) =
            q.self (s.elementOf i) := by
          unfold Qeq.self
          rw [mul_comm]
          rfl
        rw [hself, l2.per]
        show (if _ then q.J _ + U s i - q.J _ - _ else _) = _
        cases hUV with
        | cluster hp =>
          rw [if_neg (by simp [hp])]
          unfold Qeq.openU
          ring
        | ewald hp =>
          rw [if_pos hp]
          ring
      · simp only [ne_eq, h, not_false_eq_true, if_true, if_false]
    rw [h1, energySums_alongQ, N, Finset.sum_add_distrib, sum_diag]
    have h2 : ∑ i ∈ Finset.range n, y i * (∑ j ∈ Finset.range n,
          chargeCoeff q.params s2 i j * (s2.atom j).charge) =
        ∑ i ∈ Finset.range n, y i * ∑ j ∈ Finset.range n,
          symMat (fun i => U s i - q.self (s.elementOf i)) (V s) i j * Q j := by
      refine Finset.sum_congr rfl fun i hi => ?_
      congr 1
      refine Finset.sum_congr rfl fun j hj => ?_
      rw [hcoef i (Finset.mem_range.1 hi) j (Finset.mem_range.1 hj), (a2 j (Finset.mem_range.1 hj)).1]
    have h3 : ∑ i ∈ Finset.range n, S i i * ((s2.atom i).charge * y i + (s2.atom i).charge * y i) =
        ∑ i ∈ Finset.range n, 2 * W s i i * Q i * y i := by
      refine Finset.sum_congr rfl fun i hi => ?_
      have hi := Finset.mem_range.1 hi
      rw [hS i i le_rfl (by rw [l2.count]; exact hi), (a2 i hi).1, l2.screening_eq hW]
      ring
    have h4 : ∑ j ∈ Finset.range n, ∑ i ∈ Finset.range j,
        S i j * ((s2.atom i).charge * y j + (s2.atom j).charge * y i) =
        ∑ j ∈ Finset.range n, ∑ i ∈ Finset.range j, W s i j * (Q i * y j + Q j * y i) := by
      refine Finset.sum_congr rfl fun j hj => Finset.sum_congr rfl fun i hi => ?_
      have hj := Finset.mem_range.1 hj
      have hi := Finset.mem_range.1 hi
      rw [hS i j hi.le (by rw [l2.count]; exact hj), (a2 i (by omega)).1, (a2 j hj).1,
        l2.screening_eq hW]
    rw [h2, h3, h4, sum_symMat, add_add_add_comm, ← Finset.sum_add_distrib, ← Finset.sum_add_distrib]
    congr 1
    · exact Finset.sum_congr rfl fun i _ => by ring
    · refine Finset.sum_congr rfl fun j _ => ?_
      rw [← Finset.sum_add_distrib]
      exact Finset.sum_congr rfl fun i _ => by ring

end N2P2
