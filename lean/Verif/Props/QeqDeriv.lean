import Verif.Lemma.ElecRun
import Verif.Props.Qeq

/-! C79, C80: derivatives of the electrostatic potentials and of the electrostatic energy. -/

namespace N2P2

variable {ls : LinSolve} {q : Qeq} {s s' : Structure} {U : Structure → ℕ → ℝ}
  {V W : Structure → ℕ → ℕ → ℝ} {buf buf' : ErfcBuf} {ri ro : ℝ}

theorem potential_deriv {r : ℕ → ℝ → Vec3} {v : ℕ → Vec3} {t0 : ℝ} {Q : ℕ → ℝ} {g : ℕ → ℕ → Vec3}
    (hg : ∀ i j, i < j → j < s.atoms.length →
      HasDerivAt (fun t => V (s.at r t) i j) ((g i j).dot (v i - v j)) t0) {j : ℕ}
    (hj : j < s.atoms.length) :
    HasDerivAt (fun t => Qeq.potential s (V (s.at r t)) Q j)
      (∑ i ∈ Finset.range s.atoms.length, (totalD Q s.atoms.length g i j).dot (v i)) t0 := by
  rw [totalD_column Q hj]
  unfold Qeq.potential
  refine HasDerivAt.fun_sum fun k hk => ?_
  obtain ⟨h1, h2⟩ := Finset.mem_erase.1 hk
  have h2 := Finset.mem_range.1 h2
  exact (hg _ _ (by omega) (by omega)).mul_const _

/-- C79: after a charge equilibration with derivatives, entry `j` of `dAdrQ` of atom `i` is the
gradient, with respect to the position of atom `i`, of the potential at atom `j` of the other charges,
at fixed charges: along every motion of the atoms, the potential changes with the rate given by these
entries. Missing: structures which were evaluated before; there it is false (`C79_repeated`). -/
theorem C79_potential_partial (hn : s.numAtoms = s.atoms.length) (hc : q.Covers s) (hUV : q.IsField s U V)
    (hW : q.IsScreening s W) (hfs : q.fs.Configured ri ro) (hap : s.Apart)
    (hfresh : ∀ a ∈ s.atoms, a.dAdrQ = [])
    (he : chargeEquilibration ls q s buf true = some (s', buf')) :
    (∀ i < s.atoms.length, (s'.atom i).dAdrQ.length = s.atoms.length + 1) ∧
    ∀ r v t0, s.Moves r v t0 → ∀ j < s.atoms.length,
      HasDerivAt (fun t => Qeq.potential s (V (s.at r t)) (fun i => (s'.atom i).charge) j)
        (∑ i ∈ Finset.range s.atoms.length, ((s'.atom i).dAdrQ.getD j 0).dot (v i)) t0 := by
  obtain ⟨s1, buf1, B, Q, g, T, h1, R⟩ := qeq_run (ls := ls) hn hc hUV hW hfs hap hfresh buf
  rw [he] at h1
  cases h1
  refine ⟨fun i hi => by rw [R.dAdrQ i hi]; simp, fun r v t0 hm j hj => ?_⟩
  have := potential_deriv (Q := Q) (R.grad r v t0 hm) hj
  have e : (fun t => Qeq.potential s (V (s.at r t)) (fun i => (s'.atom i).charge) j) =
      fun t => Qeq.potential s (V (s.at r t)) Q j := by
    funext t
    unfold Qeq.potential
    refine Finset.sum_congr rfl fun k hk => ?_
    dsimp only
    rw [R.charge k (Finset.mem_range.1 (Finset.mem_erase.1 hk).2)]
  rw [e]
  refine this.congr_deriv (Finset.sum_congr rfl fun i hi => ?_)
  rw [R.dAdrQ i (Finset.mem_range.1 hi)]
  simp only [List.getD_eq_getElem?_getD, List.getElem?_map,
    List.getElem?_range (show j < s.atoms.length + 1 by omega), Option.map_some, Option.getD_some]

/-! ### Energy -/

theorem field_self (hUV : q.IsField s U V) (r : ℕ → ℝ → Vec3) (t : ℝ) {i : ℕ}
    (hi : i < s.atoms.length) : U (s.at r t) i = U s i := by
  cases hUV with
  | cluster h =>
    unfold Qeq.openU
    rw [at_elementOf]
  | ewald h hbox hk full imgs hl hst S hS =>
    dsimp only
    unfold Qeq.ewaldU
    rw [at_elementOf]
    congr 1
    · congr 1
      unfold Qeq.ewaldReal
      congr 1
      refine List.map_congr_left fun p hp => ?_
      obtain ⟨hp1, hp2⟩ := List.mem_filter.1 hp
      have hp2 : p.1 = i := by simpa using hp2
      have : (s.at r t).separation i p = s.separation i p := by
        rw [at_separation t hi (hp2 ▸ hi), hp2, sub_self]
        unfold Structure.separation
        rw [hp2, sub_self]
      rw [this, at_elementOf]
    · unfold Qeq.ewaldRecip
      rw [sub_self, sub_self]
      rfl

theorem screening_self (hW : q.IsScreening s W) (r : ℕ → ℝ → Vec3) (t : ℝ) {i : ℕ}
    (hi : i < s.atoms.length) : W (s.at r t) i i = W s i i := by
  cases hW with
  | cluster h => simp [Qeq.openW]
  | periodic h full imgs hl hst =>
    dsimp only
    unfold Qeq.screenW
    congr 1
    refine List.map_congr_left fun p hp => ?_
    obtain ⟨hp1, hp2⟩ := List.mem_filter.1 hp
    have hp2 : p.1 = i := by simpa using hp2
    have : (s.at r t).separation i p = s.separation i p := by
      rw [at_separation t hi (hp2 ▸ hi), hp2, sub_self]
      unfold Structure.separation
      rw [hp2, sub_self]
    rw [this, at_elementOf]

theorem storedEnergy_congr {x y : ℕ → ℝ} (U0 : ℕ → ℝ) (V0 W0 : ℕ → ℕ → ℝ)
    (h : ∀ i < s.atoms.length, x i = y i) :
    q.storedEnergy s U0 V0 W0 x = q.storedEnergy s U0 V0 W0 y := by
  unfold Qeq.storedEnergy Qeq.coulombEnergy
  congr 1
  · congr 1
    exact Finset.sum_congr rfl fun i hi => by rw [h i (Finset.mem_range.1 hi)]
  · refine Finset.sum_congr rfl fun j hj => Finset.sum_congr rfl fun i hi => ?_
    have hj := Finset.mem_range.1 hj
    have hi := Finset.mem_range.1 hi
    rw [h i (by omega), h j hj]

/-- C80: the energy which the code stores is a function of the positions and of the charges. -/
theorem C80_energy (hn : s.numAtoms = s.atoms.length) (hUV : q.IsField s U V)
    (hW : q.IsScreening s W) {d : Bool}
    (he : chargeEquilibration ls q s buf d = some (s', buf')) :
    s'.energyElec = q.storedEnergy s (U s) (V s) (W s) (fun i => (s'.atom i).charge) := by
  cases hW with
  | cluster hp =>
    cases hUV with
    | ewald hp' => rw [hp] at hp'; cases hp'
    | cluster _ =>
      rw [C78_cluster hn hp he]
      unfold Qeq.openEnergy Qeq.storedEnergy Qeq.coulombEnergy
      rw [Finset.sum_eq_zero (s := Finset.range s.atoms.length)
        (f := fun i => (q.openU s i - q.self (s.elementOf i) + 2 * q.openW s i i) * _)
        (fun i _ => by unfold Qeq.openU Qeq.openW; rw [if_pos rfl]; ring), mul_zero, zero_add]
      refine Finset.sum_congr rfl fun j hj => Finset.sum_congr rfl fun i hi => ?_
      have hi := Finset.mem_range.1 hi
      dsimp only
      unfold Qeq.openW
      rw [if_neg (by omega)]
      ring
  | periodic hp full imgs hl hst =>
    rw [C78_own_images hn hp hUV.interaction hl hst he]
    unfold Qeq.periodicEnergy Qeq.storedEnergy Qeq.coulombEnergy
    rw [add_right_comm, ← mul_add, ← Finset.sum_add_distrib]
    congr 2
    exact Finset.sum_congr rfl fun i _ => by ring

/-- C80: `pEelecpr` of an atom is the gradient of the stored energy with respect to its position, at
fixed charges. Missing: structures which were evaluated before, as for C79. -/
theorem C80_positions_partial (hn : s.numAtoms = s.atoms.length) (hc : q.Covers s) (hUV : q.IsField s U V)
    (hW : q.IsScreening s W) (hfs : q.fs.Configured ri ro) (hap : s.Apart)
    (hfresh : ∀ a ∈ s.atoms, a.dAdrQ = [])
    (he : chargeEquilibration ls q s buf true = some (s', buf'))
    {r : ℕ → ℝ → Vec3} {v : ℕ → Vec3} {t0 : ℝ} (hm : s.Moves r v t0) :
    HasDerivAt (fun t => q.storedEnergy s (U (s.at r t)) (V (s.at r t)) (W (s.at r t))
        (fun i => (s'.atom i).charge))
      (∑ i ∈ Finset.range s.atoms.length, (s'.atom i).pEelecpr.dot (v i)) t0 := by
  obtain ⟨s1, buf1, B, Q, g, T, h1, R⟩ := qeq_run (ls := ls) hn hc hUV hW hfs hap hfresh buf
  rw [he] at h1
  cases h1
  have e : (fun t => q.storedEnergy s (U (s.at r t)) (V (s.at r t)) (W (s.at r t))
        (fun i => (s'.atom i).charge)) = fun t =>
      1 / 2 * ∑ i ∈ Finset.range s.atoms.length,
        (U s i - q.self (s.elementOf i) + 2 * W s i i) * Q i ^ 2 +
      ∑ j ∈ Finset.range s.atoms.length, ∑ i ∈ Finset.range j,
        (V (s.at r t) i j * (Q i * Q j) + Q i * Q j * W (s.at r t) i j) := by
    funext t
    rw [storedEnergy_congr _ _ _ R.charge]
    unfold Qeq.storedEnergy Qeq.coulombEnergy
    congr 1
    · congr 1
      refine Finset.sum_congr rfl fun i hi => ?_
      have hi := Finset.mem_range.1 hi
      dsimp only
      rw [field_self hUV r t hi, screening_self hW r t hi]
    · refine Finset.sum_congr rfl fun j _ => Finset.sum_congr rfl fun i _ => ?_
      ring
  rw [e, R.along_r]
  refine HasDerivAt.const_add _ ?_
  refine HasDerivAt.fun_sum fun j hj => HasDerivAt.fun_sum fun i hi => ?_
  have hj := Finset.mem_range.1 hj
  have hi := Finset.mem_range.1 hi
  exact ((R.grad r v t0 hm i j hi hj).mul_const _).add (R.screen r v t0 hm i j hi.le hj)

/-- C80: `dEelecdQ` of an atom is the derivative of the stored energy with respect to its charge, at
fixed positions. -/
theorem C80_charges (hn : s.numAtoms = s.atoms.length) (hc : q.Covers s) (hUV : q.IsField s U V)
    (hW : q.IsScreening s W) (hfs : q.fs.Configured ri ro) (hap : s.Apart)
    (hfresh : ∀ a ∈ s.atoms, a.dAdrQ = [])
    (he : chargeEquilibration ls q s buf true = some (s', buf'))
    {x : ℕ → ℝ → ℝ} {y : ℕ → ℝ} {t0 : ℝ}
    (hx : ∀ i < s.atoms.length, x i t0 = (s'.atom i).charge ∧ HasDerivAt (x i) (y i) t0) :
    HasDerivAt (fun t => q.storedEnergy s (U s) (V s) (W s) (fun i => x i t))
      (∑ i ∈ Finset.range s.atoms.length, (s'.atom i).dEelecdQ * y i) t0 := by
  obtain ⟨s1, buf1, B, Q, g, T, h1, R⟩ := qeq_run (ls := ls) hn hc hUV hW hfs hap hfresh buf
  rw [he] at h1
  cases h1
  rw [R.along_Q]
  unfold Qeq.storedEnergy Qeq.coulombEnergy
  refine HasDerivAt.add ?_ ?_
  · have : HasDerivAt (fun t => ∑ i ∈ Finset.range s.atoms.length,
        (U s i - q.self (s.elementOf i) + 2 * W s i i) * x i t ^ 2)
        (∑ i ∈ Finset.range s.atoms.length,
          (U s i - q.self (s.elementOf i) + 2 * W s i i) * (2 * Q i * y i)) t0 := by
      refine HasDerivAt.fun_sum fun i hi => ?_
      have hi := Finset.mem_range.1 hi
      obtain ⟨h1, h2⟩ := hx i hi
      refine ((h2.pow 2).const_mul _).congr_deriv ?_
      rw [h1, R.charge i hi]
      ring
    refine (this.const_mul (1 / 2)).congr_deriv ?_
    rw [Finset.mul_sum]
    exact Finset.sum_congr rfl fun i _ => by ring
  · refine HasDerivAt.fun_sum fun j hj => HasDerivAt.fun_sum fun i hi => ?_
    have hj := Finset.mem_range.1 hj
    have hi := Finset.mem_range.1 hi
    obtain ⟨a1, a2⟩ := hx i (by omega)
    obtain ⟨b1, b2⟩ := hx j hj
    refine ((a2.const_mul (V s i j + W s i j)).mul b2).congr_deriv ?_
    rw [a1, b1, R.charge i (by omega), R.charge j hj]
    ring

/-- The charge equilibration with derivatives does not fail. -/
theorem C80_succeeds (ls : LinSolve) (hn : s.numAtoms = s.atoms.length) (hc : q.Covers s)
    (hUV : q.IsField s U V) (hW : q.IsScreening s W) (hfs : q.fs.Configured ri ro) (hap : s.Apart)
    (hfresh : ∀ a ∈ s.atoms, a.dAdrQ = []) (buf : ErfcBuf) :
    ∃ s' buf', chargeEquilibration ls q s buf true = some (s', buf') := by
  obtain ⟨s', buf', -, -, -, -, h, -⟩ := qeq_run (ls := ls) hn hc hUV hW hfs hap hfresh buf
  exact ⟨s', buf', h⟩

/-- C80: with periodic boundary conditions the hypotheses are met if the neighbour lists were built
with `calculateNeighborList` for a radius not smaller than the radii of the Ewald sum and of the
screening (`calculateMaxCutoffRadiusOverall`). -/
theorem C80_periodic {srt : List Neighbor → List Neighbor}
    (hsrt : IsSort srt) {s0 : Structure} (hb : Boxed s0) (hper : s0.isPeriodic = true)
    (hk : 0 ≤ q.ewald.kCut) (hr : 0 ≤ q.ewald.rCut)
    (hcl : ∀ a ∈ s0.atoms, Cleared a) (hfr : ∀ a ∈ s0.atoms, a.neighborCutoffs = [])
    {rc : ℝ} {cutoffs : List (List ℝ)} (hce : ∀ a ∈ s0.atoms, a.element < cutoffs.length)
    (h1 : q.ewald.rCut ≤ s0.maxCutoffRadiusOverall) (h2 : q.fs.outer ≤ s0.maxCutoffRadiusOverall)
    (hs : s0.calculateNeighborListCutoffs srt rc cutoffs = some s) :
    ∃ U V W, q.IsField s U V ∧ q.IsScreening s W := by
  have hmax := le_max_right rc s0.maxCutoffRadiusOverall
  obtain ⟨s1, full, e, hsame, hl, hst⟩ := stored_of_build hsrt
    (rc := rc) ((hr.trans h1).trans hmax) hb hcl hfr hce
  rw [hs] at e
  cases e
  have hp : s.isPeriodic = true := hsame.per.trans hper
  have hbox := ((hsame.boxed hb) hp).1
  obtain ⟨g, hg, -⟩ := C39_grid (p := q.ewald) hbox hk
  obtain ⟨S, hS, -⟩ := C39_sum (p := q.ewald) hbox hk hg (fun _ => 0) (fun _ => rfl)
  exact ⟨_, _, _, .ewald hp hbox hk full _ hl (hst _ (h1.trans hmax)) S hS,
    .periodic hp full _ hl (hst _ (h2.trans hmax))⟩

/-! ### Cleared structures -/

theorem Structure.SameLists.clear (s : Structure) (c : Bool) : s.SameLists (s.clearElectrostatics c) := by
  refine ⟨by simp [Structure.clearElectrostatics], rfl, rfl, rfl, rfl, fun i => ?_⟩
  unfold Structure.atom Structure.clearElectrostatics
  simp only [List.getD_eq_getElem?_getD, List.getElem?_map]
  cases h : s.atoms[i]? with
  | none => exact ⟨rfl, rfl, rfl, rfl, rfl⟩
  | some a => exact ⟨rfl, rfl, rfl, rfl, rfl⟩

theorem clear_fresh (s : Structure) (c : Bool) :
    ∀ a ∈ (s.clearElectrostatics c).atoms, a.dAdrQ = [] := by
  intro a ha
  obtain ⟨b, -, rfl⟩ := List.mem_map.1 ha
  rfl

theorem clear_covers {c : Bool} (hc : q.Covers s) : q.Covers (s.clearElectrostatics c) := by
  intro a ha
  obtain ⟨b, hb, rfl⟩ := List.mem_map.1 ha
  exact hc b hb

/-- C79: whatever was evaluated before, `clearElectrostatics` makes the next evaluation correct: `dAdrQ`
holds the gradients of the potentials. -/
theorem C79_cleared {c : Bool} (hn : s.numAtoms = s.atoms.length) (hc : q.Covers s)
    (hUV : q.IsField s U V) (hW : q.IsScreening s W) (hfs : q.fs.Configured ri ro) (hap : s.Apart)
    (he : chargeEquilibration ls q (s.clearElectrostatics c) buf true = some (s', buf')) :
    (∀ i < s.atoms.length, (s'.atom i).dAdrQ.length = s.atoms.length + 1) ∧
    ∀ r v t0, s.Moves r v t0 → ∀ j < s.atoms.length,
      HasDerivAt (fun t => Qeq.potential s (V (s.at r t)) (fun i => (s'.atom i).charge) j)
        (∑ i ∈ Finset.range s.atoms.length, ((s'.atom i).dAdrQ.getD j 0).dot (v i)) t0 := by
  have hl := Structure.SameLists.clear s c
  have hlen := hl.count
  obtain ⟨h1, h2⟩ := C79_potential_partial (by rw [hl.num, hlen, hn]) (clear_covers hc) (hl.field hUV)
    (hl.screening hW) hfs (hl.apart hap) (clear_fresh s c) he
  rw [hlen] at h1 h2
  refine ⟨h1, fun r v t0 hm j hj => ?_⟩
  have h3 := h2 r v t0 (hl.moves hm) j hj
  have e : ∀ t, V ((s.clearElectrostatics c).at r t) = V (s.at r t) :=
    fun t => ((hl.at r t).field_eq hUV).2
  simp only [e] at h3
  unfold Qeq.potential at h3 ⊢
  rw [hlen] at h3
  exact h3

/-! ### Repeated runs -/

theorem setDAdrQ_diag (D : ℕ → ℕ → Vec3) (Q : ℕ → ℝ) {i j : ℕ} (h : i ≠ j) (w : Vec3) (a : ℕ) :
    setDAdrQ D i j w (Q i) (Q j) a a = D a a + pairD Q i j w a a := by
  have : setDAdrQ D i j w (Q i) (Q j) a a = addDAdrQ D i j w (Q i) (Q j) a a := by
    unfold setDAdrQ addDAdrQ
    simp only [mset_apply]
    by_cases ha : a = i
    · subst ha
      simp [h]
    · by_cases ha' : a = j
      · subst ha'
        simp [ha]
      · simp [ha, ha']
  rw [this, addDAdrQ_eq D Q h]
  rfl

theorem openLoop_diag (Q : ℕ → ℝ) (n : ℕ) (g : ℕ → ℕ → Vec3) (D : ℕ → ℕ → Vec3) (a : ℕ) :
    loop n (fun i D => loopFrom (i + 1) n (fun j D => setDAdrQ D i j (g i j) (Q i) (Q j)) D) D a a =
      D a a + totalD Q n g a a := by
  unfold totalD
  simp only [Finset.sum_apply]
  refine loop_induction (fun i (E : ℕ → ℕ → Vec3) => E a a = D a a + ∑ i ∈ Finset.range i,
    ∑ j ∈ Finset.Ico (i + 1) n, pairD Q i j (g i j) a a) (by simp) ?_
  intro i hi E hE
  rw [Finset.sum_range_succ, ← add_assoc, ← hE]
  refine loopFrom_induction (fun j (F : ℕ → ℕ → Vec3) => F a a = E a a +
    ∑ j ∈ Finset.Ico (i + 1) j, pairD Q i j (g i j) a a) (by omega) (by simp) ?_
  intro j hj hjn F hF
  rw [setDAdrQ_diag F Q (by omega), Finset.sum_Ico_succ_top hj, ← add_assoc, ← hF]

/-- Gradients of the interactions without periodic boundary conditions, as coded. -/
noncomputable def openGrad (q : Qeq) (s : Structure) (i j : ℕ) : Vec3 :=
  coulombGrad (√2 * q.γ (s.elementOf i) (s.elementOf j)) q.fourPiEps (s.position i - s.position j)

/-- Charges and diagonal entries after a run without periodic boundary conditions. -/
theorem cluster_run (hn : s.numAtoms = s.atoms.length) (hp : s.isPeriodic = false)
    (he : chargeEquilibration ls q s buf true = some (s', buf')) :
    s.SameLists s' ∧ s'.chargeRef = s.chargeRef ∧ (∀ i, (s'.atom i).chi = (s.atom i).chi) ∧
    (∃ B, (∀ a b, a < s.atoms.length → b < s.atoms.length →
        B a b = symMat (fun i => q.J (s.elementOf i) + q.openU s i) (q.openV s) a b) ∧
      ∀ i < s.atoms.length, (s'.atom i).charge =
        ls.run (s.atoms.length + 1) (borderMatrix s.atoms.length B) s.qeqRhs i) ∧
    ∀ i < s.atoms.length, (s'.atom i).dAdrQ.getD i 0 = (s.atom i).dAdrQ.getD i 0 +
      totalD (fun i => (s'.atom i).charge) s.atoms.length (openGrad q s) i i := by
  obtain ⟨B, buf1, hb, hB, e⟩ := elecEnergy_eq ls hn (.cluster (q := q) hp) buf
  dsimp only at e
  rw [hn] at e
  set n := s.atoms.length with hnd
  set A := borderMatrix n B with hA
  set Q := ls.run (n + 1) A s.qeqRhs with hQ
  unfold chargeEquilibration at he
  by_cases hc : ∃ a ∈ s.atoms, q.hardness.length ≤ a.element ∨ q.qsigma.length ≤ a.element
  · rw [if_pos hc] at he; cases he
  rw [if_neg hc] at he
  obtain ⟨⟨s1, buf2⟩, h1, h⟩ := Option.bind_eq_some_iff.1 he
  rw [if_pos rfl] at h
  obtain ⟨⟨s2, buf3⟩, h2, h⟩ := Option.bind_eq_some_iff.1 h
  obtain ⟨s3, h3, h⟩ := Option.bind_eq_some_iff.1 h
  cases h
  rw [e] at h1
  obtain ⟨x, -, hx⟩ := Option.map_eq_some_iff.1 h1
  replace hx := (Prod.mk.inj hx).1
  generalize matrixEnergy q.params s A Q + x = E at hx
  have l1 : s.SameLists s1 := hx ▸ Structure.SameLists.storeCharges s A Q E
  have n1 : s1.numAtoms = s1.atoms.length := by rw [l1.num, l1.count, hn]
  have c1 : ∀ i < n, (s1.atom i).charge = Q i := by
    intro i hi
    rw [← hx]
    exact storeCharges_charge A Q hi hn
  have f1 : ∀ i, (s1.atom i).dAdrQ = (s.atom i).dAdrQ := by
    intro i
    rw [← hx, Structure.storeCharges_dAdrQ]
  have sc2 := calculateDAdrQ_same h2
  have sc3 := energyDerivatives_same h3
  unfold Structure.calculateDAdrQ at h2
  rw [if_neg (show ¬ s1.atoms.length < s1.numAtoms by omega)] at h2
  obtain ⟨⟨D, buf4⟩, h4, h2⟩ := Option.bind_eq_some_iff.1 h2
  have hs2 : s2 = s1.withDAdrQ D := by
    have := Option.some.inj h2
    exact (Prod.mk.inj this).1.symm
  unfold matrixDeriv at h4
  rw [if_neg (by rw [l1.per, hp]; simp)] at h4
  have hD : D = openDeriv q.params s1 (fun i j => (s1.atom i).dAdrQ.getD j 0) :=
    (Prod.mk.inj (Option.some.inj h4)).1.symm
  have l2 : s1.SameLists s2 := hs2 ▸ Structure.SameLists.withDAdrQ s1 _
  unfold Structure.calculateElectrostaticEnergyDerivatives at h3
  have hc3 : ¬ (s2.atoms.length < s2.numAtoms ∨
      ∃ i < s2.numAtoms, (s2.atom i).dAdrQ.length < s2.numAtoms) := fun hc => by
    rw [if_pos hc] at h3; cases h3
  rw [if_neg hc3] at h3
  obtain ⟨st, -, h3⟩ := Option.bind_eq_some_iff.1 h3
  have hs3 : s' = s2.withDerivs st := (Option.some.inj h3).symm
  have l3 : s2.SameLists s' := hs3 ▸ Structure.SameLists.withDerivs s2 st
  have ch : ∀ i < n, (s'.atom i).charge = Q i := fun i hi => by
    rw [(sc3.atom i).1, (sc2.atom i).1, c1 i hi]
  have chi1 : ∀ i, (s1.atom i).chi = (s.atom i).chi := by
    intro i
    rw [← hx]
    show (((s.storeCharges A Q)).atom i).chi = _
    unfold Structure.atom Structure.storeCharges
    simp only [List.getD_eq_getElem?_getD, List.getElem?_mapIdx]
    cases s.atoms[i]? with
    | none => rfl
    | some a => simp only [Option.map_some, Option.getD_some]; split_ifs <;> rfl
  refine ⟨l1.trans (l2.trans l3), ?_, fun i => ?_, ⟨B, hB, ch⟩, fun i hi => ?_⟩
  · rw [sc3.ref, sc2.ref, ← hx]
    rfl
  · rw [(sc3.atom i).2.1, (sc2.atom i).2.1, chi1]
  · have hi1 : i < s1.atoms.length := by rw [l1.count]; exact hi
    have hL : (s'.atom i).dAdrQ.getD i 0 = D i i := by
      rw [hs3, Structure.withDerivs_atom _ (by rw [l2.count]; exact hi1)]
      show ((s2.atom i).dAdrQ.getD i 0) = _
      rw [hs2, Structure.withDAdrQ_atom _ hi1 n1]
      simp only [List.getD_eq_getElem?_getD, List.getElem?_map,
        List.getElem?_range (show i < s1.atoms.length + 1 by omega), Option.map_some,
        Option.getD_some]
    rw [hL, hD]
    unfold openDeriv
    refine (openLoop_diag (fun i => (s1.atom i).charge) s1.numAtoms _ _ i).trans ?_
    rw [f1, n1, l1.count]
    congr 1
    unfold totalD
    simp only [Finset.sum_apply]
    refine Finset.sum_congr rfl fun a ha => Finset.sum_congr rfl fun b hb => ?_
    have ha := Finset.mem_range.1 ha
    have hb := (Finset.mem_Ico.1 hb).2
    unfold pairD
    dsimp only
    rw [c1 a ha, c1 b hb, ch a ha, ch b hb, openGrad, q.gammaSqrt2_eq, (l1.atom a).1,
      (l1.atom b).1, (l1.atom a).2.1, (l1.atom b).2.1, Structure.atom_r, Structure.atom_r,
      Structure.atom_element, Structure.atom_element]
    rfl

theorem LinSolve.run_congr (ls : LinSolve) {n : ℕ} {A A' : ℕ → ℕ → ℝ} {b b' : ℕ → ℝ}
    (hA : ∀ i < n, ∀ j < n, A i j = A' i j) (hb : ∀ i < n, b i = b' i) :
    ls.run n A b = ls.run n A' b' := by
  have h1 : (Matrix.of fun i j : Fin n => A i j) = Matrix.of fun i j : Fin n => A' i j := by
    ext i j
    exact hA i i.2 j j.2
  have h2 : (fun i : Fin n => b i) = fun i : Fin n => b' i := by
    funext i
    exact hb i i.2
  unfold LinSolve.run
  rw [h1, h2]

/-- C79 without the hypothesis that `dAdrQ` is empty is false: a second charge equilibration of the
same structure gives the same charges, and adds the diagonal entries of `dAdrQ` once more.
`clearElectrostatics` has to be called in between. -/
theorem C79_repeated {s'' : Structure} {buf'' : ErfcBuf} (hn : s.numAtoms = s.atoms.length)
    (hp : s.isPeriodic = false)
    (hfresh : ∀ a ∈ s.atoms, a.dAdrQ = [])
    (he : chargeEquilibration ls q s buf true = some (s', buf'))
    (he2 : chargeEquilibration ls q s' buf' true = some (s'', buf'')) :
    ∀ i < s.atoms.length, (s''.atom i).charge = (s'.atom i).charge ∧
      (s''.atom i).dAdrQ.getD i 0 = (2 : ℝ) • (s'.atom i).dAdrQ.getD i 0 := by
  obtain ⟨l1, r1, x1, ⟨B, hB, c1⟩, d1⟩ := cluster_run hn hp he
  obtain ⟨l2, r2, x2, ⟨B2, hB2, c2⟩, d2⟩ := cluster_run (by rw [l1.num, l1.count, hn])
    (l1.per.trans hp) he2
  rw [l1.count] at hB2 c2 d2
  have hrun : ls.run (s.atoms.length + 1) (borderMatrix s.atoms.length B2) s'.qeqRhs =
      ls.run (s.atoms.length + 1) (borderMatrix s.atoms.length B) s.qeqRhs := by
    refine LinSolve.run_congr ls (fun i hi j hj => ?_) (fun i hi => ?_)
    · rw [borderMatrix_apply, borderMatrix_apply]
      by_cases h1 : i = s.atoms.length
      · rw [if_pos h1, if_pos h1]
      · by_cases h2 : j = s.atoms.length
        · rw [if_neg h1, if_neg h1, if_pos h2, if_pos h2]
        · rw [if_neg h1, if_neg h1, if_neg h2, if_neg h2, hB i j (by omega) (by omega),
            hB2 i j (by omega) (by omega)]
          have f := l1.field_eq (q := q) (.cluster (q := q) hp)
          rw [f.1, f.2]
          simp only [l1.elementOf]
    · unfold Structure.qeqRhs
      rw [l1.num, r1, x1]
  have hc : ∀ i < s.atoms.length, (s''.atom i).charge = (s'.atom i).charge := fun i hi => by
    rw [c2 i hi, hrun, c1 i hi]
  intro i hi
  refine ⟨hc i hi, ?_⟩
  have h0 : (s.atom i).dAdrQ = [] := hfresh _ (List.mem_of_getElem? (Structure.atom_get hi))
  have hd : totalD (fun i => (s''.atom i).charge) s.atoms.length (openGrad q s') i i =
      totalD (fun i => (s'.atom i).charge) s.atoms.length (openGrad q s) i i := by
    unfold totalD
    simp only [Finset.sum_apply]
    refine Finset.sum_congr rfl fun a ha => Finset.sum_congr rfl fun b hb => ?_
    have ha := Finset.mem_range.1 ha
    have hb := (Finset.mem_Ico.1 hb).2
    unfold pairD openGrad
    dsimp only
    rw [hc a ha, hc b hb, l1.elementOf, l1.elementOf, l1.position, l1.position]
  have e1 := d1 i hi
  rw [h0, List.getD_nil, zero_add] at e1
  rw [d2 i hi, hd, ← e1, two_smul]

/-- The second `dAdrQ` of a repeated charge equilibration is not the gradient of the potentials. -/
theorem C79_repeated_negated {s'' : Structure} {buf'' : ErfcBuf} (hn : s.numAtoms = s.atoms.length)
    (hc : q.Covers s) (hp : s.isPeriodic = false) (hfs : q.fs.Configured ri ro) (hap : s.Apart)
    (hfresh : ∀ a ∈ s.atoms, a.dAdrQ = [])
    (he : chargeEquilibration ls q s buf true = some (s', buf'))
    (he2 : chargeEquilibration ls q s' buf' true = some (s'', buf'')) {j : ℕ}
    (hj : j < s.atoms.length) (h0 : (s'.atom j).dAdrQ.getD j 0 ≠ 0) :
    ∃ r v, s.Moves r v 0 ∧
      ¬ HasDerivAt (fun t => Qeq.potential s (q.openV (s.at r t)) (fun i => (s''.atom i).charge) j)
        (∑ i ∈ Finset.range s.atoms.length, ((s''.atom i).dAdrQ.getD j 0).dot (v i)) 0 := by
  set w := (s'.atom j).dAdrQ.getD j 0 with hw
  let v : ℕ → Vec3 := Pi.single j w
  let r : ℕ → ℝ → Vec3 := fun i t => s.position i + t • v i
  have hm : s.Moves r v 0 := by
    refine ⟨fun i _ => by simp [r], fun i _ => ?_⟩
    have := ((hasDerivAt_id (0 : ℝ)).smul_const (v i)).const_add (s.position i)
    rw [one_smul] at this
    exact this
  refine ⟨r, v, hm, fun h => ?_⟩
  have h1 := (C79_potential_partial hn hc (.cluster hp) (.cluster hp) hfs hap hfresh he).2 r v 0 hm j hj
  have rep := C79_repeated hn hp hfresh he he2
  have e : (fun t => Qeq.potential s (q.openV (s.at r t)) (fun i => (s''.atom i).charge) j) =
      fun t => Qeq.potential s (q.openV (s.at r t)) (fun i => (s'.atom i).charge) j := by
    funext t
    unfold Qeq.potential
    refine Finset.sum_congr rfl fun k hk => ?_
    dsimp only
    rw [(rep k (Finset.mem_range.1 (Finset.mem_erase.1 hk).2)).1]
  rw [e] at h
  have hu := h.unique h1
  have one : ∀ D : ℕ → Vec3, ∑ i ∈ Finset.range s.atoms.length, (D i).dot (v i) = (D j).dot w := by
    intro D
    rw [Finset.sum_eq_single j]
    · simp [v]
    · intro a _ ha
      simp [v, Pi.single_eq_of_ne ha, Vec3.dot]
    · intro h
      exact absurd (Finset.mem_range.2 hj) h
  rw [one (fun i => (s''.atom i).dAdrQ.getD j 0), one (fun i => (s'.atom i).dAdrQ.getD j 0),
    (rep j hj).2, smul_dot, ← hw] at hu
  have hpos : w.dot w = w.norm2 := rfl
  have hww : w.dot w = 0 := by linarith
  refine absurd (norm_pos_of_ne h0) ?_
  rw [norm_eq, ← hpos, hww, Real.sqrt_zero]
  exact lt_irrefl 0

/-! ### Examples -/

theorem exDimer_apart : exDimer.Apart := by
  have hp : ∀ i < 2, ∀ j < 2, i ≠ j → exDimer.position i - exDimer.position j ≠ 0 := by
    intro i hi j hj hij h
    have p0 : exDimer.position 0 = 0 := rfl
    have p1 : exDimer.position 1 = ![1, 0, 0] := rfl
    have := congrFun h 0
    interval_cases i <;> interval_cases j <;> simp_all
  intro i hi p hpart h
  obtain ⟨h1, h2, h3⟩ := hpart
  rcases h2 with h2 | h2
  · cases h2
  · have hne : i ≠ p.1 := fun e => h3 (Prod.ext e.symm h2)
    refine hp i hi p.1 h1 hne ?_
    rw [← h, Structure.separation, h2]
    funext c
    simp [shift]

theorem exDimer_covers : exQeq.Covers exDimer := by
  intro a ha
  simp [exDimer] at ha
  rcases ha with rfl | rfl <;> simp [exQeq, Atom.init]

theorem exDimer_fresh : ∀ a ∈ exDimer.atoms, a.dAdrQ = [] := by
  intro a ha
  simp [exDimer] at ha
  rcases ha with rfl | rfl <;> rfl

theorem exDimer_succeeds : ∃ s' buf',
    chargeEquilibration invSolve exQeq exDimer ErfcBuf.init true = some (s', buf') :=
  C80_succeeds invSolve (s := exDimer) (q := exQeq) rfl exDimer_covers
    (.cluster rfl) (.cluster rfl) exQeq_configured exDimer_apart exDimer_fresh ErfcBuf.init

/-- The dimer is stretched. -/
theorem exDimer_moves :
    exDimer.Moves (fun i t => ![i + 2 * i * t, t ^ 2, 0]) (fun i => ![2 * i, 0, 0]) 0 := by
  refine ⟨fun i hi => ?_, fun i hi => ?_⟩
  · have : i < 2 := hi
    have p0 : exDimer.position 0 = 0 := rfl
    have p1 : exDimer.position 1 = ![1, 0, 0] := rfl
    interval_cases i
    · rw [p0]; funext c; fin_cases c <;> simp
    · rw [p1]; funext c; fin_cases c <;> simp
  · rw [hasDerivAt_pi]
    intro c
    fin_cases c
    · simpa using ((hasDerivAt_id (0 : ℝ)).const_mul (2 * (i : ℝ))).const_add (i : ℝ)
    · simpa using hasDerivAt_pow 2 (0 : ℝ)
    · simpa using hasDerivAt_const (0 : ℝ) (0 : ℝ)

example : ∃ s' buf', chargeEquilibration invSolve exQeq exDimer ErfcBuf.init true = some (s', buf') ∧
    HasDerivAt (fun t => exQeq.openV (exDimer.at (fun i t => ![i + 2 * i * t, t ^ 2, 0]) t) 0 1 *
        (s'.atom 1).charge) (((s'.atom 1).dAdrQ.getD 0 0).dot ![2, 0, 0]) 0 := by
  obtain ⟨s', buf', h⟩ := exDimer_succeeds
  refine ⟨s', buf', h, ?_⟩
  have := (C79_potential_partial rfl exDimer_covers (.cluster rfl) (.cluster rfl) exQeq_configured
    exDimer_apart exDimer_fresh h).2 _ _ _ exDimer_moves 0 (by simp [exDimer])
  have e : (Finset.range exDimer.atoms.length).erase 0 = {1} := by decide +kernel
  have e2 : exDimer.atoms.length = 2 := rfl
  unfold Qeq.potential at this
  rw [e, e2] at this
  simpa [Finset.sum_range_succ, Vec3.dot] using this

example : ∃ s' buf', chargeEquilibration invSolve exQeq exDimer ErfcBuf.init true = some (s', buf') ∧
    HasDerivAt (fun t => exQeq.storedEnergy exDimer
        (exQeq.openU (exDimer.at (fun i t => ![i + 2 * i * t, t ^ 2, 0]) t))
        (exQeq.openV (exDimer.at (fun i t => ![i + 2 * i * t, t ^ 2, 0]) t))
        (exQeq.openW (exDimer.at (fun i t => ![i + 2 * i * t, t ^ 2, 0]) t))
        (fun i => (s'.atom i).charge))
      (∑ i ∈ Finset.range 2, (s'.atom i).pEelecpr.dot ![2 * i, 0, 0]) 0 := by
  obtain ⟨s', buf', h⟩ := exDimer_succeeds
  exact ⟨s', buf', h, C80_positions_partial rfl exDimer_covers (.cluster rfl) (.cluster rfl) exQeq_configured
    exDimer_apart exDimer_fresh h exDimer_moves⟩

/-! ### Example of a repeated run -/

theorem cluster_succeeds (ls : LinSolve) (hn : s.numAtoms = s.atoms.length) (hc : q.Covers s)
    (hp : s.isPeriodic = false) (buf : ErfcBuf) :
    ∃ s' buf', chargeEquilibration ls q s buf true = some (s', buf') := by
  obtain ⟨B, buf1, -, -, e⟩ := elecEnergy_eq ls hn (.cluster (q := q) hp) buf
  dsimp only at e
  rw [openScreening_store hp hn, Option.map_some] at e
  unfold chargeEquilibration
  rw [if_neg (by
    rintro ⟨a, ha, h⟩
    have := hc a ha
    omega), e]
  simp only [Option.bind_eq_bind, Option.bind_some, if_true]
  generalize hs1 : Structure.withElec _ _ = s1
  have l1 : s.SameLists s1 := hs1 ▸ Structure.SameLists.storeCharges s _ _ _
  have n1 : s1.numAtoms = s1.atoms.length := by rw [l1.num, l1.count, hn]
  have e2 : ∃ D, s1.calculateDAdrQ q.params q.ewald buf1 = some (s1.withDAdrQ D, buf1) := by
    unfold Structure.calculateDAdrQ
    rw [if_neg (by omega)]
    unfold matrixDeriv
    dsimp only
    rw [if_neg (by rw [l1.per, hp]; simp)]
    exact ⟨_, rfl⟩
  obtain ⟨D, e2⟩ := e2
  rw [e2]
  simp only [Option.bind_some]
  generalize hs2 : s1.withDAdrQ D = s2
  have l2 : s1.SameLists s2 := hs2 ▸ Structure.SameLists.withDAdrQ s1 _
  have e3 : ∃ s3, s2.calculateElectrostaticEnergyDerivatives q.params = some s3 := by
    unfold Structure.calculateElectrostaticEnergyDerivatives
    rw [if_neg]
    · obtain ⟨st, hst, -⟩ := foldlM_range_induction (f := fun st i =>
        if s2.isPeriodic then periodicScreen q.params s2 i (s2.atom i).neighbors
          (matrixPart q.params s2 i st)
        else some (openScreen q.params s2 i (matrixPart q.params s2 i st))) (fun _ _ => True)
        s2.numAtoms ((fun _ => 0), (fun _ => 0)) trivial (fun i _ st _ => ⟨_, by
          rw [if_neg (by rw [l2.per, l1.per, hp]; simp)], trivial⟩)
      dsimp only
      rw [hst]
      exact ⟨_, rfl⟩
    · rintro (h | ⟨i, hi, h⟩)
      · rw [l2.num, l2.count] at h
        omega
      · rw [l2.num, n1] at hi
        rw [← hs2, Structure.withDAdrQ_atom _ hi n1] at h
        have : (s1.withDAdrQ D).numAtoms = s1.numAtoms := rfl
        rw [this] at h
        simp at h
        omega
  obtain ⟨s3, e3⟩ := e3
  rw [e3]
  exact ⟨_, _, rfl⟩

theorem erf_gt {x : ℝ} (h : 0 < x) : 2 / √Real.pi * Real.exp (-x ^ 2) * x < erf x := by
  have hd : ∀ y : ℝ, HasDerivAt (fun y => erf y - 2 / √Real.pi * Real.exp (-y ^ 2) * y)
      (4 / √Real.pi * Real.exp (-y ^ 2) * y ^ 2) y := by
    intro y
    have h1 : HasDerivAt (fun y : ℝ => Real.exp (-y ^ 2)) (Real.exp (-y ^ 2) * -(2 * y)) y := by
      refine ((Real.hasDerivAt_exp _).comp y ((hasDerivAt_pow 2 y).neg)).congr_deriv ?_
      simp
    refine ((hasDerivAt_erf y).sub ((h1.const_mul (2 / √Real.pi)).mul (hasDerivAt_id y))).congr_deriv ?_
    simp only [id]
    ring
  have hm : StrictMonoOn (fun y => erf y - 2 / √Real.pi * Real.exp (-y ^ 2) * y) (Set.Ici 0) := by
    refine strictMonoOn_of_deriv_pos (convex_Ici 0)
      (fun y _ => (hd y).continuousAt.continuousWithinAt) fun y hy => ?_
    rw [(hd y).deriv]
    have hy : 0 < y := by simpa using hy
    have := Real.pi_pos
    positivity
  have := hm (Set.mem_Ici.2 le_rfl) (Set.mem_Ici.2 h.le) h
  simp only [erf_zero, mul_zero, sub_zero] at this
  linarith

/-- Energies and forces of the dimer evaluated twice. -/
example : ∃ s' buf' s'' buf'' r v,
    chargeEquilibration invSolve exQeq exDimer ErfcBuf.init true = some (s', buf') ∧
    chargeEquilibration invSolve exQeq s' buf' true = some (s'', buf'') ∧ exDimer.Moves r v 0 ∧
    ¬ HasDerivAt (fun t => Qeq.potential exDimer (exQeq.openV (exDimer.at r t))
        (fun i => (s''.atom i).charge) 0)
      (∑ i ∈ Finset.range 2, ((s''.atom i).dAdrQ.getD 0 0).dot (v i)) 0 := by
  obtain ⟨s', buf', h⟩ := exDimer_succeeds
  obtain ⟨l1, -, -, -, d1⟩ := cluster_run rfl rfl h
  obtain ⟨s'', buf'', h2⟩ := cluster_succeeds (q := exQeq) invSolve
    (by rw [l1.num, l1.count]; rfl) (by
      intro b hb
      obtain ⟨i, hi⟩ := List.getElem?_of_mem hb
      obtain ⟨a, ha, -, e, -⟩ := l1.get hi
      rw [e]
      exact exDimer_covers a (List.mem_of_getElem? ha)) (l1.per.trans rfl) buf'
  obtain ⟨hq, heq⟩ := qeq_equations invSolve_correct rfl (.cluster rfl) exDimer_positive.solvable h
  have n2 : exDimer.atoms.length = 2 := rfl
  rw [n2] at hq heq
  have hQ : (s'.atom 1).charge ≠ 0 := by
    intro h0
    have e0 := heq 0 (by omega)
    have e1 := heq 1 (by omega)
    have c0 : (exDimer.atom 0).chi = 1 := rfl
    have c1 : (exDimer.atom 1).chi = -1 := rfl
    simp only [Finset.sum_range_succ, Finset.sum_range_zero, zero_add, h0, mul_zero, add_zero]
      at hq e0 e1
    have r0 : exDimer.chargeRef = 0 := rfl
    rw [r0] at hq
    rw [hq, c0] at e0
    rw [hq, c1] at e1
    linarith
  have hg : openGrad exQeq exDimer 0 1 0 ≠ 0 := by
    have p0 : exDimer.position 0 = 0 := rfl
    have p1 : exDimer.position 1 = ![1, 0, 0] := rfl
    unfold openGrad coulombGrad
    rw [p0, p1]
    have hγ : 0 < √2 * exQeq.γ (exDimer.elementOf 0) (exDimer.elementOf 1) :=
      mul_pos (by positivity) (exQeq_γ 0 rfl)
    generalize √2 * exQeq.γ (exDimer.elementOf 0) (exDimer.elementOf 1) = γ at hγ
    have hnorm : ((0 : Vec3) - ![1, 0, 0]).norm = 1 := by simp [Vec3.norm]
    rw [hnorm]
    have hx := erf_gt (x := 1 / γ) (by positivity)
    have hε : exQeq.fourPiEps = 1 := rfl
    rw [hε]
    have e : 2 / (√Real.pi * γ) * Real.exp (-(1 / γ) ^ 2) =
        2 / √Real.pi * Real.exp (-(1 / γ) ^ 2) * (1 / γ) := by ring
    rw [e]
    simp only [Vec3.div, Pi.smul_apply, Pi.sub_apply, Pi.zero_apply, Matrix.cons_val_zero, smul_eq_mul]
    intro h
    norm_num at h
    norm_num at hx
    linarith
  obtain ⟨r, v, hm, hneg⟩ := C79_repeated_negated rfl exDimer_covers rfl exQeq_configured
    exDimer_apart exDimer_fresh h h2 (j := 0) (by simp [exDimer]) (by
      rw [d1 0 (by simp [exDimer]), exDimer_fresh _ (List.mem_of_getElem? (Structure.atom_get
        (by simp [exDimer]))), n2]
      unfold totalD
      have e : Finset.Ico 1 2 = {1} := by decide
      have e' : Finset.Ico 2 2 = ∅ := by decide
      simp only [Finset.sum_range_succ, Finset.sum_range_zero, zero_add, e, Finset.sum_singleton]
      intro h
      have := congrFun h 0
      simp [pairD] at this
      rcases this with h | h
      · exact hQ h
      · exact hg h)
  exact ⟨s', buf', s'', buf'', r, v, h, h2, hm, hneg⟩

/-- The dimer evaluated, cleared and evaluated once more. -/
example : ∃ s' buf' s'' buf'',
    chargeEquilibration invSolve exQeq exDimer ErfcBuf.init true = some (s', buf') ∧
    chargeEquilibration invSolve exQeq (s'.clearElectrostatics true) buf' true = some (s'', buf'') ∧
    ∀ r v t0, s'.Moves r v t0 → ∀ j < 2,
      HasDerivAt (fun t => Qeq.potential s' (exQeq.openV (s'.at r t)) (fun i => (s''.atom i).charge) j)
        (∑ i ∈ Finset.range 2, ((s''.atom i).dAdrQ.getD j 0).dot (v i)) t0 := by
  obtain ⟨s', buf', h⟩ := exDimer_succeeds
  obtain ⟨l1, -⟩ := cluster_run rfl rfl h
  have hn : s'.numAtoms = s'.atoms.length := by rw [l1.num, l1.count]; rfl
  have hc : exQeq.Covers s' := by
    intro b hb
    obtain ⟨i, hi⟩ := List.getElem?_of_mem hb
    obtain ⟨a, ha, -, e, -⟩ := l1.get hi
    rw [e]
    exact exDimer_covers a (List.mem_of_getElem? ha)
  have l2 := Structure.SameLists.clear s' true
  obtain ⟨s'', buf'', h2⟩ := cluster_succeeds (q := exQeq) invSolve
    (by rw [l2.num, l2.count, hn]) (clear_covers (c := true) hc) (l2.per.trans (l1.per.trans rfl)) buf'
  have := C79_cleared hn hc (l1.field (.cluster rfl)) (l1.screening (.cluster rfl)) exQeq_configured
    (l1.apart exDimer_apart) h2
  have n2 : s'.atoms.length = 2 := l1.count
  rw [n2] at this
  exact ⟨s', buf', s'', buf'', h, h2, this.2⟩

end N2P2
