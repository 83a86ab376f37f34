import Mathlib.Analysis.Calculus.Deriv.Pow
import Mathlib.Analysis.Calculus.Deriv.Add
import Mathlib.Analysis.Calculus.Deriv.Mul
import Verif.Lemma.Screening
import Verif.Lemma.QeqList
import Verif.Lemma.QeqExample

/-! Properties C53 (charge equilibration) and C78 (electrostatic energy). -/

namespace N2P2

variable {q : Qeq} {s s' : Structure} {ls : LinSolve} {U : ℕ → ℝ} {V : ℕ → ℕ → ℝ}
  {buf buf' : ErfcBuf} {d : Bool}

theorem coulombEnergy_add (n : ℕ) (d : ℕ → ℝ) (V : ℕ → ℕ → ℝ) (x y : ℕ → ℝ) (t : ℝ) :
    Qeq.coulombEnergy n d V (fun i => x i + t * y i) = Qeq.coulombEnergy n d V x +
      t * ∑ i ∈ Finset.range n, y i * ∑ j ∈ Finset.range n, symMat d V i j * x j +
      t ^ 2 * Qeq.coulombEnergy n d V y := by
  rw [sum_symMat]
  unfold Qeq.coulombEnergy
  have h1 : ∀ j, ∑ i ∈ Finset.range j, V i j * (x i + t * y i) * (x j + t * y j) =
      ∑ i ∈ Finset.range j, V i j * x i * x j +
      t * ∑ i ∈ Finset.range j, V i j * (x i * y j + x j * y i) +
      t ^ 2 * ∑ i ∈ Finset.range j, V i j * y i * y j := by
    intro j
    rw [Finset.mul_sum, Finset.mul_sum, ← Finset.sum_add_distrib, ← Finset.sum_add_distrib]
    exact Finset.sum_congr rfl fun i _ => by ring
  have h2 : ∑ i ∈ Finset.range n, d i * (x i + t * y i) ^ 2 =
      ∑ i ∈ Finset.range n, d i * x i ^ 2 + 2 * t * ∑ i ∈ Finset.range n, d i * x i * y i +
      t ^ 2 * ∑ i ∈ Finset.range n, d i * y i ^ 2 := by
    rw [Finset.mul_sum, Finset.mul_sum, ← Finset.sum_add_distrib, ← Finset.sum_add_distrib]
    exact Finset.sum_congr rfl fun i _ => by ring
  rw [h2, Finset.sum_congr rfl fun j _ => h1 j, Finset.sum_add_distrib, Finset.sum_add_distrib,
    ← Finset.mul_sum, ← Finset.mul_sum]
  ring

/-- The energy in the neighbourhood of the equilibrated charges. -/
theorem total_near (hls : ls.Correct) (hn : s.numAtoms = s.atoms.length)
    (hUV : q.IsInteraction s U V) (hS : q.Solvable s U V)
    (he : chargeEquilibration ls q s buf d = some (s', buf')) (y : ℕ → ℝ)
    (hy : ∑ i ∈ Finset.range s.atoms.length, y i = 0) (t : ℝ) :
    q.total s U V (fun i => (s'.atom i).charge + t * y i) =
      q.total s U V (fun i => (s'.atom i).charge) +
      t ^ 2 * Qeq.coulombEnergy s.atoms.length (fun i => q.J (s.elementOf i) + U i) V y := by
  obtain ⟨-, h2⟩ := qeq_equations hls hn hUV hS he
  rw [Qeq.total_eq, Qeq.total_eq, coulombEnergy_add]
  have h3 : ∑ i ∈ Finset.range s.atoms.length, y i * ∑ j ∈ Finset.range s.atoms.length,
      symMat (fun i => q.J (s.elementOf i) + U i) V i j * (s'.atom j).charge =
      -∑ i ∈ Finset.range s.atoms.length, (s.atom i).chi * y i := by
    have : ∀ i ∈ Finset.range s.atoms.length, y i * ∑ j ∈ Finset.range s.atoms.length,
        symMat (fun i => q.J (s.elementOf i) + U i) V i j * (s'.atom j).charge =
        -((s.atom i).chi * y i) - s'.lambda * y i := by
      intro i hi
      have := h2 i (Finset.mem_range.1 hi)
      rw [show ∑ j ∈ Finset.range s.atoms.length,
        symMat (fun i => q.J (s.elementOf i) + U i) V i j * (s'.atom j).charge =
          -(s.atom i).chi - s'.lambda by linarith]
      ring
    rw [Finset.sum_congr rfl this, Finset.sum_sub_distrib, ← Finset.mul_sum, hy,
      Finset.sum_neg_distrib]
    ring
  rw [h3]
  have h4 : ∑ i ∈ Finset.range s.atoms.length, (s.atom i).chi * ((s'.atom i).charge + t * y i) =
      ∑ i ∈ Finset.range s.atoms.length, (s.atom i).chi * (s'.atom i).charge +
      t * ∑ i ∈ Finset.range s.atoms.length, (s.atom i).chi * y i := by
    rw [Finset.mul_sum, ← Finset.sum_add_distrib]
    exact Finset.sum_congr rfl fun i _ => by ring
  rw [h4]
  ring

/-- C53: the equilibrated charges sum to the prescribed total charge of the structure, with or
without periodic boundary conditions, whenever the equations determine the charges. -/
theorem C53_total_charge (hls : ls.Correct) (hn : s.numAtoms = s.atoms.length)
    (hUV : q.IsInteraction s U V) (hS : q.Solvable s U V)
    (he : chargeEquilibration ls q s buf d = some (s', buf')) :
    ∑ i ∈ Finset.range s.atoms.length, (s'.atom i).charge = s.chargeRef :=
  (qeq_equations hls hn hUV hS he).1

/-- C53: the equilibrated charges are a stationary point of the energy (electronegativities,
hardnesses and Coulomb energy of the Gaussian charges, with an Ewald sum in the periodic case) among
the charges with the same total: the energy does not change to first order along any direction in
which the total charge stays constant. -/
theorem C53_stationary (hls : ls.Correct) (hn : s.numAtoms = s.atoms.length)
    (hUV : q.IsInteraction s U V) (hS : q.Solvable s U V)
    (he : chargeEquilibration ls q s buf d = some (s', buf')) (y : ℕ → ℝ)
    (hy : ∑ i ∈ Finset.range s.atoms.length, y i = 0) :
    HasDerivAt (fun t => q.total s U V (fun i => (s'.atom i).charge + t * y i)) 0 0 := by
  have e := funext (total_near hls hn hUV hS he y hy)
  rw [e]
  have := ((hasDerivAt_pow 2 (0 : ℝ)).mul_const (Qeq.coulombEnergy s.atoms.length
    (fun i => q.J (s.elementOf i) + U i) V y)).const_add
    (q.total s U V (fun i => (s'.atom i).charge))
  simpa using this

theorem Qeq.Positive.form (h : q.Positive s U V) (y : ℕ → ℝ)
    (hy : ∑ i ∈ Finset.range s.atoms.length, y i = 0) (h0 : ∃ i < s.atoms.length, y i ≠ 0) :
    0 < Qeq.coulombEnergy s.atoms.length (fun i => q.J (s.elementOf i) + U i) V y := by
  refine lt_of_lt_of_eq (h.2 y hy h0) ?_
  unfold Qeq.coulombEnergy
  rw [← add_assoc]
  congr 1
  rw [Finset.mul_sum, Finset.mul_sum, ← Finset.sum_add_distrib]
  exact Finset.sum_congr rfl fun i _ => by ring

theorem Qeq.Positive.solvable (h : q.Positive s U V) : q.Solvable s U V := by
  refine ⟨h.1, fun x c hx h0 => ?_⟩
  by_contra hne
  push Not at hne
  have hp := h.form x h0 hne
  rw [← quadratic_eq] at hp
  have : ∑ i ∈ Finset.range s.atoms.length, x i * ∑ j ∈ Finset.range s.atoms.length,
      symMat (fun i => q.J (s.elementOf i) + U i) V i j * x j = 0 := by
    have e : ∀ i ∈ Finset.range s.atoms.length, x i * ∑ j ∈ Finset.range s.atoms.length,
        symMat (fun i => q.J (s.elementOf i) + U i) V i j * x j = x i * c := by
      intro i hi
      rw [symMat_row _ _ _ _ (Finset.mem_range.1 hi), hx i (Finset.mem_range.1 hi)]
    rw [Finset.sum_congr rfl e, ← Finset.sum_mul, h0, zero_mul]
  rw [this] at hp
  simp at hp

/-- C53: if the energy of charges of total zero is positive (large enough hardnesses), the
equilibrated charges are the only minimum of the energy among all charges with the prescribed
total. -/
theorem C53_minimum (hls : ls.Correct) (hn : s.numAtoms = s.atoms.length)
    (hUV : q.IsInteraction s U V) (hP : q.Positive s U V)
    (he : chargeEquilibration ls q s buf d = some (s', buf')) (x : ℕ → ℝ)
    (hx : ∑ i ∈ Finset.range s.atoms.length, x i = s.chargeRef)
    (hne : ∃ i < s.atoms.length, x i ≠ (s'.atom i).charge) :
    q.total s U V (fun i => (s'.atom i).charge) < q.total s U V x := by
  have hS := hP.solvable
  have h1 := C53_total_charge hls hn hUV hS he
  have hy : ∑ i ∈ Finset.range s.atoms.length, (x i - (s'.atom i).charge) = 0 := by
    rw [Finset.sum_sub_distrib, hx, h1, sub_self]
  have h2 := total_near hls hn hUV hS he (fun i => x i - (s'.atom i).charge) hy 1
  have h3 := hP.form (fun i => x i - (s'.atom i).charge) hy
    (hne.imp fun i h => ⟨h.1, sub_ne_zero.2 h.2⟩)
  have e : (fun i => (s'.atom i).charge + 1 * (x i - (s'.atom i).charge)) = x := by
    funext i; ring
  rw [e] at h2
  rw [h2]
  linarith

/-- C53: the charge equilibration of a structure without periodic boundary conditions always gives a
result. -/
theorem C53_succeeds (ls : LinSolve) (hn : s.numAtoms = s.atoms.length) (hc : q.Covers s)
    (hper : s.isPeriodic = false) (buf : ErfcBuf) :
    ∃ s' buf', chargeEquilibration ls q s buf false = some (s', buf') := by
  obtain ⟨B, buf', -, -, e⟩ := elecEnergy_eq ls hn (.cluster (q := q) hper) buf
  rw [chargeEquilibration_false hc, e]
  dsimp only
  rw [openScreening_store hper hn]
  exact ⟨_, _, rfl⟩

/-- C53: with periodic boundary conditions, there is a result if the neighbour lists were built with
`calculateNeighborList` for a radius not smaller than the radii of the Ewald sum and of the screening
(`calculateMaxCutoffRadiusOverall`). The interactions are those of an Ewald sum. -/
theorem C53_succeeds_periodic (ls : LinSolve) {srt : List Neighbor → List Neighbor}
    (hsrt : IsSort srt) {s0 : Structure} (hb : Boxed s0) (hper : s0.isPeriodic = true)
    (hk : 0 ≤ q.ewald.kCut) (hr : 0 ≤ q.ewald.rCut)
    (hcl : ∀ a ∈ s0.atoms, Cleared a) (hfr : ∀ a ∈ s0.atoms, a.neighborCutoffs = [])
    {rc : ℝ} {cutoffs : List (List ℝ)} (hce : ∀ a ∈ s0.atoms, a.element < cutoffs.length)
    (h1 : q.ewald.rCut ≤ s0.maxCutoffRadiusOverall) (h2 : q.fs.outer ≤ s0.maxCutoffRadiusOverall)
    (hs : s0.calculateNeighborListCutoffs srt rc cutoffs = some s)
    (hn : s.numAtoms = s.atoms.length) (hc : q.Covers s) (buf : ErfcBuf) :
    (∃ s' buf', chargeEquilibration ls q s buf false = some (s', buf')) ∧
      ∃ U V, q.IsInteraction s U V := by
  have hmax := le_max_right rc s0.maxCutoffRadiusOverall
  obtain ⟨s1, full, e, hsame, hl, hst⟩ := stored_of_build hsrt
    (rc := rc) ((hr.trans h1).trans hmax) hb hcl hfr hce
  rw [hs] at e
  cases e
  have hp : s.isPeriodic = true := hsame.per.trans hper
  have hbox := ((hsame.boxed hb) hp).1
  obtain ⟨g, hg, -⟩ := C39_grid (p := q.ewald) hbox hk
  obtain ⟨S, hS, -⟩ := C39_sum (p := q.ewald) hbox hk hg (fun _ => 0) (fun _ => rfl)
  have hUV := Qeq.IsInteraction.ewald (q := q) hp hbox hk full _ hl (hst _ (h1.trans hmax)) S hS
  refine ⟨?_, _, _, hUV⟩
  obtain ⟨B, buf', -, -, e⟩ := elecEnergy_eq ls hn hUV buf
  rw [chargeEquilibration_false hc, e]
  dsimp only
  rw [periodicScreening_store hp hn hl (hst _ (h2.trans hmax))]
  exact ⟨_, _, rfl⟩

/-- Two atoms at distance 1 with opposite electronegativities, linear systems solved exactly: the
charges exist and are the only minimum of the energy. -/
example : ∃ s' buf', chargeEquilibration invSolve exQeq exDimer ErfcBuf.init false = some (s', buf') ∧
    ∑ i ∈ Finset.range 2, (s'.atom i).charge = 0 ∧
    ∀ x : ℕ → ℝ, ∑ i ∈ Finset.range 2, x i = 0 → (∃ i < 2, x i ≠ (s'.atom i).charge) →
      exQeq.total exDimer (exQeq.openU exDimer) (exQeq.openV exDimer)
        (fun i => (s'.atom i).charge) <
      exQeq.total exDimer (exQeq.openU exDimer) (exQeq.openV exDimer) x := by
  obtain ⟨s', buf', h⟩ := C53_succeeds invSolve (s := exDimer) (q := exQeq) rfl
    (by intro a ha; simp [exDimer] at ha; rcases ha with rfl | rfl <;> simp [exQeq, Atom.init])
    rfl ErfcBuf.init
  exact ⟨s', buf', h,
    C53_total_charge invSolve_correct rfl (.cluster rfl) exDimer_positive.solvable h,
    C53_minimum invSolve_correct rfl (.cluster rfl) exDimer_positive h⟩

/-- One atom of charge 1 in a cubic box of any edge. -/
theorem exGrain_run {L : ℝ} (hL : 0 < L) : ∃ (s s' : Structure) (buf' : ErfcBuf) (U : ℕ → ℝ)
    (V : ℕ → ℕ → ℝ) (full imgs : ℕ → List (ℕ × (Fin 3 → ℤ))),
    s.numAtoms = s.atoms.length ∧ s.atoms.length = 1 ∧ s.isPeriodic = true ∧ s.box = cube L ∧
    (∀ i, s.elementOf i = 0) ∧
    exQeq.IsInteraction s U V ∧ s.Listed full ∧ s.Stored full exQeq.fs.outer imgs ∧
    chargeEquilibration invSolve exQeq s ErfcBuf.init false = some (s', buf') ∧
    (s'.atom 0).charge = 1 := by
  obtain ⟨srt, hsrt⟩ := exists_isSort
  have hcl : ∀ a ∈ (exGrain L).atoms, Cleared a := by
    intro a ha
    have : a = Atom.init := by simpa [exGrain] using ha
    subst this
    exact ⟨rfl, rfl, rfl, rfl⟩
  have hfr : ∀ a ∈ (exGrain L).atoms, a.neighborCutoffs = [] := by
    intro a ha
    have : a = Atom.init := by simpa [exGrain] using ha
    subst this
    rfl
  have hce : ∀ a ∈ (exGrain L).atoms, a.element < [[(2 : ℝ)]].length := by
    intro a ha
    have : a = Atom.init := by simpa [exGrain] using ha
    subst this
    simp [Atom.init]
  have hm : (exGrain L).maxCutoffRadiusOverall = 2 := rfl
  obtain ⟨s, full, e, hsame, hl, hst⟩ := stored_of_build hsrt (rc := 2) (by simp) 
    (exGrain_boxed hL) hcl hfr hce
  obtain ⟨r1, r2⟩ := calculateNeighborListCutoffs_rest e
  have hlen : s.atoms.length = 1 := by
    have := congrArg List.length hsame.atoms
    simpa [exGrain] using this
  have hel : ∀ a ∈ s.atoms, a.element = 0 := by
    intro a ha
    have : (a.r, a.element) ∈ s.atoms.map (fun a => (a.r, a.element)) := List.mem_map.2 ⟨a, ha, rfl⟩
    rw [hsame.atoms] at this
    simpa [exGrain, Atom.init] using congrArg Prod.snd (List.mem_singleton.1 this)
  have hn : s.numAtoms = s.atoms.length := by rw [r1, hlen]; rfl
  have hc : exQeq.Covers s := fun a ha => by rw [hel a ha]; simp [exQeq]
  have h1 : exQeq.ewald.rCut ≤ (exGrain L).maxCutoffRadiusOverall := by rw [hm]; norm_num [exQeq]
  have h2 : exQeq.fs.outer ≤ (exGrain L).maxCutoffRadiusOverall := by rw [hm]; norm_num [exQeq]
  obtain ⟨⟨s', buf', he⟩, U, V, hUV⟩ := C53_succeeds_periodic (q := exQeq) invSolve hsrt
    (exGrain_boxed hL) rfl (by simp [exQeq]) (by simp [exQeq]) hcl hfr hce h1 h2 e hn hc
    ErfcBuf.init
  have hS : exQeq.Solvable s U V := by
    refine Qeq.Positive.solvable ⟨by omega, fun y hy h0 => ?_⟩
    rw [hlen] at hy h0
    obtain ⟨i, hi, h⟩ := h0
    have : i = 0 := by omega
    subst this
    simp at hy
    exact absurd hy h
  have hq := C53_total_charge invSolve_correct hn hUV hS he
  rw [hlen, Finset.sum_range_one, r2] at hq
  have hE : ∀ i, s.elementOf i = 0 := by
    intro i
    unfold Structure.elementOf
    rcases h : s.atoms[i]? with _ | a
    · simp
    · simpa [h] using hel a (List.mem_of_getElem? h)
  exact ⟨s, s', buf', U, V, full, _, hn, hlen, hsame.per, hsame.box, hE, hUV, hl,
    hst _ (h2.trans (le_max_right _ _)), he, hq⟩

/-! ### C78 -/

/-- C78: without periodic boundary conditions the electrostatic energy is the sum over all pairs of
atoms of the Coulomb energy of their charges, times the screening function. -/
theorem C78_cluster (hn : s.numAtoms = s.atoms.length) (hper : s.isPeriodic = false)
    (he : chargeEquilibration ls q s buf d = some (s', buf')) :
    s'.energyElec = q.openEnergy s (fun i => (s'.atom i).charge) := by
  obtain ⟨B, Q, e, hB, hQ, hs, hE⟩ := qeq_energy hn (.cluster (q := q) hper) he
  rw [openScreening_store hper hn] at hs
  have hs := (Option.some.inj hs).symm
  rw [hE, hs]
  have h1 : q.openEnergy s (fun i => (s'.atom i).charge) = q.openEnergy s Q := by
    unfold Qeq.openEnergy
    refine Finset.sum_congr rfl fun j hj => Finset.sum_congr rfl fun i hi => ?_
    have hj := Finset.mem_range.1 hj
    have hi := Finset.mem_range.1 hi
    dsimp only
    rw [hQ i (by omega), hQ j hj]
  rw [h1]
  unfold Qeq.coulombEnergy Qeq.openEnergy
  have h2 : ∑ j ∈ Finset.range s.atoms.length, ∑ i ∈ Finset.range j,
      borderMatrix s.numAtoms B i j * (q.fs.f (len (s.position i - s.position j)) - 1) * Q i * Q j =
      ∑ j ∈ Finset.range s.atoms.length, ∑ i ∈ Finset.range j,
        q.openV s i j * (q.fs.f (len (s.position i - s.position j)) - 1) * Q i * Q j := by
    refine Finset.sum_congr rfl fun j hj => Finset.sum_congr rfl fun i hi => ?_
    have hj := Finset.mem_range.1 hj
    have hi := Finset.mem_range.1 hi
    rw [borderMatrix_apply, if_neg (by omega), if_neg (by omega), hB i j (by omega) hj, symMat,
      if_neg (by omega), if_pos hi]
  rw [h2]
  have h3 : ∀ A B C D : ℝ, A = -C → A + B + (C + D) = B + D := by intros; linarith
  rw [h3, ← Finset.sum_add_distrib]
  · refine Finset.sum_congr rfl fun j _ => ?_
    rw [← Finset.sum_add_distrib]
    exact Finset.sum_congr rfl fun i _ => by ring
  · rw [Finset.mul_sum, Finset.sum_neg_distrib, neg_neg]
    rfl

example : ∃ s' buf', chargeEquilibration invSolve exQeq exDimer ErfcBuf.init false = some (s', buf') ∧
    s'.energyElec = exQeq.openEnergy exDimer (fun i => (s'.atom i).charge) := by
  obtain ⟨s', buf', h⟩ := C53_succeeds invSolve (s := exDimer) (q := exQeq) rfl
    (by intro a ha; simp [exDimer] at ha; rcases ha with rfl | rfl <;> simp [exQeq, Atom.init])
    rfl ErfcBuf.init
  exact ⟨s', buf', h, C78_cluster rfl rfl h⟩

/-- C78: with periodic boundary conditions the stored energy differs from the electrostatic energy:
the screening of own images is counted twice. -/
theorem C78_own_images (hn : s.numAtoms = s.atoms.length) (hper : s.isPeriodic = true)
    (hUV : q.IsInteraction s U V) {full imgs : ℕ → List (ℕ × (Fin 3 → ℤ))} (hl : s.Listed full)
    (hi : s.Stored full q.fs.outer imgs)
    (he : chargeEquilibration ls q s buf d = some (s', buf')) :
    s'.energyElec = q.periodicEnergy s U V imgs (fun i => (s'.atom i).charge) +
      1 / 2 * ∑ i ∈ Finset.range s.atoms.length, q.screenW s imgs i i * (s'.atom i).charge ^ 2 := by
  obtain ⟨B, Q, e, hB, hQ, hs, hE⟩ := qeq_energy hn hUV he
  rw [periodicScreening_store hper hn hl hi] at hs
  have hs := (Option.some.inj hs).symm
  rw [hE, hs]
  have h1 : q.periodicEnergy s U V imgs (fun i => (s'.atom i).charge) =
      q.periodicEnergy s U V imgs Q := by
    unfold Qeq.periodicEnergy Qeq.coulombEnergy
    congr 1
    · congr 1
      exact Finset.sum_congr rfl fun i hi => by dsimp only; rw [hQ i (Finset.mem_range.1 hi)]
    · refine Finset.sum_congr rfl fun j hj => Finset.sum_congr rfl fun i hi => ?_
      have hj := Finset.mem_range.1 hj
      have hi := Finset.mem_range.1 hi
      dsimp only
      rw [hQ i (by omega), hQ j hj]
  have h2 : ∑ i ∈ Finset.range s.atoms.length, q.screenW s imgs i i * (s'.atom i).charge ^ 2 =
      ∑ i ∈ Finset.range s.atoms.length, q.screenW s imgs i i * Q i ^ 2 :=
    Finset.sum_congr rfl fun i hi => by rw [hQ i (Finset.mem_range.1 hi)]
  rw [h1, h2]
  unfold Qeq.periodicEnergy Qeq.coulombEnergy
  have h3 : ∀ i ∈ Finset.range s.atoms.length, ∑ j ∈ Finset.Ico i s.atoms.length,
      q.screenW s imgs i j * Q i * Q j = q.screenW s imgs i i * Q i ^ 2 +
        ∑ j ∈ Finset.Ico (i + 1) s.atoms.length, q.screenW s imgs i j * Q i * Q j := by
    intro i hi
    rw [Finset.sum_eq_sum_Ico_succ_bot (Finset.mem_range.1 hi)]
    ring
  rw [Finset.sum_add_distrib, Finset.sum_congr rfl h3, Finset.sum_add_distrib, sum_upper]
  have h4 : ∑ i ∈ Finset.range s.atoms.length,
      (U i - q.self (s.elementOf i) + q.screenW s imgs i i) * Q i ^ 2 =
      ∑ i ∈ Finset.range s.atoms.length, U i * Q i ^ 2 -
      ∑ i ∈ Finset.range s.atoms.length, q.self (s.elementOf i) * Q i ^ 2 +
      ∑ i ∈ Finset.range s.atoms.length, q.screenW s imgs i i * Q i ^ 2 := by
    rw [← Finset.sum_sub_distrib, ← Finset.sum_add_distrib]
    exact Finset.sum_congr rfl fun i _ => by ring
  have h5 : ∑ j ∈ Finset.range s.atoms.length, ∑ i ∈ Finset.range j,
      (V i j + q.screenW s imgs i j) * Q i * Q j =
      ∑ j ∈ Finset.range s.atoms.length, ∑ i ∈ Finset.range j, V i j * Q i * Q j +
      ∑ j ∈ Finset.range s.atoms.length, ∑ i ∈ Finset.range j,
        q.screenW s imgs i j * Q i * Q j := by
    rw [← Finset.sum_add_distrib]
    refine Finset.sum_congr rfl fun j _ => ?_
    rw [← Finset.sum_add_distrib]
    exact Finset.sum_congr rfl fun i _ => by ring
  rw [h4, h5, Finset.sum_neg_distrib, ← Finset.mul_sum]
  ring

/-- C78: with periodic boundary conditions the stored energy is the electrostatic energy if no atom
has an own image within the range of the screening. Missing: structures with shorter box vectors, for
which the stored energy is wrong (`C78_own_images`). -/
theorem C78_periodic_partial (hn : s.numAtoms = s.atoms.length) (hper : s.isPeriodic = true)
    (hUV : q.IsInteraction s U V) {full imgs : ℕ → List (ℕ × (Fin 3 → ℤ))} (hl : s.Listed full)
    (hi : s.Stored full q.fs.outer imgs)
    (hown : ∀ n : Fin 3 → ℤ, n ≠ 0 → q.fs.outer ≤ len (shift s.box n))
    (he : chargeEquilibration ls q s buf d = some (s', buf')) :
    s'.energyElec = q.periodicEnergy s U V imgs (fun i => (s'.atom i).charge) := by
  rw [C78_own_images hn hper hUV hl hi he]
  have : ∀ i ∈ Finset.range s.atoms.length,
      q.screenW s imgs i i * (s'.atom i).charge ^ 2 = 0 := by
    intro i hi'
    have hW : q.screenW s imgs i i = 0 := by
      unfold Qeq.screenW
      rw [List.map_congr_left (g := fun _ => (0 : ℝ))]
      · simp
      · intro p hp
        rw [List.mem_filter] at hp
        have h1 : p.1 = i := by simpa using hp.2
        have h2 := (hi.partner i (Finset.mem_range.1 hi') p hp.1).2.2
        have h3 : p.2 ≠ 0 := fun h => h2 (Prod.ext h1 h)
        have h4 : s.separation i p = shift s.box p.2 := by
          unfold Structure.separation
          rw [h1]
          simp
        rw [h4, q.fs.f_outer (not_lt.2 (hown _ h3))]
        ring
    rw [hW, zero_mul]
  rw [Finset.sum_eq_zero this]
  ring

/-- In a box of edge 2 there are no own images within the range 3/2 of the screening. -/
example : ∃ (s s' : Structure) (buf' : ErfcBuf) (U : ℕ → ℝ) (V : ℕ → ℕ → ℝ)
    (imgs : ℕ → List (ℕ × (Fin 3 → ℤ))), s.box = cube 2 ∧
    chargeEquilibration invSolve exQeq s ErfcBuf.init false = some (s', buf') ∧
    s'.energyElec = exQeq.periodicEnergy s U V imgs (fun i => (s'.atom i).charge) := by
  obtain ⟨s, s', buf', U, V, full, imgs, hn, hlen, hp, hbox, hE, hUV, hl, hi, he, hq⟩ :=
    exGrain_run (L := 2) (by norm_num)
  refine ⟨s, s', buf', U, V, imgs, hbox, he, C78_periodic_partial hn hp hUV hl hi ?_ he⟩
  intro n hn0
  rw [hbox]
  have h2 : (2 : ℝ) ≤ len (shift (cube 2) n) := len_shift_cube (by norm_num) hn0
  have : exQeq.fs.outer = 3 / 2 := rfl
  linarith

/-- C78 is false: if an atom with a charge has an own image not farther than the inner radius of the
screening, the stored energy is too low. -/
theorem C78_negated (hn : s.numAtoms = s.atoms.length) (hper : s.isPeriodic = true)
    (hUV : q.IsInteraction s U V) {full imgs : ℕ → List (ℕ × (Fin 3 → ℤ))} (hl : s.Listed full)
    (hi : s.Stored full q.fs.outer imgs)
    (he : chargeEquilibration ls q s buf d = some (s', buf'))
    (hε : 0 < q.fourPiEps)
    (hσ : ∀ i < s.atoms.length, 0 < q.γ (s.elementOf i) (s.elementOf i)) {ri ro : ℝ}
    (hfs : q.fs.Configured ri ro)
    {i : ℕ} (hil : i < s.atoms.length) (hq : (s'.atom i).charge ≠ 0) {n : Fin 3 → ℤ}
    (h0 : 0 < len (shift s.box n)) (hd : len (shift s.box n) ≤ ri) :
    s'.energyElec < q.periodicEnergy s U V imgs (fun i => (s'.atom i).charge) := by
  rw [C78_own_images hn hper hUV hl hi he]
  obtain ⟨v1, v2, v3, v4⟩ := C54_values q.fs ri ro hfs
  have hro : q.fs.outer = ro := hfs.eq.2.2.1
  have hio : ri < ro := hfs.eq.1
  have hterm : ∀ j < s.atoms.length, ∀ p, q.coulomb (s.elementOf j) (s.elementOf j)
      (len (s.separation j p)) * (q.fs.f (len (s.separation j p)) - 1) ≤ 0 := by
    intro j hj p
    refine mul_nonpos_of_nonneg_of_nonpos ?_ (by linarith [(v4 (len (s.separation j p))).2])
    exact coulomb_nonneg hε.le (hσ _ hj).le (Real.sqrt_nonneg _)
  have hW : ∀ j < s.atoms.length, q.screenW s imgs j j ≤ 0 := by
    intro j hj
    unfold Qeq.screenW
    refine list_sum_nonpos fun x hx => ?_
    obtain ⟨p, -, rfl⟩ := List.mem_map.1 hx
    exact hterm j hj p
  have hWi : q.screenW s imgs i i < 0 := by
    have hn0 : n ≠ 0 := by
      rintro rfl
      rw [shift_zero] at h0
      simp [len] at h0
    have hsep : s.separation i (i, n) = shift s.box n := by
      unfold Structure.separation
      simp
    have hmem : (i, n) ∈ imgs i := hi.complete i hil _
      ⟨hil, Or.inl hper, fun h => hn0 (Prod.mk.inj h).2⟩ (by rw [hsep, hro]; linarith)
    unfold Qeq.screenW
    refine list_sum_neg (fun x hx => ?_) (x := q.coulomb (s.elementOf i) (s.elementOf i)
      (len (s.separation i (i, n))) * (q.fs.f (len (s.separation i (i, n))) - 1)) ?_ ?_
    · obtain ⟨p, -, rfl⟩ := List.mem_map.1 hx
      exact hterm i hil p
    · refine List.mem_map.2 ⟨(i, n), ?_, rfl⟩
      rw [List.mem_filter]
      exact ⟨hmem, by simp⟩
    · rw [hsep, v1 _ hd]
      have := coulomb_pos hε (hσ i hil) h0
      linarith
  have : ∑ j ∈ Finset.range s.atoms.length, q.screenW s imgs j j * (s'.atom j).charge ^ 2 < 0 := by
    refine Finset.sum_neg' (fun j hj => mul_nonpos_of_nonpos_of_nonneg
      (hW j (Finset.mem_range.1 hj)) (sq_nonneg _))
      ⟨i, Finset.mem_range.2 hil, ?_⟩
    exact mul_neg_of_neg_of_pos hWi (by positivity)
  linarith

/-- The wrong energy is reached: one atom of charge 1 in a box of edge 1, screening between 1.1 and
1.5, neighbour lists built by the program. -/
example : ∃ (s s' : Structure) (buf' : ErfcBuf) (U : ℕ → ℝ) (V : ℕ → ℕ → ℝ)
    (full imgs : ℕ → List (ℕ × (Fin 3 → ℤ))), s.isPeriodic = true ∧ exQeq.IsInteraction s U V ∧
    s.Listed full ∧ s.Stored full exQeq.fs.outer imgs ∧
    chargeEquilibration invSolve exQeq s ErfcBuf.init false = some (s', buf') ∧
    s'.energyElec < exQeq.periodicEnergy s U V imgs (fun i => (s'.atom i).charge) := by
  obtain ⟨s, s', buf', U, V, full, imgs, hn, hlen, hp, hbox, hE, hUV, hl, hi, he, hq⟩ :=
    exGrain_run (L := 1) (by norm_num)
  have hlen1 : len (shift s.box ![1, 0, 0]) = 1 := by
    rw [hbox]
    have : ∑ k, shift (cube 1) ![1, 0, 0] k ^ 2 = 1 := by
      simp [shift, cube, Fin.sum_univ_three]
    unfold len
    rw [this, Real.sqrt_one]
  exact ⟨s, s', buf', U, V, full, imgs, hp, hUV, hl, hi, he,
    C78_negated hn hp hUV hl hi he (by simp [exQeq]) (fun i _ => exQeq_γ _ (hE i))
      exQeq_configured (i := 0) (n := ![1, 0, 0]) (by omega) (by rw [hq]; norm_num)
      (by rw [hlen1]; norm_num) (by rw [hlen1]; norm_num)⟩

end N2P2
