import Verif.Lemma.ModeExists
import Verif.Lemma.ModeExample
import Verif.Lemma.ModeOwnImage
import Verif.Props.Geometry
import Verif.Props.SymFncSetup

/-! Properties of energies and forces of a whole structure. -/

namespace N2P2

open Filter Topology

variable {M M' : Mode} {P : Potential} {n : ℕ} {s s' : Structure}
  {srt : List Neighbor → List Neighbor}

/-! ### C74 -/

/-- C74: the potential energy of an arrangement of atoms is well defined: it exists and does not
depend on which (large enough) environments are considered. -/
theorem C74_well_defined (hM : M.SetUp P n) (s : Structure)
    (hbox : s.isPeriodic = true → NonSingular s.box) (hel : ∀ a ∈ s.atoms, a.element < n) (R : ℝ)
    (hR : P.Within R s) :
    ∃ E, IsEnergy P R s E ∧ ∀ R' E', P.Within R' s → IsEnergy P R' s E' → E' = E := by
  obtain ⟨E, hE⟩ := exists_isEnergy P R hbox
  refine ⟨E, hE, fun R' E' hR' hE' => IsEnergy.unique ?_ hR' hR hE' hE⟩
  intro i hi S hS
  refine (hM.valid ?_ hS).1
  rw [elementOf_eq (List.getElem?_eq_getElem hi)]
  exact hel _ (List.getElem_mem hi)

/-- C74: for a potential set up from a settings file and a new structure the evaluation succeeds. It
stores for each atom the energy of its environment and for the structure the potential energy (plus
the electrostatic energy already there), and leaves the potential set up for the next evaluation. -/
theorem C74_energy (hsrt : IsSort srt) (hM : M.SetUp P n) (hP : P.Fits n) (hn : 0 < n)
    (hs : s.Evaluable M P n) (useForces useDEdG : Bool) :
    ∃ M' s', M.evaluateNNP srt s useForces useDEdG = some (M', s') ∧ M'.SetUp P n ∧
      s'.atoms.length = s.atoms.length ∧
      (∀ i a', s'.atoms[i]? = some a' → ∀ R env, (∀ S ∈ P.functions (s.elementOf i), S.rc ≤ R) →
        IsEnv s R i env → a'.energy = P.atomic (s.elementOf i) env) ∧
      ∀ R E, P.Within R s → IsEnergy P R s E →
        s'.energyShort = E ∧ s'.energy = E + s.energyElec := by
  obtain ⟨M', s', h1, h2, h3, h4, h5, h6, h7, -⟩ :=
    evaluateNNP_eq hsrt hM hP hn hs.new hs.apart hs.triplets useForces useDEdG
  have hlt : ∀ i < s.atoms.length, s.elementOf i < n := by
    intro i hi
    rw [elementOf_eq (List.getElem?_eq_getElem hi)]
    exact (hs.new.atom _ (List.getElem_mem hi)).1
  have hW : ∀ i < s.atoms.length, ∀ S ∈ P.functions (s.elementOf i), S.rc ≤ M.listRadius s :=
    fun i hi S hS => (hM.valid (hlt i hi) hS).2.2.trans (le_max_left _ _)
  refine ⟨M', s', h1, h2, h4, ?_, ?_⟩
  · intro i a' ha' R env hR henv
    have hi : i < s.atoms.length := by rw [← h4]; exact (List.getElem?_eq_some_iff.1 ha').1
    obtain ⟨a, a'', g1, g2, g3⟩ := h5 i hi
    rw [ha'] at g1
    cases g1
    rw [g3]
    unfold Potential.atomic
    rw [input_env (fun S hS => (hM.valid (hlt i hi) hS).1) (hW i hi) hR (g2.isEnv le_rfl) henv]
  · intro R E hR hE
    have : s'.energyShort = E :=
      IsEnergy.unique (fun i hi S hS => (hM.valid (hlt i hi) hS).1) hW hR h6 hE
    exact ⟨this, by rw [h7, this]⟩

/-- A potential with a three-atom cluster meeting the conditions. -/
example : ∃ srt M M' s', IsSort srt ∧ M.SetUp exPotential 2 ∧ exPotential.Fits 2 ∧
    exCluster.Evaluable M exPotential 2 ∧ M.evaluateNNP srt exCluster true false = some (M', s') ∧
    M'.SetUp exPotential 2 ∧ s'.atoms.length = 3 := by
  obtain ⟨srt, hsrt⟩ := exists_isSort
  obtain ⟨M, hM, -⟩ := exists_exMode
  have hev : exCluster.Evaluable M exPotential 2 :=
    exPotential_evaluable exCluster_new exCluster_apart
  obtain ⟨M', s', he, h2, h3, -⟩ :=
    C74_energy hsrt hM exPotential_fits (by norm_num) hev true false
  exact ⟨srt, M, M', s', hsrt, hM, exPotential_fits, hev, he, h2, by
    rw [h3]; exact exSystem_length⟩

/-! ### C75 -/

theorem NoOwnImages.zero {El : ℕ → ElementData} {A : ℕ → Atom} {cs : List Atom}
    (h : ForceState M P n s El A cs) (hown : P.NoOwnImages s) (i : ℕ) (hi : i < s.atoms.length) :
    forceFrom P s A (inputGrad P s A) i i = 0 := by
  obtain ⟨b, hb, -⟩ := h.atom i hi
  exact forceFrom_self hb hi (hown i hi)

open Classical in
/-- The forces, if no atom is close to its own images. -/
theorem forces_eq (hsrt : IsSort srt) (hM : M.SetUp P n) (hP : P.Fits n) (hn : 0 < n)
    (hs : s.Evaluable M P n) (useDEdG : Bool)
    (he : M.evaluateNNP srt s true useDEdG = some (M', s')) :
    ∃ El A cs, ForceState M' P n s El A cs ∧ M'.SetUp P n ∧ M'.listRadius s = M.listRadius s ∧
      (∀ i < s.atoms.length, s'.forceOn i = -selfGradOf P s A (inputGrad P s A) i +
        ∑ j ∈ Finset.range s.atoms.length, if j = i then 0 else forceFrom P s A (inputGrad P s A) i j) ∧
      ∀ i < s.atoms.length, s'.forceOn i + forceFrom P s A (inputGrad P s A) i i = -selfGradOf P s A (inputGrad P s A) i +
        ∑ j ∈ Finset.range s.atoms.length, forceFrom P s A (inputGrad P s A) i j := by
  obtain ⟨M1, s1, h1, h2, h3, h4, -, -, -, h8⟩ :=
    evaluateNNP_eq hsrt hM hP hn hs.new hs.apart hs.triplets true useDEdG
  rw [he] at h1
  cases h1
  obtain ⟨El, A, cs, hFS, hf⟩ := h8 rfl
  have key : ∀ i < s.atoms.length, s'.forceOn i = -selfGradOf P s A (inputGrad P s A) i +
      ∑ j ∈ Finset.range s.atoms.length, if j = i then 0 else forceFrom P s A (inputGrad P s A) i j := by
    intro i hi
    obtain ⟨a', g1, g2⟩ := hf i hi
    simp [Structure.forceOn, g1, g2]
  refine ⟨El, A, cs, hFS, h2, by unfold Mode.listRadius; rw [h3], key, ?_⟩
  intro i hi
  rw [key i hi, add_assoc]
  congr 1
  have : ∀ j, forceFrom P s A (inputGrad P s A) i j =
      (if j = i then 0 else forceFrom P s A (inputGrad P s A) i j) + if j = i then forceFrom P s A (inputGrad P s A) i j else 0 := by
    intro j
    by_cases e : j = i
    · rw [if_pos e, if_pos e, zero_add]
    · rw [if_neg e, if_neg e, add_zero]
  rw [Finset.sum_congr rfl fun j _ => this j, Finset.sum_add_distrib]
  congr 1
  rw [Finset.sum_ite_eq']
  rw [if_pos (Finset.mem_range.2 hi)]

theorem line_deriv (a v : Vec3) : HasDerivAt (fun t : ℝ => a + t • v) v 0 := by
  have := ((hasDerivAt_id (0 : ℝ)).smul_const v).const_add a
  simpa using this

/-- C75 (partial): the forces are the negative gradient of the potential energy: if the atoms move
away from their positions, the energy changes at the rate minus force times velocity. Missing: atoms
which have an own periodic image within a cutoff radius, for which the claim is false
(`C75_own_images_negated`). -/
theorem C75_forces_partial (hsrt : IsSort srt) (hM : M.SetUp P n) (hP : P.Fits n) (hn : 0 < n)
    (hs : s.Evaluable M P n) (hsm : P.Smooth (M.listRadius s) s) (hown : P.NoOwnImages s)
    (useDEdG : Bool) (he : M.evaluateNNP srt s true useDEdG = some (M', s'))
    (r : ℕ → ℝ → Vec3) (v : ℕ → Vec3) (t : ℝ) (h0 : ∀ i < s.atoms.length, r i t = s.position i)
    (hv : ∀ i < s.atoms.length, HasDerivAt (r i) (v i) t) (R : ℝ) (hR : P.Within R s) (E : ℝ → ℝ)
    (hE : ∀ x, IsEnergy P R (s.move fun i => r i x) (E x)) :
    HasDerivAt E (-∑ i ∈ Finset.range s.atoms.length, (s'.forceOn i).dot (v i)) t := by
  obtain ⟨El, A, cs, hFS, h2, h3, -, hf⟩ := forces_eq hsrt hM hP hn hs useDEdG he
  rw [← h3] at hsm
  refine (energy_deriv h2 hP hs.new hFS hsm h0 hv hR hE).congr_deriv ?_
  congr 1
  refine Finset.sum_congr rfl fun i hi => ?_
  have hi := Finset.mem_range.1 hi
  rw [← hf i hi, NoOwnImages.zero hFS hown i hi, add_zero]

/-- A liquid and a movement of its atoms meeting the conditions. -/
example : ∃ srt M M' s', IsSort srt ∧ M.SetUp exPotential 2 ∧ exPotential.Fits 2 ∧
    exLiquid.Evaluable M exPotential 2 ∧ exPotential.Smooth (M.listRadius exLiquid) exLiquid ∧
    exPotential.NoOwnImages exLiquid ∧ M.evaluateNNP srt exLiquid true false = some (M', s') ∧
    ∃ E : ℝ → ℝ, HasDerivAt E (-((s'.forceOn 0).dot ![1, 0, 0] + (s'.forceOn 1).dot ![1, 1, 0] +
      (s'.forceOn 2).dot ![1, 2, 0])) 0 ∧ ∀ x, IsEnergy exPotential 3
        (exLiquid.move fun i => exLiquid.position i + x • ![1, (i : ℝ), 0]) (E x) := by
  obtain ⟨srt, hsrt⟩ := exists_isSort
  obtain ⟨M, hM, -⟩ := exists_exMode
  have hev : exLiquid.Evaluable M exPotential 2 :=
    exPotential_evaluable exLiquid_new exLiquid_apart
  obtain ⟨M', s', he, -⟩ := C74_energy hsrt hM exPotential_fits (by norm_num) hev true false
  have hE : ∀ x : ℝ, ∃ E, IsEnergy exPotential 3
      (exLiquid.move fun i => exLiquid.position i + x • ![1, (i : ℝ), 0]) E := fun x =>
    exists_isEnergy _ _ fun hp => (exLiquid_new.boxed hp).1
  choose E hE using hE
  refine ⟨srt, M, M', s', hsrt, hM, exPotential_fits, hev, exPotential_smooth exLiquid_apart _,
    exLiquid_noOwnImages, he, E, ?_, hE⟩
  have := C75_forces_partial hsrt hM exPotential_fits (by norm_num) hev
    (exPotential_smooth exLiquid_apart _) exLiquid_noOwnImages false he
    (fun i x => exLiquid.position i + x • ![1, (i : ℝ), 0]) (fun i => ![1, (i : ℝ), 0]) 0
    (fun i _ => by simp) (fun i _ => line_deriv _ _) 3 ?_ E hE
  · rw [show exLiquid.atoms.length = 3 from exSystem_length, Finset.sum_range_succ,
      Finset.sum_range_succ, Finset.sum_range_one] at this
    simpa using this
  · intro i _ S hS
    simp only [exPotential, List.mem_singleton] at hS
    rw [hS]
    exact le_rfl

/-- C75 for structures without periodic boundary conditions, without further condition on images. -/
theorem C75_forces_cluster (hsrt : IsSort srt) (hM : M.SetUp P n) (hP : P.Fits n) (hn : 0 < n)
    (hs : s.Evaluable M P n) (hsm : P.Smooth (M.listRadius s) s) (hper : s.isPeriodic = false)
    (useDEdG : Bool) (he : M.evaluateNNP srt s true useDEdG = some (M', s'))
    (r : ℕ → ℝ → Vec3) (v : ℕ → Vec3) (t : ℝ) (h0 : ∀ i < s.atoms.length, r i t = s.position i)
    (hv : ∀ i < s.atoms.length, HasDerivAt (r i) (v i) t) (R : ℝ) (hR : P.Within R s) (E : ℝ → ℝ)
    (hE : ∀ x, IsEnergy P R (s.move fun i => r i x) (E x)) :
    HasDerivAt E (-∑ i ∈ Finset.range s.atoms.length, (s'.forceOn i).dot (v i)) t := by
  refine C75_forces_partial hsrt hM hP hn hs hsm ?_ useDEdG he r v t h0 hv R hR E hE
  intro i _ q hq
  obtain ⟨-, h1 | h1, h2⟩ := hq
  · rw [hper] at h1; cases h1
  · exact absurd (by rw [show q = 0 from h1]) h2

/-- The evaluation of a crystal in which an atom sees its own images: the forces add up to something
else than zero, though the energy does not change if all atoms move together. -/
theorem exCrystal_forces (hsrt : IsSort srt) (hM : M.SetUp exPotential 2)
    (hR : M.maxCutoffRadius = 3) :
    ∃ M' s', M.evaluateNNP srt exCrystal true false = some (M', s') ∧
      (∑ i ∈ Finset.range exCrystal.atoms.length, s'.forceOn i) 1 ≠ 0 ∧
      ∀ E : ℝ → ℝ, (∀ x, IsEnergy exPotential 3
        (exCrystal.move fun i => exCrystal.position i + x • Pi.single 1 1) (E x)) →
        HasDerivAt E 0 0 := by
  have hev : exCrystal.Evaluable M exPotential 2 :=
    exPotential_evaluable exCrystal_new exCrystal_apart
  obtain ⟨M', s', he, -⟩ := C74_energy hsrt hM exPotential_fits (by norm_num) hev true false
  have hL : M.listRadius exCrystal = 3 := by
    unfold Mode.listRadius
    rw [hR]
    exact max_eq_left (by norm_num [exCrystal, exSystem, Structure.init])
  obtain ⟨El, A, cs, hFS, h2, h3, -, hf⟩ :=
    forces_eq hsrt hM exPotential_fits (by norm_num) hev false he
  refine ⟨M', s', he, ?_, fun E hE => ?_⟩
  · obtain ⟨g1, g2⟩ := exCrystal_self (by rw [h3, hL]) hFS
    have h := force_sum (P := exPotential) (x := inputGrad exPotential exCrystal A) hFS.lists
    rw [Finset.sum_congr rfl fun i hi => (hf i (Finset.mem_range.1 hi)).symm,
      Finset.sum_add_distrib] at h
    have h' := congrFun h 1
    rw [exCrystal_length, Finset.sum_range_succ (fun i => forceFrom _ _ _ _ i i),
      Finset.sum_range_one, g2] at h'
    simp only [Pi.add_apply, Pi.zero_apply, add_zero] at h'
    rw [exCrystal_length]
    linarith
  · have hW : exPotential.Within 3 exCrystal := by
      intro i _ S hS
      simp only [exPotential, List.mem_singleton] at hS
      rw [hS]
      exact le_rfl
    refine (energy_deriv h2 exPotential_fits exCrystal_new hFS
      (exPotential_smooth exCrystal_apart _)
      (r := fun i x => exCrystal.position i + x • Pi.single 1 1) (v := fun _ => Pi.single 1 1)
      (fun i _ => by simp) (fun i _ => line_deriv _ _) hW hE).congr_deriv ?_
    have h := congrFun
      (force_sum (P := exPotential) (x := inputGrad exPotential exCrystal A) hFS.lists) 1
    rw [neg_eq_zero, ← Pi.zero_apply (M := fun _ => ℝ) (1 : Fin 3), ← h, Finset.sum_apply]
    refine Finset.sum_congr rfl fun i _ => ?_
    simp [Vec3.dot]

/-- C75 does not hold for an atom which has an own periodic image within a cutoff radius. All other
conditions of `C75_forces_partial` are met. -/
theorem C75_own_images_negated : ∃ (srt : List Neighbor → List Neighbor) (M : Mode) (P : Potential)
    (n : ℕ) (s : Structure), IsSort srt ∧ M.SetUp P n ∧ P.Fits n ∧ 0 < n ∧ s.Evaluable M P n ∧
    P.Smooth (M.listRadius s) s ∧ ∃ (M' : Mode) (s' : Structure),
    M.evaluateNNP srt s true false = some (M', s') ∧
    ∃ (r : ℕ → ℝ → Vec3) (v : ℕ → Vec3) (R : ℝ) (E : ℝ → ℝ),
      (∀ i < s.atoms.length, r i 0 = s.position i) ∧
      (∀ i < s.atoms.length, HasDerivAt (r i) (v i) 0) ∧ P.Within R s ∧
      (∀ x, IsEnergy P R (s.move fun i => r i x) (E x)) ∧
      ¬ HasDerivAt E (-∑ i ∈ Finset.range s.atoms.length, (s'.forceOn i).dot (v i)) 0 := by
  obtain ⟨srt, hsrt⟩ := exists_isSort
  obtain ⟨M, hM, hR⟩ := exists_exMode
  obtain ⟨M', s', he, hne, hd⟩ := exCrystal_forces hsrt hM hR
  have hE : ∀ x : ℝ, ∃ E, IsEnergy exPotential 3
      (exCrystal.move fun i => exCrystal.position i + x • Pi.single 1 1) E := fun x =>
    exists_isEnergy _ _ fun hp => (exCrystal_new.boxed hp).1
  choose E hE using hE
  refine ⟨srt, M, exPotential, 2, exCrystal, hsrt, hM, exPotential_fits, by norm_num,
    exPotential_evaluable exCrystal_new exCrystal_apart, exPotential_smooth exCrystal_apart _,
    M', s', he, fun i x => exCrystal.position i + x • Pi.single 1 1, fun _ => Pi.single 1 1, 3, E,
    fun i _ => by simp, fun i _ => line_deriv _ _, ?_, hE, fun h => hne ?_⟩
  · intro i _ S hS
    simp only [exPotential, List.mem_singleton] at hS
    rw [hS]
    exact le_rfl
  · have := h.unique (hd E hE)
    rw [neg_eq_zero] at this
    rw [← this, Finset.sum_apply]
    refine Finset.sum_congr rfl fun i _ => ?_
    simp [Vec3.dot]

/-! ### C35 -/

/-- C35 (partial): the forces add up to zero. Missing: atoms which have an own periodic image within
a cutoff radius, for which the claim is false (`C35_own_images_negated`). -/
theorem C35_total_force_partial (hsrt : IsSort srt) (hM : M.SetUp P n) (hP : P.Fits n) (hn : 0 < n)
    (hs : s.Evaluable M P n) (hown : P.NoOwnImages s) (useDEdG : Bool)
    (he : M.evaluateNNP srt s true useDEdG = some (M', s')) :
    ∑ i ∈ Finset.range s.atoms.length, s'.forceOn i = 0 := by
  obtain ⟨El, A, cs, hFS, -, -, -, hf⟩ := forces_eq hsrt hM hP hn hs useDEdG he
  rw [← force_sum (P := P) (x := inputGrad P s A) hFS.lists]
  refine Finset.sum_congr rfl fun i hi => ?_
  have hi := Finset.mem_range.1 hi
  rw [← hf i hi, NoOwnImages.zero hFS hown i hi, add_zero]

/-- C35 does not hold for an atom which has an own periodic image within a cutoff radius. All other
conditions of `C35_total_force_partial` are met. -/
theorem C35_own_images_negated : ∃ (srt : List Neighbor → List Neighbor) (M : Mode) (P : Potential)
    (n : ℕ) (s : Structure), IsSort srt ∧ M.SetUp P n ∧ P.Fits n ∧ 0 < n ∧ s.Evaluable M P n ∧
    ∃ (M' : Mode) (s' : Structure), M.evaluateNNP srt s true false = some (M', s') ∧
    ∑ i ∈ Finset.range s.atoms.length, s'.forceOn i ≠ 0 := by
  obtain ⟨srt, hsrt⟩ := exists_isSort
  obtain ⟨M, hM, hR⟩ := exists_exMode
  obtain ⟨M', s', he, hne, -⟩ := exCrystal_forces hsrt hM hR
  refine ⟨srt, M, exPotential, 2, exCrystal, hsrt, hM, exPotential_fits, by norm_num,
    exPotential_evaluable exCrystal_new exCrystal_apart, M', s', he, fun h => hne ?_⟩
  rw [h]
  rfl

/-- A potential and a periodic liquid meeting the conditions. -/
example : ∃ srt M M' s', IsSort srt ∧ M.SetUp exPotential 2 ∧ exPotential.Fits 2 ∧
    exLiquid.Evaluable M exPotential 2 ∧ exPotential.NoOwnImages exLiquid ∧
    exLiquid.isPeriodic = true ∧ M.evaluateNNP srt exLiquid true false = some (M', s') ∧
    s'.forceOn 0 + s'.forceOn 1 + s'.forceOn 2 = 0 := by
  obtain ⟨srt, hsrt⟩ := exists_isSort
  obtain ⟨M, hM, -⟩ := exists_exMode
  have hev : exLiquid.Evaluable M exPotential 2 :=
    exPotential_evaluable exLiquid_new exLiquid_apart
  obtain ⟨M', s', he, -⟩ := C74_energy hsrt hM exPotential_fits (by norm_num) hev true false
  have := C35_total_force_partial hsrt hM exPotential_fits (by norm_num) hev exLiquid_noOwnImages
    false he
  refine ⟨srt, M, M', s', hsrt, hM, exPotential_fits, hev, exLiquid_noOwnImages, rfl, he, ?_⟩
  rw [show exLiquid.atoms.length = 3 from exSystem_length, Finset.sum_range_succ,
    Finset.sum_range_succ, Finset.sum_range_one] at this
  exact this

/-! ### C76 -/

/-- C76: the energy is the same for the same arrangement of atoms: it does not change if all atoms
(and the box) are rotated, reflected or translated, if atoms are listed in another order, or if
atoms are replaced by periodic images. -/
theorem C76_energy_invariant (hsrt : IsSort srt) (hM : M.SetUp P n) (hP : P.Fits n) (hn : 0 < n)
    {s1 s2 : Structure} (h1 : s1.Evaluable M P n) (h2 : s2.Evaluable M P n)
    (Q : Matrix (Fin 3) (Fin 3) ℝ) (w : Vec3) (σ : ℕ → ℕ) (m : ℕ → Fin 3 → ℤ)
    (hsame : SameArrangement Q w σ m s1 s2) (f1 f2 d1 d2 : Bool) {M1 M2 : Mode}
    {s1' s2' : Structure} (e1 : M.evaluateNNP srt s1 f1 d1 = some (M1, s1'))
    (e2 : M.evaluateNNP srt s2 f2 d2 = some (M2, s2')) :
    s2'.energyShort = s1'.energyShort := by
  have hbox : ∀ {s : Structure}, s.Evaluable M P n → s.isPeriodic = true → NonSingular s.box :=
    fun h hp => (h.new.boxed hp).1
  have hW : ∀ {s : Structure}, s.Evaluable M P n → P.Within M.maxCutoffRadius s := by
    intro s h i hi S hS
    refine (hM.valid ?_ hS).2.2
    rw [elementOf_eq (List.getElem?_eq_getElem hi)]
    exact (h.new.atom _ (List.getElem_mem hi)).1
  obtain ⟨E, hE⟩ := exists_isEnergy P M.maxCutoffRadius (hbox h1)
  obtain ⟨M1', t1, g1, -, -, -, k1⟩ := C74_energy hsrt hM hP hn h1 f1 d1
  obtain ⟨M2', t2, g2, -, -, -, k2⟩ := C74_energy hsrt hM hP hn h2 f2 d2
  rw [e1] at g1
  rw [e2] at g2
  cases g1
  cases g2
  rw [(k1 _ E (hW h1) hE).1, (k2 _ E (hW h2) (hsame.isEnergy hE)).1]

theorem dot_single (f : ℕ → Vec3) (i N : ℕ) (hi : i < N) (u : Vec3) :
    ∑ k ∈ Finset.range N, (f k).dot (if k = i then u else 0) = (f i).dot u := by
  rw [Finset.sum_eq_single i]
  · rw [if_pos rfl]
  · intro k _ hk
    rw [if_neg hk]
    simp [Vec3.dot]
  · intro h
    exact absurd (Finset.mem_range.2 hi) h

/-! ### C77 -/

/-- Rotation by the angle `t` about the axis `k`. -/
noncomputable def axisRotation (k : Fin 3) (t : ℝ) : Matrix (Fin 3) (Fin 3) ℝ :=
  match k with
  | 0 => !![1, 0, 0; 0, Real.cos t, -Real.sin t; 0, Real.sin t, Real.cos t]
  | 1 => !![Real.cos t, 0, Real.sin t; 0, 1, 0; -Real.sin t, 0, Real.cos t]
  | 2 => !![Real.cos t, -Real.sin t, 0; Real.sin t, Real.cos t, 0; 0, 0, 1]

theorem axisRotation_orthogonal (k : Fin 3) (t : ℝ) :
    (axisRotation k t).transpose * axisRotation k t = 1 := by
  have h := Real.sin_sq_add_cos_sq t
  fin_cases k <;> ext i j <;> fin_cases i <;> fin_cases j <;>
    simp [axisRotation, Matrix.mul_apply, Fin.sum_univ_three] <;> nlinarith

theorem axisRotation_deriv (k : Fin 3) (x : Vec3) :
    HasDerivAt (fun t => (axisRotation k t).mulVec x) (Vec3.cross (Pi.single k 1) x) 0 := by
  refine hasDerivAt_pi.2 fun i => ?_
  have hs := Real.hasDerivAt_sin 0
  have hc := Real.hasDerivAt_cos 0
  rw [Real.cos_zero] at hs
  rw [Real.sin_zero, neg_zero] at hc
  fin_cases k <;> fin_cases i <;>
    simp only [axisRotation, Matrix.mulVec, dotProduct, Fin.sum_univ_three, Vec3.cross] <;> simp
  · exact hasDerivAt_const _ _
  · exact ((hc.mul_const _).add (hs.mul_const _).neg).congr_deriv (by ring)
  · exact ((hs.mul_const _).add (hc.mul_const _)).congr_deriv (by ring)
  · exact ((hc.mul_const _).add (hs.mul_const _)).congr_deriv (by ring)
  · exact hasDerivAt_const _ _
  · exact ((hs.mul_const _).neg.add (hc.mul_const _)).congr_deriv (by ring)
  · exact ((hc.mul_const _).add (hs.mul_const _).neg).congr_deriv (by ring)
  · exact ((hs.mul_const _).add (hc.mul_const _)).congr_deriv (by ring)
  · exact hasDerivAt_const _ _

/-- C77: without periodic boundary conditions the forces exert no torque. -/
theorem C77_no_torque (hsrt : IsSort srt) (hM : M.SetUp P n) (hP : P.Fits n) (hn : 0 < n)
    (hs : s.Evaluable M P n) (hsm : P.Smooth (M.listRadius s) s) (hper : s.isPeriodic = false)
    (useDEdG : Bool) (he : M.evaluateNNP srt s true useDEdG = some (M', s')) :
    ∑ i ∈ Finset.range s.atoms.length, (s.position i).cross (s'.forceOn i) = 0 := by
  have hW : P.Within M.maxCutoffRadius s := by
    intro i hi S hS
    refine (hM.valid ?_ hS).2.2
    rw [elementOf_eq (List.getElem?_eq_getElem hi)]
    exact (hs.new.atom _ (List.getElem_mem hi)).1
  obtain ⟨E, hE⟩ := exists_isEnergy P M.maxCutoffRadius (s := s) (by simp [hper])
  have key : ∀ k : Fin 3, ∑ i ∈ Finset.range s.atoms.length,
      (s'.forceOn i).dot (Vec3.cross (Pi.single k 1) (s.position i)) = 0 := by
    intro k
    have h0 : axisRotation k 0 = 1 := by
      fin_cases k <;> ext i j <;> fin_cases i <;> fin_cases j <;> simp [axisRotation]
    have hE' : ∀ t, IsEnergy P M.maxCutoffRadius
        (s.at (fun i t => (axisRotation k t).mulVec (s.position i)) t) E := by
      intro t
      have hA : SameArrangement (axisRotation k t) 0 id 0 s
          (s.at (fun i t => (axisRotation k t).mulVec (s.position i)) t) := by
        refine ⟨axisRotation_orthogonal k t, at_length t, fun i hi => hi, fun _ _ _ _ h => h,
          fun i _ => at_elementOf t i, fun i hi => ?_, rfl, by simp [hper], fun _ _ => rfl⟩
        rw [id, at_position t hi]
        simp [shift_zero]
      exact hA.isEnergy hE
    have D := C75_forces_cluster hsrt hM hP hn hs hsm hper useDEdG he
      (fun i t => (axisRotation k t).mulVec (s.position i))
      (fun i => Vec3.cross (Pi.single k 1) (s.position i)) 0
      (fun i _ => by simp [h0]) (fun i _ => axisRotation_deriv k _) _ hW (fun _ => E) hE'
    have := D.unique (hasDerivAt_const (0 : ℝ) E)
    linarith
  funext k
  rw [Finset.sum_apply, Pi.zero_apply, ← key k]
  refine Finset.sum_congr rfl fun i _ => ?_
  fin_cases k <;> simp [Vec3.cross, Vec3.dot] <;> ring

/-- A cluster meeting the conditions. -/
example : ∃ srt M M' s', IsSort srt ∧ M.SetUp exPotential 2 ∧
    exCluster.Evaluable M exPotential 2 ∧ exPotential.Smooth (M.listRadius exCluster) exCluster ∧
    M.evaluateNNP srt exCluster true false = some (M', s') ∧
    (exCluster.position 0).cross (s'.forceOn 0) + (exCluster.position 1).cross (s'.forceOn 1) +
      (exCluster.position 2).cross (s'.forceOn 2) = 0 := by
  obtain ⟨srt, hsrt⟩ := exists_isSort
  obtain ⟨M, hM, -⟩ := exists_exMode
  have hev : exCluster.Evaluable M exPotential 2 :=
    exPotential_evaluable exCluster_new exCluster_apart
  obtain ⟨M', s', he, -⟩ := C74_energy hsrt hM exPotential_fits (by norm_num) hev true false
  refine ⟨srt, M, M', s', hsrt, hM, hev, exPotential_smooth exCluster_apart _, he, ?_⟩
  have := C77_no_torque hsrt hM exPotential_fits (by norm_num) hev
    (exPotential_smooth exCluster_apart _) rfl false he
  rw [show exCluster.atoms.length = 3 from exSystem_length, Finset.sum_range_succ,
    Finset.sum_range_succ, Finset.sum_range_one] at this
  exact this

end N2P2
