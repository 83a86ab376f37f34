import Verif.Lemma.Mode4GResult
import Verif.Lemma.Mode4GExample
import Verif.Props.Mode
import Verif.Props.QeqResponse

/-! Properties of energies, forces and charges of potentials of the fourth generation. -/

namespace N2P2

open Filter Topology

variable {M M' : Mode4G} {P : Potential4G} {n : ℕ} {s t : Structure} {ls : LinSolve}
  {srt : List Neighbor → List Neighbor}

/-! ### C82 -/

/-- C82: charges in equilibrium and energies are well defined: they do not depend on which (large
enough) environments are considered. -/
theorem C82_well_defined (hM : M.SetUp P n) (hel : ∀ a ∈ s.atoms, a.element < n)
    {U : Structure → ℕ → ℝ} {V W : Structure → ℕ → ℕ → ℝ} (hS : M.qeq.Solvable s (U s) (V s))
    {R R' : ℝ} (hR : P.Within R s) (hR' : P.Within R' s) :
    (∀ env env' x x', IsState4G P M.qeq R s (U s) (V s) env x →
      IsState4G P M.qeq R' s (U s) (V s) env' x' → ∀ i < s.atoms.length, x i = x' i) ∧
    (∀ E E', IsElecEnergy P M.qeq R U V W s E → IsElecEnergy P M.qeq R' U V W s E' → E = E') ∧
    ∀ E E', IsEnergy4G P M.qeq R U V W s E → IsEnergy4G P M.qeq R' U V W s E' → E = E' := by
  have hV : ∀ i < s.atoms.length, ∀ S ∈ P.functions (s.elementOf i), S.Valid := by
    intro i hi S hS
    refine (hM.mode.valid ?_ hS).1
    rw [elementOf_eq (List.getElem?_eq_getElem hi)]
    exact hel _ (List.getElem_mem hi)
  exact ⟨fun env env' x x' h h' => (h.unique h' hV hR hR' hS).1,
    fun E E' h h' => h.unique h' hV hR hR' hS, fun E E' h h' => h.unique h' hV hR hR' hS⟩

/-- C82: for a potential set up from a settings file and a new structure the evaluation succeeds, and
leaves the potential set up for the next evaluation. It stores charges which are in equilibrium for
the electronegativities of the environments and sum up to the total charge, the electrostatic energy
of these charges, and the potential energy. -/
theorem C82_energy (hsrt : IsSort srt) (hM : M.SetUp P n) (hP : P.Fits4G n) (hn : 0 < n)
    (useForces useDEdG : Bool) (hs : s.Evaluable4G M P n useForces) :
    ∃ p M' t U V W, (s.isPeriodic = true →
        M.ewaldSetup s.volume s.numAtoms M.qeq.ewald = some p) ∧
      M.evaluateNNP srt ls s useForces useDEdG = some (M', t) ∧ M'.SetUp P n ∧
      M'.qeq = { M.qeq with ewald := p } ∧ t.atoms.length = s.atoms.length ∧
      M'.qeq.Interacts s U V W ∧
      (ls.Correct → M'.qeq.Solvable s (U s) (V s) → ∀ R, P.Within R s →
        (∃ env, IsState4G P M'.qeq R s (U s) (V s) env fun i => (t.atom i).charge) ∧
        IsElecEnergy P M'.qeq R U V W s t.energyElec ∧
        IsEnergy4G P M'.qeq R U V W s t.energy ∧ t.charge = s.chargeRef) := by
  obtain ⟨p, hp, M', t', he, hq, -, s3, s4, t, U, V, W, El, A, B, C, h⟩ :=
    evaluated4G (ls := ls) hsrt hM hP hn useForces useDEdG hs
  have ha := withOverall_alike s (M.listRadius s p)
  have hI := h.run.interacts
  obtain ⟨e1, e2, -⟩ := ha.interacts_eq hI
  refine ⟨p, M', t', U, V, W, hp, he, h.run.setup, hq, h.length, ha.symm.interacts hI, ?_⟩
  intro hls hS R hR
  have hS' : M'.qeq.Solvable (s.withOverall (M.listRadius s p))
      (U (s.withOverall (M.listRadius s p))) (V (s.withOverall (M.listRadius s p))) := by
    rw [e1, e2]
    exact ha.solvable hS
  obtain ⟨env, g1, g2, g3, g4⟩ := h.state hM.conv hls hS' (fun hp => (hs.new.boxed hp).1) (R := R) hR
  refine ⟨⟨env, ?_⟩, ha.symm.elecEnergy hI ⟨env, _, g1, g2⟩,
    ha.symm.energy4G hI ⟨env, _, g1, ?_⟩, g4⟩
  · rw [e1, e2] at g1
    exact ha.symm.state g1
  · rw [g3, g2]

/-- An evaluation of a cluster of three atoms: charges and energies exist. -/
theorem exCluster_run (hM : M.SetUp exPotential4G 2) (hq : M.qeq = exQeq4G ⟨1, 1, 1⟩)
    (hg : M.groups = none) (hsrt : IsSort srt) (f : Bool) :
    ∃ p M' t, M.evaluateNNP srt invSolve exCluster f false = some (M', t) ∧ M'.SetUp exPotential4G 2 ∧
      M'.qeq = exQeq4G p ∧ IsEnergy4G exPotential4G (exQeq4G p) 3 (exQeq4G p).openU
        (exQeq4G p).openV (exQeq4G p).openW exCluster t.energy := by
  obtain ⟨p, M', t, U, V, W, -, he, h2, h3, -, hI, h⟩ := C82_energy (ls := invSolve) hsrt hM
    exPotential4G_fits (by norm_num) f false (exCluster_evaluable4G hg f)
  have h3 : M'.qeq = exQeq4G p := by rw [h3, hq]; rfl
  refine ⟨p, M', t, he, h2, h3, ?_⟩
  rw [h3] at hI h
  cases hI with
  | cluster _ => exact (h invSolve_correct (exCluster_solvable p) 3 exPotential4G_within).2.2.1
  | periodic hp => cases hp

/-- A potential, a solver and a cluster of three atoms meeting the conditions. -/
example : ∃ srt, ∃ M : Mode4G, ∃ p, ∃ M' : Mode4G, ∃ t : Structure, IsSort srt ∧ M.SetUp exPotential4G 2 ∧ exPotential4G.Fits4G 2 ∧
    exCluster.Evaluable4G M exPotential4G 2 true ∧
    M.evaluateNNP srt invSolve exCluster true false = some (M', t) ∧ M'.qeq = exQeq4G p ∧
    IsEnergy4G exPotential4G (exQeq4G p) 3 (exQeq4G p).openU
      (exQeq4G p).openV (exQeq4G p).openW exCluster t.energy := by
  obtain ⟨srt, hsrt⟩ := exists_isSort
  obtain ⟨M, hM, hq, hg⟩ := exists_exMode4G
  obtain ⟨p, M', t, he, -, h1, h2⟩ := exCluster_run hM hq hg hsrt true
  exact ⟨srt, M, p, M', t, hsrt, hM, exPotential4G_fits, exCluster_evaluable4G hg true, he, h1, h2⟩

/-- C82 (partial): the forces are the negative gradients of the energies. Along every motion there
are charges in equilibrium, at least for a short time; their electrostatic energy changes with the
rate given by the electrostatic forces, and the potential energy with that given by the total forces.
The same interactions describe the energies stored. Missing: total forces on atoms which have an own
periodic image within a cutoff radius of a symmetry function; the code leaves these images out, as for
potentials of the second generation (`C75_own_images_negated`). -/
theorem C82_forces_partial (hsrt : IsSort srt) (hM : M.SetUp P n) (hP : P.Fits4G n) (hn : 0 < n)
    (hls : ls.Correct) (useDEdG : Bool) (hs : s.Evaluable4G M P n true)
    (he : M.evaluateNNP srt ls s true useDEdG = some (M', t)) :
    ∃ p U V W, (s.isPeriodic = true →
        M.ewaldSetup s.volume s.numAtoms M.qeq.ewald = some p) ∧ M'.qeq.Interacts s U V W ∧
      (M'.qeq.Solvable s (U s) (V s) →
        P.Smooth4G (M.listRadius s p) s (fun i => (t.atom i).charge) → ∀ R, P.Within R s →
        IsElecEnergy P M'.qeq R U V W s t.energyElec ∧
        IsEnergy4G P M'.qeq R U V W s t.energy ∧
        s.IsForce (IsElecEnergy P M'.qeq R U V W) t.elecForceOn ∧
        (P.NoOwnImages s → s.IsForce (IsEnergy4G P M'.qeq R U V W) t.forceOn)) := by
  obtain ⟨p, hp, M1, t', he', hq, hr, s3, s4, t1, U, V, W, El, A, B, C, h⟩ :=
    evaluated4G (ls := ls) hsrt hM hP hn true useDEdG hs
  rw [he] at he'
  cases he'
  have ha := withOverall_alike s (M.listRadius s p)
  have hI := h.run.interacts
  obtain ⟨e1, e2, -⟩ := ha.interacts_eq hI
  refine ⟨p, U, V, W, hp, ha.symm.interacts hI, ?_⟩
  intro hS hsm R hR
  have hS' : M'.qeq.Solvable (s.withOverall (M.listRadius s p))
      (U (s.withOverall (M.listRadius s p))) (V (s.withOverall (M.listRadius s p))) := by
    rw [e1, e2]
    exact ha.solvable hS
  have hsm' : P.Smooth4G (M'.mode.listRadius (s.withOverall (M.listRadius s p)))
      (s.withOverall (M.listRadius s p)) fun i => (s4.atom i).charge := by
    rw [hr]
    exact smooth4G_congr (s := s) (fun i hi => (h.charge i hi).symm) hsm
  have hnew : (s.withOverall (M.listRadius s p)).New n :=
    ⟨hs.new.fresh, hs.new.boxed, hs.new.flags, hs.new.atom, hs.new.index⟩
  obtain ⟨env, g1, g2, g3, g4⟩ := h.state hM.conv hls hS' (fun hp => (hs.new.boxed hp).1) (R := R) hR
  refine ⟨ha.symm.elecEnergy hI ⟨env, _, g1, g2⟩, ha.symm.energy4G hI ⟨env, _, g1, by rw [g3, g2]⟩,
    ?_, fun hown => ?_⟩
  · refine IsForce.alike (IsE := IsElecEnergy P M'.qeq R U V W) ha.symm
      (fun s s' E ha hE => ha.elecEnergy hI hE) (fun i hi => ?_)
      (h.run.elecForce hP hM.conv hls hS' h.stage hsm' hnew hR)
    unfold Structure.elecForceOn
    rw [h.forces rfl i hi]
    rfl
  · refine IsForce.alike (IsE := IsEnergy4G P M'.qeq R U V W) ha.symm
      (fun s s' E ha hE => ha.energy4G hI hE) (fun i hi => ?_)
      (h.run.force hP hM.conv hls hS' h.stage hsm' hnew hown hR)
    unfold Structure.forceOn
    rw [h.forces rfl i hi]
    rfl

/-- The cluster, with all atoms in motion: energies exist for a short time, and change with the rate
given by the forces. -/
example : ∃ srt, ∃ M : Mode4G, ∃ p, ∃ M' : Mode4G, ∃ t : Structure, IsSort srt ∧ M.SetUp exPotential4G 2 ∧
    M.evaluateNNP srt invSolve exCluster true false = some (M', t) ∧
    ∃ E : ℝ → ℝ, (∀ᶠ x in 𝓝 0, IsEnergy4G exPotential4G (exQeq4G p) 3 (exQeq4G p).openU
        (exQeq4G p).openV (exQeq4G p).openW
        (exCluster.move fun i => exCluster.position i + x • ![1, (i : ℝ), 0]) (E x)) ∧
      HasDerivAt E (-((t.forceOn 0).dot ![1, 0, 0] + (t.forceOn 1).dot ![1, 1, 0] +
        (t.forceOn 2).dot ![1, 2, 0])) 0 := by
  obtain ⟨srt, hsrt⟩ := exists_isSort
  obtain ⟨M, hM, hq, hg⟩ := exists_exMode4G
  obtain ⟨p, M', t, he, -, h1, h2⟩ := exCluster_run hM hq hg hsrt true
  refine ⟨srt, M, p, M', t, hsrt, hM, he, ?_⟩
  obtain ⟨p', U, V, W, -, hI, h⟩ := C82_forces_partial hsrt hM exPotential4G_fits (by norm_num)
    invSolve_correct false (exCluster_evaluable4G hg true) he
  rw [h1] at hI h
  cases hI with
  | periodic hp => cases hp
  | cluster _ =>
    obtain ⟨-, -, -, h⟩ := h (exCluster_solvable p) (exPotential4G_smooth exCluster_apart _ _) 3
      exPotential4G_within
    obtain ⟨g1, g2⟩ := h exCluster_noOwnImages
      (fun i x => exCluster.position i + x • ![1, (i : ℝ), 0]) (fun i => ![1, (i : ℝ), 0]) 0
      ⟨fun i _ => by simp, fun i _ => line_deriv _ _⟩
    classical
    have hE : ∀ x : ℝ, ∃ E, (∃ E, IsEnergy4G exPotential4G (exQeq4G p) 3 (exQeq4G p).openU
        (exQeq4G p).openV (exQeq4G p).openW
        (exCluster.move fun i => exCluster.position i + x • ![1, (i : ℝ), 0]) E) →
        IsEnergy4G exPotential4G (exQeq4G p) 3 (exQeq4G p).openU
        (exQeq4G p).openV (exQeq4G p).openW
        (exCluster.move fun i => exCluster.position i + x • ![1, (i : ℝ), 0]) E := by
      intro x
      by_cases hx : ∃ E, IsEnergy4G exPotential4G (exQeq4G p) 3 (exQeq4G p).openU
        (exQeq4G p).openV (exQeq4G p).openW
        (exCluster.move fun i => exCluster.position i + x • ![1, (i : ℝ), 0]) E
      · exact ⟨hx.choose, fun _ => hx.choose_spec⟩
      · exact ⟨0, fun h => absurd h hx⟩
    choose E hE using hE
    have hev := g1.mono fun x hx => hE x hx
    refine ⟨E, hev, ?_⟩
    have := g2 E hev
    rw [show exCluster.atoms.length = 3 from exSystem_length, Finset.sum_range_succ,
      Finset.sum_range_succ, Finset.sum_range_one] at this
    simpa using this

/-! ### C83 -/

/-- C83: after an evaluation with forces `calculateDQdr` determines how the charges respond to the
requested coordinates: if only atom `i` moves, along axis `c`, charges in equilibrium exist at least
for a short time, and the charge of each atom `j` changes at the stored rate. Nothing else is
changed. -/
theorem C83_response (hsrt : IsSort srt) (hM : M.SetUp P n) (hP : P.Fits4G n) (hn : 0 < n)
    (hls : ls.Correct) (useDEdG : Bool) (hs : s.Evaluable4G M P n true)
    (he : M.evaluateNNP srt ls s true useDEdG = some (M', t)) (atomIndices compIndices : List ℕ)
    (hlen : atomIndices.length = compIndices.length) (ha : ∀ i ∈ atomIndices, i < s.atoms.length)
    (hc : ∀ c ∈ compIndices, c < 3) :
    ∃ p U V W u, (s.isPeriodic = true →
        M.ewaldSetup s.volume s.numAtoms M.qeq.ewald = some p) ∧ M'.qeq.Interacts s U V W ∧
      M'.mode.calculateDQdr ls t atomIndices compIndices = some u ∧ u.forgetDQdr = t.forgetDQdr ∧
      (M'.qeq.Solvable s (U s) (V s) →
        P.Smooth4G (M.listRadius s p) s (fun i => (t.atom i).charge) → ∀ R, P.Within R s →
        ∀ (i : ℕ) (c : Fin 3), (i, (c : ℕ)) ∈ atomIndices.zip compIndices → ∀ r t0,
          s.Moves r (fun k => if k = i then Pi.single c 1 else 0) t0 →
          let at' := fun x => s.move fun k => r k x
          (∀ᶠ x in 𝓝 t0, ∃ env Q, IsState4G P M'.qeq R (at' x) (U (at' x)) (V (at' x)) env Q) ∧
          ∀ (env : ℝ → ℕ → List Site) (Q : ℝ → ℕ → ℝ), (∀ᶠ x in 𝓝 t0,
              IsState4G P M'.qeq R (at' x) (U (at' x)) (V (at' x)) (env x) (Q x)) →
            ∀ j < s.atoms.length, Q t0 j = (t.atom j).charge ∧
              HasDerivAt (fun x => Q x j) ((u.atom i).dQdr.getD j 0 c) t0) := by
  obtain ⟨p, hp, M1, t', he', hq, hr, s3, s4, t1, U, V, W, El, A, B, C, h⟩ :=
    evaluated4G (ls := ls) hsrt hM hP hn true useDEdG hs
  rw [he] at he'
  cases he'
  have hal := withOverall_alike s (M.listRadius s p)
  have hI := h.run.interacts
  obtain ⟨e1, e2, -⟩ := hal.interacts_eq hI
  obtain ⟨u, k1, k2, k3⟩ := Responding.all (ls := ls) h.run.setup.mode (fun i hi => h.run.dAdrQ hi)
    (atomIndices.zip compIndices)
    (fun q hq => ⟨ha _ (List.of_mem_zip hq).1, hc _ (List.of_mem_zip hq).2⟩) t
    (h.run.responding hP hM.conv h.stage h.rest (h.forces rfl))
  refine ⟨p, U, V, W, u, hp, hal.symm.interacts hI, ?_, k2.rest, ?_⟩
  · unfold Mode.calculateDQdr
    rw [if_neg (by simpa using hlen)]
    exact k1
  intro hS hsm R hR i c hic r t0 hm
  have hS' : M'.qeq.Solvable (s.withOverall (M.listRadius s p))
      (U (s.withOverall (M.listRadius s p))) (V (s.withOverall (M.listRadius s p))) := by
    rw [e1, e2]
    exact hal.solvable hS
  have hsm' : P.Smooth4G (M'.mode.listRadius (s.withOverall (M.listRadius s p)))
      (s.withOverall (M.listRadius s p)) fun i => (s4.atom i).charge := by
    rw [hr]
    exact smooth4G_congr (s := s) (fun i hi => (h.charge i hi).symm) hsm
  have hnew : (s.withOverall (M.listRadius s p)).New n :=
    ⟨hs.new.fresh, hs.new.boxed, hs.new.flags, hs.new.atom, hs.new.index⟩
  have hi := ha _ (List.of_mem_zip hic).1
  have tr : ∀ x env Q, IsState4G P M'.qeq R (s.at r x) (U (s.at r x)) (V (s.at r x)) env Q ↔
      IsState4G P M'.qeq R ((s.withOverall (M.listRadius s p)).at r x)
        (U ((s.withOverall (M.listRadius s p)).at r x))
        (V ((s.withOverall (M.listRadius s p)).at r x)) env Q := by
    intro x env Q
    obtain ⟨f1, f2, -⟩ := (hal.at r x).interacts_eq hI
    rw [f1, f2]
    exact ⟨fun h => (hal.at r x).state h, fun h => (hal.at r x).symm.state h⟩
  refine ⟨?_, fun env Q hQ j hj => ?_⟩
  · refine (h.run.state_near (hal.moves hm) hS' hnew R).mono fun x ⟨env, Q, hx⟩ => ⟨env, Q, ?_⟩
    exact (tr x env Q).2 hx
  · have hQ' := hQ.mono fun x hx => (tr x (env x) (Q x)).1 hx
    have key := h.run.response_deriv hP hM.conv hls hS' h.stage hsm' hnew hi c (hal.moves hm) hR hQ' hj
    rw [k3 i c hi (.inl hic) j hj]
    refine ⟨?_, key⟩
    obtain ⟨y, hy, -⟩ := h.run.rates hls hS' A fun k => if k = i then Pi.single c 1 else 0
    rw [h.charge j hj]
    exact (h.run.charge_deriv hP hM.conv hls hS' h.stage hsm' hnew (hal.moves hm) hR hQ' hy hj).1

/-- The response of the charges of the cluster to the second coordinate of its second atom. -/
example : ∃ srt, ∃ M : Mode4G, ∃ p, ∃ M' : Mode4G, ∃ t u : Structure, IsSort srt ∧ M.SetUp exPotential4G 2 ∧
    M.evaluateNNP srt invSolve exCluster true false = some (M', t) ∧
    M'.mode.calculateDQdr invSolve t [0, 1] [2, 1] = some u ∧
    ∃ (env : ℝ → ℕ → List Site) (Q : ℝ → ℕ → ℝ), (∀ᶠ x in 𝓝 0, ∀ s', s' = exCluster.move (fun k =>
        exCluster.position k + x • if k = 1 then Pi.single 1 1 else 0) →
        IsState4G exPotential4G (exQeq4G p) 3 s' ((exQeq4G p).openU s') ((exQeq4G p).openV s')
          (env x) (Q x)) ∧
      ∀ j < 3, HasDerivAt (fun x => Q x j) ((u.atom 1).dQdr.getD j 0 1) 0 := by
  obtain ⟨srt, hsrt⟩ := exists_isSort
  obtain ⟨M, hM, hq, hg⟩ := exists_exMode4G
  obtain ⟨p, M', t, he, -, h1, h2⟩ := exCluster_run hM hq hg hsrt true
  obtain ⟨p', U, V, W, u, -, hI, hu, -, h⟩ := C83_response hsrt hM exPotential4G_fits (by norm_num)
    invSolve_correct false (exCluster_evaluable4G hg true) he [0, 1] [2, 1] rfl
    (by rw [show exCluster.atoms.length = 3 from exSystem_length]; simp) (by simp)
  refine ⟨srt, M, p, M', t, u, hsrt, hM, he, hu, ?_⟩
  rw [h1] at hI h
  cases hI with
  | periodic hp => cases hp
  | cluster _ =>
    obtain ⟨g1, g2⟩ := h (exCluster_solvable p) (exPotential4G_smooth exCluster_apart _ _) 3
      exPotential4G_within 1 1 (by simp)
      (fun k x => exCluster.position k + x • if k = 1 then Pi.single 1 1 else 0) 0
      ⟨fun i _ => by simp, fun i _ => line_deriv _ _⟩
    have hE : ∀ x : ℝ, ∃ (env : ℕ → List Site) (Q : ℕ → ℝ), ∀ s', s' = exCluster.move (fun k =>
        exCluster.position k + x • if k = 1 then Pi.single 1 1 else 0) → (∃ env Q,
        IsState4G exPotential4G (exQeq4G p) 3 s' ((exQeq4G p).openU s') ((exQeq4G p).openV s')
          env Q) →
        IsState4G exPotential4G (exQeq4G p) 3 s' ((exQeq4G p).openU s') ((exQeq4G p).openV s')
          env Q := by
      intro x
      set s' := exCluster.move (fun k =>
        exCluster.position k + x • if k = 1 then Pi.single 1 1 else 0)
      by_cases hx : ∃ env Q, IsState4G exPotential4G (exQeq4G p) 3 s' ((exQeq4G p).openU s')
        ((exQeq4G p).openV s') env Q
      · obtain ⟨env, Q, hx⟩ := hx
        exact ⟨env, Q, fun _ he _ => he ▸ hx⟩
      · exact ⟨fun _ => [], 0, fun _ he h => absurd (he ▸ h) hx⟩
    choose env Q hE using hE
    refine ⟨env, Q, g1.mono fun x hx s' hs' => hE x s' hs' (hs' ▸ hx), fun j hj => ?_⟩
    exact (g2 env Q (g1.mono fun x hx => hE x _ rfl hx) j
      (by rw [show exCluster.atoms.length = 3 from exSystem_length]; exact hj)).2

end N2P2
