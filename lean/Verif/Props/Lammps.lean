import Verif.Lemma.LammpsResult

/-! C85: energies and forces handed over to LAMMPS. -/

namespace N2P2

open Filter Topology

namespace Lammps

variable {L L' : Lammps} {D : Domain} {P : Potential} {n : ℕ} {rc : ℝ} {F F' : List Vec3}
  {A B : ℕ → Atom} {E : ℕ → ElementData}

theorem Outcome.ready (h : Outcome L P n rc D F A B E L' F') (hL : L.Ready P n rc) :
    L'.Ready P n rc := by
  have h0 := h.same
  have h1 := h.setup
  have h2 := h.radius
  have h3 := h.counts
  have h4 := h.elec
  generalize L'.mode = m at *
  generalize L'.structure' = s at *
  generalize L'.indexMap = ix at *
  subst h0
  refine ⟨h1, hL.offsets, hL.types, hL.energyUnit, hL.cfenergy, hL.cflength, hL.convLength, ?_, h3,
    h4⟩
  have := hL.cutoff
  unfold getMaxCutoffRadius at this ⊢
  simp only
  rw [h2]
  exact this

theorem Outcome.envOf (h : Outcome L P n rc D F A B E L' F') (hL : L.Ready P n rc)
    (hD : Lists D rc) {i : ℕ} (hi : i ∈ L.kept D D.nlocal) :
    IsEnvOf (L.IsOther D i) (L.site D i) (L.lengthUnit * rc) (A i).env := by
  rw [(h.carries i hi).env]
  exact (near_ball hL hD (mem_kept.1 hi).1).isEnvOf le_rfl

theorem energyOf_eq {i e : ℕ} (he : L.elementOf D i = some e) (env : List Site) :
    L.energyOf P D i env = (P.atomic e env / L.energyUnit + L.baseEnergy e) / L.cfenergy := by
  unfold energyOf
  rw [he]

theorem Outcome.isEnergy (h : Outcome L P n rc D F A B E L' F') (hL : L.Ready P n rc)
    (hD : Lists D rc) : L.IsEnergy P (L.lengthUnit * rc) D L'.getEnergy := by
  refine ⟨fun i => (A i).env, fun i hi hs => h.envOf hL hD (mem_kept.2 ⟨hi, hs⟩), ?_⟩
  have hcf : L'.cfenergy = L.cfenergy := by rw [h.same]
  unfold getEnergy
  rw [h.energy, hcf]
  have : ∀ (l : List ℕ) (f : ℕ → ℝ) (c : ℝ), (l.map f).sum / c = (l.map fun i => f i / c).sum := by
    intro l f c
    induction l with
    | nil => simp
    | cons x l ih => simp only [List.map_cons, List.sum_cons, ← ih]; ring
  rw [this]
  unfold kept
  rw [sum_filter_range]
  refine Finset.sum_congr rfl fun i hi => ?_
  have hi := Finset.mem_range.1 hi
  cases he : L.elementOf D i with
  | none =>
    rw [if_neg (by simp)]
    unfold energyOf
    rw [he]
  | some e =>
    have hk : i ∈ L.kept D D.nlocal := mem_kept.2 ⟨hi, by rw [he]; rfl⟩
    rw [if_pos (by simp), energyOf_eq he, (h.carries i hk).element, he]
    rfl

theorem IsEnergy.unique {R R' X X' : ℝ} (hL : L.Ready P n rc) (hR : P.Reach n R)
    (hR' : P.Reach n R') (h : L.IsEnergy P R D X) (h' : L.IsEnergy P R' D X') : X = X' := by
  obtain ⟨env, h1, rfl⟩ := h
  obtain ⟨env', h2, rfl⟩ := h'
  refine Finset.sum_congr rfl fun i hi => ?_
  have hi := Finset.mem_range.1 hi
  cases he : L.elementOf D i with
  | none => unfold energyOf; rw [he]
  | some e =>
    have hs : (L.elementOf D i).isSome := by rw [he]; rfl
    obtain ⟨t, -, ht⟩ := Option.bind_eq_some_iff.1 he
    have hlt := hL.types _ _ ht
    rw [energyOf_eq he, energyOf_eq he,
      atomic_envOf (fun S hS => (hL.setup.valid hlt hS).1) (hR e hlt) (hR' e hlt) (h1 i hi hs)
        (h2 i hi hs)]

theorem reach (hL : L.Ready P n rc) : P.Reach n (L.lengthUnit * rc) := fun _ he _ hS =>
  (hL.setup.valid he hS).2.2.trans (cutoff_le hL)

/-- C85: in every time step the interface evaluates the neighbour list of LAMMPS without fault and hands
over the energy of the local atoms in LAMMPS units, whatever happened before. -/
theorem C85_energy (hL : L.Ready P n rc) (hP : P.Fits n) (hn : 0 < n) (hD : Lists D rc)
    (hu : L.Suits P rc D) (F : List Vec3) (hF : F.length = D.x.length) :
    ∃ L' F', L.compute D rc F = some (L', F') ∧ L'.Ready P n rc ∧
      L.IsEnergy P (L.lengthUnit * rc) D L'.getEnergy ∧
      ∀ R X, P.Reach n R → L.IsEnergy P R D X → L'.getEnergy = X := by
  obtain ⟨A, B, E, L', F', h1, h2⟩ := compute_run hL hP hn hD hu F hF
  have h3 := h2.isEnergy hL hD
  exact ⟨L', F', h1, h2.ready hL, h3, fun R X hR hX => h3.unique hL (reach hL) hR hX⟩

theorem move_elementOf (pos : ℕ → Vec3) (i : ℕ) : L.elementOf (D.move pos) i = L.elementOf D i := rfl

theorem move_position (pos : ℕ → Vec3) {i : ℕ} (hi : i < D.x.length) :
    (D.move pos).position i = pos i := by
  simp [Domain.position, Domain.move, hi]

theorem move_isOther (pos : ℕ → Vec3) (i j : ℕ) : L.IsOther (D.move pos) i j ↔ L.IsOther D i j := by
  unfold IsOther
  rw [move_elementOf]
  simp [Domain.move]

/-- C85: the forces added to the force array of LAMMPS are minus the gradient of the energy of the local
atoms, for all local and ghost atoms. -/
theorem C85_forces (hL : L.Ready P n rc) (hP : P.Fits n) (hn : 0 < n) (hD : Lists D rc)
    (hu : L.Suits P rc D) (hsm : L.Smooth P rc D) (F : List Vec3) (hF : F.length = D.x.length) :
    ∃ L' F', L.compute D rc F = some (L', F') ∧ F'.length = F.length ∧
      ∀ (r : ℕ → ℝ → Vec3) (v : ℕ → Vec3) (t : ℝ), (∀ j < D.x.length, r j t = D.position j) →
        (∀ j < D.x.length, HasDerivAt (r j) (v j) t) → ∀ R, P.Reach n R → ∀ X : ℝ → ℝ,
        (∀ τ, L.IsEnergy P R (D.move fun j => r j τ) (X τ)) →
        HasDerivAt X (-∑ j ∈ Finset.range D.x.length,
          (forceAt F' j - forceAt F j).dot (v j)) t := by
  obtain ⟨A, B, E, L', F', h1, h2⟩ := compute_run hL hP hn hD hu F hF
  refine ⟨L', F', h1, h2.lengthF, fun r v t h0 hv R hR X hX => ?_⟩
  have hc := lengthUnit_pos hL
  set N := fun i => L.near D rc i (D.firstneigh i) with hN
  have hlx : ∀ i ∈ L.kept D D.nlocal, i < D.x.length := fun i hi =>
    lt_of_lt_of_le (mem_kept.1 hi).1 hD.local_le
  -- neighbours along the motion
  have hev : ∀ᶠ τ in 𝓝 t, ∀ i ∈ Finset.range D.nlocal, ∀ j ∈ Finset.range D.x.length,
      L.lengthUnit * rc < (L.site D i j).dr.norm →
      L.lengthUnit * rc < (L.lengthUnit • (r i τ - r j τ)).norm := by
    refine (Finset.eventually_all _).2 fun i hi => (Finset.eventually_all _).2 fun j hj => ?_
    have hi := lt_of_lt_of_le (Finset.mem_range.1 hi) hD.local_le
    have hj := Finset.mem_range.1 hj
    by_cases hlt : L.lengthUnit * rc < (L.site D i j).dr.norm
    · have hcont : ContinuousAt (fun τ => (L.lengthUnit • (r i τ - r j τ)).norm) t :=
        continuous_norm3.continuousAt.comp (f := fun τ => L.lengthUnit • (r i τ - r j τ))
          (((hv i hi).continuousAt.sub (hv j hj).continuousAt).const_smul L.lengthUnit)
      have := hcont.eventually (lt_mem_nhds (a := L.lengthUnit * rc) (by
        beta_reduce
        rw [h0 i hi, h0 j hj]
        exact hlt))
      filter_upwards [this] with τ hτ _
      exact hτ
    · exact Eventually.of_forall fun τ h => absurd h hlt
  set env : ℕ → ℝ → List Site := fun i τ => (A i).envAt fun k =>
    L.lengthUnit • (r i τ - r (((N i)[k]?).getD 0) τ) with henv
  have hnl : ∀ i ∈ L.kept D D.nlocal, (A i).neighbors.length = (N i).length := by
    intro i hi
    rw [(h2.carries i hi).neighbors, List.length_map]
  have hel : ∀ i ∈ L.kept D D.nlocal, ∃ e, L.elementOf D i = some e ∧ (A i).element = e ∧ e < n := by
    intro i hi
    obtain ⟨e, he⟩ := Option.isSome_iff_exists.1 (mem_kept.1 hi).2
    have h3 : (A i).element = e := by rw [(h2.carries i hi).element, he]; rfl
    exact ⟨e, he, h3, h3 ▸ (h2.pair i hi).lt h2.setup⟩
  have hfun : X =ᶠ[𝓝 t] fun τ => ((L.kept D D.nlocal).map fun i =>
      (P.atomic (A i).element (env i τ) / L.energyUnit + L.baseEnergy (A i).element) /
        L.cfenergy).sum := by
    filter_upwards [hev] with τ hτ
    refine (hX τ).unique hL hR (reach hL) ⟨fun i => env i τ, ?_, ?_⟩
    · intro i hi hs
      have hi : i < D.nlocal := hi
      have hk := mem_kept.2 ⟨hi, hs⟩
      refine ⟨N i, (hD.neighbors i hi).1.filter _, fun j hj => ?_, fun j hj hle => ?_, ?_⟩
      · rw [move_isOther]
        exact ((mem_near hL hD hi).1 hj).1
      · rw [move_isOther] at hj
        rw [hN]
        rw [mem_near hL hD hi]
        refine ⟨hj, ?_⟩
        by_contra hgt
        push Not at hgt
        have := hτ i (Finset.mem_range.2 hi) j (Finset.mem_range.2 hj.1) hgt
        unfold site at hle
        rw [move_position _ (hlx i hk), move_position _ hj.1] at hle
        simp only at hle
        linarith
      · refine List.ext_getElem (by simp [henv, Atom.envAt, hnl i hk]) fun k g1 g2 => ?_
        have g2 : k < (N i).length := by simpa using g2
        have hj := ((mem_near hL hD hi).1 (List.getElem_mem g2)).1
        have hs : L.site (D.move fun j => r j τ) i ((N i)[k]) =
            ⟨(L.elementOf D ((N i)[k])).getD 0, L.lengthUnit • (r i τ - r ((N i)[k]) τ)⟩ := by
          unfold site
          rw [move_position _ (hlx i hk), move_position _ hj.1, move_elementOf]
        have hl : ((A i).envAt fun k => L.lengthUnit • (r i τ - r (((N i)[k]?).getD 0) τ))[k]? =
            some ⟨(L.elementOf D ((N i)[k])).getD 0, L.lengthUnit • (r i τ - r ((N i)[k]) τ)⟩ := by
          unfold Atom.envAt
          rw [(h2.carries i hk).neighbors, List.getElem?_mapIdx, List.getElem?_map,
            show (L.near D rc i (D.firstneigh i))[k]? = some ((N i)[k]) from
              List.getElem?_eq_getElem g2]
          simp only [Option.map_some, List.getElem?_eq_getElem g2, Option.getD_some]
          rfl
        rw [List.getElem_map, hs]
        exact (List.getElem?_eq_some_iff.1 hl).2
    · unfold kept
      rw [sum_filter_range]
      refine Finset.sum_congr rfl fun i hi => ?_
      have hi := Finset.mem_range.1 hi
      cases he : L.elementOf D i with
      | none =>
        rw [if_neg (by simp)]
        unfold energyOf
        rw [move_elementOf, he]
      | some e =>
        have hk : i ∈ L.kept D D.nlocal := mem_kept.2 ⟨hi, by rw [he]; rfl⟩
        rw [if_pos (by simp), energyOf_eq (e := e) (by rw [move_elementOf]; exact he),
          (h2.carries i hk).element, he]
        rfl
  have hone : ∀ i ∈ L.kept D D.nlocal, HasDerivAt (fun τ =>
      (P.atomic (A i).element (env i τ) / L.energyUnit + L.baseEnergy (A i).element) / L.cfenergy)
      (((ownGrad P (A i)).dot (L.lengthUnit • v i) -
        ∑ k ∈ Finset.range (A i).neighbors.length,
          (forceOnNb P (A i) k).dot (L.lengthUnit • v (nbIndex (A i) k))) / L.energyUnit /
        L.cfenergy) t := by
    intro i hi
    have hi1 := (mem_kept.1 hi).1
    obtain ⟨e, he, hAe, hlt⟩ := hel i hi
    have hcar := h2.carries i hi
    obtain ⟨q1, q2⟩ := hsm i hi1 e he _ (near_ball hL hD hi1)
    rw [← hcar.env, ← hAe] at q1 q2
    refine ((((h2.pair i hi).deriv h2.setup hP q1 q2 ?_ ?_).div_const _).add_const _).div_const _
    · intro k nb hk
      rw [hcar.neighbors, List.getElem?_map] at hk
      obtain ⟨j, hj, rfl⟩ := Option.map_eq_some_iff.1 hk
      have hj' := ((mem_near hL hD hi1).1 (List.mem_of_getElem? hj)).1
      show L.lengthUnit • (r i t - r (((N i)[k]?).getD 0) t) = _
      rw [show (N i)[k]? = some j from hj, Option.getD_some, h0 i (hlx i hi), h0 j hj'.1]
      rfl
    · intro k hk
      have hk' : k < (N i).length := by rw [← hnl i hi]; exact hk
      have hj := ((mem_near hL hD hi1).1 (List.getElem_mem hk')).1
      rw [hcar.nbIndex (List.getElem?_eq_getElem hk'), ← smul_sub]
      show HasDerivAt (fun τ => L.lengthUnit • (r i τ - r (((N i)[k]?).getD 0) τ)) _ t
      rw [List.getElem?_eq_getElem hk', Option.getD_some]
      exact HasDerivAt.const_smul L.lengthUnit ((hv i (hlx i hi)).sub (hv _ hj.1))
  have hsum : ∀ l : List ℕ, (∀ i ∈ l, i ∈ L.kept D D.nlocal) → HasDerivAt (fun τ => (l.map fun i =>
      (P.atomic (A i).element (env i τ) / L.energyUnit + L.baseEnergy (A i).element) /
        L.cfenergy).sum) (l.map fun i => ((ownGrad P (A i)).dot (L.lengthUnit • v i) -
        ∑ k ∈ Finset.range (A i).neighbors.length,
          (forceOnNb P (A i) k).dot (L.lengthUnit • v (nbIndex (A i) k))) / L.energyUnit /
        L.cfenergy).sum t := by
    intro l hl
    induction l with
    | nil => simpa using hasDerivAt_const t (0 : ℝ)
    | cons i l ih =>
      simp only [List.map_cons, List.sum_cons]
      exact (hone i (hl i (by simp))).add (ih fun j hj => hl j (by simp [hj]))
  refine ((hsum _ fun _ h => h).congr_of_eventuallyEq hfun).congr_deriv ?_
  have hw := h2.work v
  have hdiff : ∑ j ∈ Finset.range D.x.length, (forceAt F' j - forceAt F j).dot (v j) =
      work F.length F' v - work F.length F v := by
    unfold work
    rw [hF, ← Finset.sum_sub_distrib]
    exact Finset.sum_congr rfl fun j _ => sub_dot _ _ _
  rw [hdiff, hw, add_sub_cancel_left]
  generalize L.kept D D.nlocal = l
  induction l with
  | nil => simp
  | cons i l ih =>
    simp only [List.map_cons, List.sum_cons, neg_add, ← ih]
    congr 1
    have hs : ∀ u w : Vec3, u.dot (L.lengthUnit • w) = L.lengthUnit * u.dot w := by
      intro u w
      simp [Vec3.dot]
      ring
    simp only [hs, ← Finset.mul_sum]
    ring

/-- C85: nothing is added to the force on an atom of an ignored type. -/
theorem C85_ignored (hL : L.Ready P n rc) (hP : P.Fits n) (hn : 0 < n) (hD : Lists D rc)
    (hu : L.Suits P rc D) (F : List Vec3) (hF : F.length = D.x.length) :
    ∃ L' F', L.compute D rc F = some (L', F') ∧
      ∀ j, L.elementOf D j = none → forceAt F' j = forceAt F j := by
  obtain ⟨A, B, E, L', F', h1, h2⟩ := compute_run hL hP hn hD hu F hF
  refine ⟨L', F', h1, fun j hj => ?_⟩
  by_cases hlt : j < F.length
  · have key : ∀ u : Vec3, (forceAt F' j).dot u = (forceAt F j).dot u := by
      intro u
      have hw := h2.work fun m => if m = j then u else 0
      have hz : ∀ m, (L.elementOf D m).isSome → (if m = j then u else 0) = 0 := by
        intro m hm
        rw [if_neg]
        rintro rfl
        rw [hj] at hm
        cases hm
      have hsum : ∀ G : List Vec3, work F.length G (fun m => if m = j then u else 0) =
          (forceAt G j).dot u := by
        intro G
        unfold work
        rw [Finset.sum_eq_single j]
        · beta_reduce
          rw [if_pos rfl]
        · intro m _ hm
          beta_reduce
          rw [if_neg hm]
          simp [Vec3.dot]
        · intro h
          exact absurd (Finset.mem_range.2 hlt) h
      rw [hsum, hsum] at hw
      rw [hw, add_eq_left]
      refine List.sum_eq_zero fun x hx => ?_
      obtain ⟨i, hi, rfl⟩ := List.mem_map.1 hx
      have hi1 := mem_kept.1 hi
      rw [hz i hi1.2, Finset.sum_eq_zero]
      · simp [Vec3.dot]
      · intro k hk
        have hcar := h2.carries i hi
        have hk : k < (L.near D rc i (D.firstneigh i)).length := by
          have := Finset.mem_range.1 hk
          rw [hcar.neighbors, List.length_map] at this
          exact this
        have hm := ((mem_near hL hD hi1.1).1 (List.getElem_mem hk)).1
        rw [hcar.nbIndex (List.getElem?_eq_getElem hk), hz _ hm.2.2]
        simp [Vec3.dot]
    funext k
    have := key (Pi.single k 1)
    fin_cases k <;> simpa [Vec3.dot] using this
  · unfold forceAt
    have := h2.lengthF
    rw [List.getElem?_eq_none (by omega), List.getElem?_eq_none (by omega)]

/-- C85: atomic energies, if no local atom is ignored. -/
theorem C85_atomic_partial (hL : L.Ready P n rc) (hP : P.Fits n) (hn : 0 < n) (hD : Lists D rc)
    (hu : L.Suits P rc D) (F : List Vec3) (hF : F.length = D.x.length)
    (hall : ∀ i < D.nlocal, (L.elementOf D i).isSome) :
    ∃ L' F' es, L.compute D rc F = some (L', F') ∧ L'.atomicEnergies D = some es ∧
      es.length = D.nlocal ∧ L'.getEnergy = es.sum ∧ ∀ i < D.nlocal, ∀ R env, P.Reach n R →
        IsEnvOf (L.IsOther D i) (L.site D i) R env → es[i]? = some (L.energyOf P D i env) := by
  obtain ⟨A, B, E, L', F', h1, h2⟩ := compute_run hL hP hn hD hu F hF
  have hk : L.kept D D.nlocal = List.range D.nlocal := by
    unfold kept
    rw [List.filter_eq_self]
    intro i hi
    exact hall i (List.mem_range.1 hi)
  have hmem : ∀ i < D.nlocal, i ∈ L.kept D D.nlocal := fun i hi => mem_kept.2 ⟨hi, hall i hi⟩
  have hoff : L'.offsets = L.offsets := by rw [h2.same]
  have hcf : L'.cfenergy = L.cfenergy := by rw [h2.same]
  have hun : L'.units = L.units := by rw [h2.same]
  have hno : L'.normalize = L.normalize := by rw [h2.same]
  have hone : ∀ i ∈ List.range D.nlocal, L'.getAtomicEnergy i =
      some (L.energyOf P D i (A i).env) := by
    intro i hi
    have hi := List.mem_range.1 hi
    have hm := hmem i hi
    obtain ⟨e, he⟩ := Option.isSome_iff_exists.1 (hall i hi)
    have hAe : (A i).element = e := by rw [(h2.carries i hm).element, he]; rfl
    have hlt : e < n := hAe ▸ (h2.pair i hm).lt h2.setup
    have hget : L'.structure'.atoms[i]? = some (evaluatedAtom P true (B i)) := by
      rw [h2.atoms, hk, List.getElem?_map, List.getElem?_range hi]
      rfl
    have hBe : (evaluatedAtom P true (B i)).element = e := (h2.pair i hm).element.trans hAe
    have hoe : L.offsets[e]? = some (L.offsets.getD e 0) := by
      rw [List.getD_eq_getElem?_getD, List.getElem?_eq_getElem (by rw [hL.offsets]; exact hlt)]
      rfl
    unfold getAtomicEnergy
    rw [hget]
    simp only [Option.bind_eq_bind, Option.bind_some]
    rw [hBe, hoff, hoe, hno, hcf, hun, (h2.pair i hm).energy h2.setup, hAe, energyOf_eq he]
    simp only [Option.bind_some]
    unfold energyUnit baseEnergy
    cases L.normalize with
    | true =>
      simp only [if_true]
      show some _ = some _
      rw [add_assoc]
    | false => simp
  refine ⟨L', F', (List.range D.nlocal).map fun i => L.energyOf P D i (A i).env, h1,
    mapM_eq_map _ _ _ hone, by simp, ?_, ?_⟩
  · have h3 := h2.isEnergy hL hD
    refine h3.unique hL (reach hL) (reach hL) ⟨fun i => (A i).env, fun i hi _ =>
      h2.envOf hL hD (hmem i hi), rfl⟩
  · intro i hi R env hR henv
    obtain ⟨e, he⟩ := Option.isSome_iff_exists.1 (hall i hi)
    have hm := hmem i hi
    have hAe : (A i).element = e := by rw [(h2.carries i hm).element, he]; rfl
    have hlt : e < n := hAe ▸ (h2.pair i hm).lt h2.setup
    rw [List.getElem?_map, List.getElem?_range hi, Option.map_some, energyOf_eq he, energyOf_eq he,
      atomic_envOf (fun S hS => (hL.setup.valid hlt hS).1) (reach hL e hlt) (hR e hlt)
        (h2.envOf hL hD hm) henv]

/-- Disagreement with C85: as soon as one local atom is ignored the request for atomic energies throws
`std::out_of_range`, as LAMMPS indices are used for the shorter list of atoms. -/
theorem C85_atomic_ignored (hL : L.Ready P n rc) (hP : P.Fits n) (hn : 0 < n) (hD : Lists D rc)
    (hu : L.Suits P rc D) (F : List Vec3) (hF : F.length = D.x.length)
    (hsome : ∃ i < D.nlocal, L.elementOf D i = none) :
    ∃ L' F', L.compute D rc F = some (L', F') ∧ L'.atomicEnergies D = none := by
  obtain ⟨A, B, E, L', F', h1, h2⟩ := compute_run hL hP hn hD hu F hF
  refine ⟨L', F', h1, ?_⟩
  obtain ⟨i, hi, he⟩ := hsome
  have hlen : L'.structure'.atoms.length < D.nlocal := by
    rw [h2.atoms, List.length_map]
    unfold kept
    have : ((List.range D.nlocal).filter fun i => (L.elementOf D i).isSome).length <
        (List.range D.nlocal).length := by
      rw [List.length_filter_lt_length_iff_exists]
      exact ⟨i, List.mem_range.2 hi, by rw [he]; simp⟩
    simpa using this
  unfold atomicEnergies
  cases hm : (List.range D.nlocal).mapM L'.getAtomicEnergy with
  | none => rfl
  | some es =>
    exfalso
    obtain ⟨b, -, hb⟩ := (mapM_some hm).2 (D.nlocal - 1) (D.nlocal - 1)
      (List.getElem?_range (by omega))
    unfold getAtomicEnergy at hb
    rw [List.getElem?_eq_none (by omega)] at hb
    cases hb

/-- Disagreement with C85: an atom behind an ignored atom gets the tag of another atom. -/
theorem C85_tags_ignored (hL : L.Ready P n rc) (hP : P.Fits n) (hn : 0 < n) (hD : Lists D rc)
    (hu : L.Suits P rc D) (F : List Vec3) (hF : F.length = D.x.length) (htag : (D.tag.take D.nlocal).Nodup)
    {i j : ℕ} (hi : i < D.nlocal) (hs : (L.elementOf D i).isSome) (hj : j < i)
    (hjn : L.elementOf D j = none) :
    ∃ L' F' a, L.compute D rc F = some (L', F') ∧ a ∈ L'.structure'.atoms ∧ a.index = i ∧
      D.tag[i]? ≠ some a.tag ∧ a.tag ∈ D.tag := by
  obtain ⟨A, B, E, L', F', h1, h2⟩ := compute_run hL hP hn hD hu F hF
  have hm := mem_kept.2 ⟨hi, hs⟩
  have hg := kept_get hi hs
  have ht := h2.tags _ i hg
  have hlt : (L.kept D i).length < i := by
    unfold kept
    have : ((List.range i).filter fun i => (L.elementOf D i).isSome).length <
        (List.range i).length := by
      rw [List.length_filter_lt_length_iff_exists]
      exact ⟨j, List.mem_range.2 hj, by rw [hjn]; simp⟩
    simpa using this
  have hil : i < D.tag.length := by
    rw [hD.tags]; exact lt_of_lt_of_le hi hD.local_le
  have ht' : (B i).tag = D.tag[(L.kept D i).length] := by
    rw [ht, List.getD_eq_getElem?_getD, List.getElem?_eq_getElem (by omega)]
    rfl
  refine ⟨L', F', evaluatedAtom P true (B i), h1, ?_, ?_, ?_, ?_⟩
  · rw [h2.atoms]
    exact List.mem_map_of_mem hm
  · exact (h2.pair i hm).index.trans (h2.carries i hm).index
  · rw [List.getElem?_eq_getElem hil]
    intro h
    have h := Option.some.inj h
    change D.tag[i] = (B i).tag at h
    rw [ht'] at h
    have := (List.Nodup.getElem_inj_iff htag (i := i) (j := (L.kept D i).length)
      (hi := by rw [List.length_take]; omega) (hj := by rw [List.length_take]; omega)).1
      (by rw [List.getElem_take, List.getElem_take]; exact h)
    omega
  · show (B i).tag ∈ _
    rw [ht']
    exact List.getElem_mem _

/-! ### Example -/

/-- Three local atoms, the second one of an ignored type, and a ghost atom, the image of the first one. -/
noncomputable def exDomain : Domain where
  nlocal := 3
  x := (List.range 4).map fun i : ℕ => ![(i : ℝ) / 4, 0, 0]
  type := [1, 2, 3, 1]
  tag := [7, 5, 9, 7]
  ilist := [2, 0, 1]
  firstneigh i := (List.range 4).filter (· ≠ i)

theorem exDomain_position {i : ℕ} (hi : i < 4) : exDomain.position i = ![(i : ℝ) / 4, 0, 0] := by
  unfold Domain.position exDomain
  rw [List.getElem?_map, List.getElem?_range hi]
  rfl

theorem exDomain_ne {i j : ℕ} (hi : i < 4) (hj : j < 4) (h : i ≠ j) :
    exDomain.position i ≠ exDomain.position j := by
  rw [exDomain_position hi, exDomain_position hj]
  intro e
  have e0 := congrFun e 0
  simp only [Matrix.cons_val_zero] at e0
  have e1 : (i : ℝ) = j := by linarith
  exact h (by exact_mod_cast e1)

theorem exDomain_lists (rc : ℝ) : Lists exDomain rc := by
  refine ⟨by simp [exDomain], by simp [exDomain], by simp [exDomain], ⟨by decide, ?_⟩, ?_⟩
  · intro i
    simp only [exDomain, List.mem_cons, List.not_mem_nil, or_false]
    omega
  · intro i hi
    refine ⟨List.Nodup.filter _ List.nodup_range, fun j hj => ?_, fun j hj hne _ => ?_⟩
    · obtain ⟨h1, h2⟩ := List.mem_filter.1 hj
      exact ⟨by simpa [exDomain] using h1, by simpa using h2⟩
    · exact List.mem_filter.2 ⟨by simpa [exDomain] using hj, by simpa using hne⟩

/-- An interface with normalized units, conversion factors and an ignored type. -/
theorem exists_exLammps : ∃ L : Lammps, L.Ready exPotential 2 1 ∧ L.normalize = true ∧
    L.lengthUnit = 6 ∧ L.energyUnit = 4 ∧ L.cfenergy = 5 ∧ L.baseEnergy 0 = -2 ∧
    L.typeToElement 1 = some 0 ∧ L.typeToElement 2 = none ∧ L.typeToElement 3 = some 1 := by
  obtain ⟨M, hM, hr⟩ := exists_exMode
  refine ⟨{ mode := M, offsets := [1, 2], normalize := true,
            units := { meanEnergy := -3, convEnergy := 4, convLength := 2, convCharge := 1 },
            cflength := 3, cfenergy := 5,
            typeToElement := fun t => if t = 1 then some 0 else if t = 3 then some 1 else none,
            myRank := 1,
            structure' := { Structure.init with numAtomsPerElement := [4, 7] }, indexMap := [] },
    ⟨hM, rfl, ?_, ?_, ?_, ?_, ?_, ?_, rfl, rfl⟩, rfl, ?_, if_pos rfl, rfl, ?_, rfl, rfl, rfl⟩
  · intro t e h
    dsimp only at h
    split_ifs at h <;> cases h <;> decide
  · show (if true then (4 : ℝ) else 1) ≠ 0
    norm_num
  · show (5 : ℝ) ≠ 0
    norm_num
  · show (0 : ℝ) < 3
    norm_num
  · intro _
    show (0 : ℝ) < 2
    norm_num
  · show (if true then M.maxCutoffRadius / 2 / 3 else _) ≤ (1 : ℝ)
    rw [hr]
    norm_num
  · show (3 : ℝ) * (if true then 2 else 1) = 6
    norm_num
  · show (if true then (-3 : ℝ) else 0) + 1 = -2
    norm_num

theorem exDomain_length : exDomain.x.length = 4 := by simp [exDomain]

theorem exDomain_suits (L : Lammps) (rc : ℝ) : L.Suits exPotential rc exDomain := by
  refine ⟨fun i hi j _ hj => exDomain_ne (Nat.lt_succ_of_lt hi) (exDomain_length ▸ hj.1) hj.2.1.symm,
    ?_⟩
  intro i _ e _ S hS env _ h
  rw [List.mem_singleton.1 hS] at h
  exact absurd (Or.inr (Or.inr (Or.inl rfl))) h

theorem exDomain_smooth {L : Lammps} (hc : L.lengthUnit ≠ 0) (rc : ℝ) :
    L.Smooth exPotential rc exDomain := by
  rintro i hi e he _ ⟨l, h1, h2, rfl⟩
  refine ⟨fun S hS => ?_, fun _ _ _ _ => trivial⟩
  rw [List.mem_singleton.1 hS]
  refine ⟨fun _ => nofun, fun _ => ?_,
    fun _ _ => Or.inr (Or.inl ⟨le_rfl, by show |(1 : ℝ)| ≤ 1; norm_num⟩)⟩
  rw [List.pairwise_map]
  refine (List.Pairwise.and_mem.1 h1).imp ?_
  rintro p q ⟨hp, hq, hne⟩
  have hp := ((h2 p).1 hp).1.1
  have hq := ((h2 q).1 hq).1.1
  rw [exDomain_length] at hp hq
  refine norm_pos_of_ne fun h0 => ?_
  have : L.lengthUnit • (exDomain.position q - exDomain.position p) = 0 := by
    rw [← h0]
    show _ = L.lengthUnit • (exDomain.position i - exDomain.position p) -
      L.lengthUnit • (exDomain.position i - exDomain.position q)
    rw [← smul_sub]
    congr 1
    abel
  exact exDomain_ne hq hp hne.symm (sub_eq_zero.1 ((smul_eq_zero.1 this).resolve_left hc))

/-- The hypotheses of the theorems hold for the example; one local atom is ignored, and one is behind it. -/
example : ∃ L : Lammps, L.Ready exPotential 2 1 ∧ exPotential.Fits 2 ∧ Lists exDomain 1 ∧
    L.Suits exPotential 1 exDomain ∧ L.Smooth exPotential 1 exDomain ∧ L.lengthUnit = 6 ∧
    L.elementOf exDomain 1 = none ∧ L.elementOf exDomain 2 = some 1 ∧
    (exDomain.tag.take exDomain.nlocal).Nodup ∧ exPotential.Reach 2 (L.lengthUnit * 1) := by
  obtain ⟨L, h, -, h1, -, -, -, -, h3, h4⟩ := exists_exLammps
  refine ⟨L, h, exPotential_fits, exDomain_lists 1, exDomain_suits L 1,
    exDomain_smooth (by rw [h1]; norm_num) 1, h1, ?_, ?_, by decide, reach h⟩
  · exact h3
  · exact h4

/-- The energy of the first atom is not constant: it depends on its distance to the others. -/
example : ∃ (L : Lammps) (F : List Vec3), L.Ready exPotential 2 1 ∧ F.length = exDomain.x.length ∧
    ∀ env, IsEnvOf (L.IsOther exDomain 0) (L.site exDomain 0) 6 env →
      L.energyOf exPotential exDomain 0 env = ((exFn 0).formula env + 2 - 8) / 20 := by
  obtain ⟨L, h, -, h1, h2, h3, h4, h5, -⟩ := exists_exLammps
  refine ⟨L, List.replicate 4 0, h, by simp [exDomain], fun env _ => ?_⟩
  rw [energyOf_eq (D := exDomain) (i := 0) (e := 0) h5, exPotential_atomic, h2, h3, h4]
  ring

/-- A domain in which no atom is ignored. -/
example : ∃ L : Lammps, L.Ready exPotential 2 1 ∧
    (∀ i < ({ exDomain with type := [1, 3, 3, 1] } : Domain).nlocal,
      (L.elementOf { exDomain with type := [1, 3, 3, 1] } i).isSome) ∧
    Lists { exDomain with type := [1, 3, 3, 1] } 1 ∧
    L.Suits exPotential 1 { exDomain with type := [1, 3, 3, 1] } := by
  obtain ⟨L, h, -, -, -, -, -, h5, -, h6⟩ := exists_exLammps
  have hl := exDomain_lists 1
  refine ⟨L, h, ?_, ⟨hl.local_le, by simp [exDomain], hl.tags, hl.ilist, hl.neighbors⟩, ?_⟩
  · intro i hi
    have hi : i < 3 := hi
    have : L.elementOf { exDomain with type := [1, 3, 3, 1] } i =
        ([1, 3, 3, 1][i]?).bind L.typeToElement := rfl
    rw [this]
    interval_cases i
    · show (L.typeToElement 1).isSome
      rw [h5]; rfl
    · show (L.typeToElement 3).isSome
      rw [h6]; rfl
    · show (L.typeToElement 3).isSome
      rw [h6]; rfl
  · refine ⟨fun i hi j _ hj => exDomain_ne (Nat.lt_succ_of_lt hi) (exDomain_length ▸ hj.1)
      hj.2.1.symm, ?_⟩
    intro i _ e _ S hS env _ h
    rw [List.mem_singleton.1 hS] at h
    exact absurd (Or.inr (Or.inr (Or.inl rfl))) h

end Lammps

end N2P2
