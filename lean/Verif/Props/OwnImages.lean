import Verif.Lemma.OwnImages

/-! The forces of a whole structure, also for atoms which see their own periodic images (C75, C76). -/

namespace N2P2

open Filter Topology

variable {M M' : Mode} {P : Potential} {n : ℕ} {s s' : Structure}
  {srt : List Neighbor → List Neighbor}

/-- C75 (what the program calculates in general): the force on an atom is the negative gradient of the
energy in which the atom sees its own periodic images fixed, while the other atoms see them move. -/
theorem C75_forces_exact (hsrt : IsSort srt) (hM : M.SetUp P n) (hP : P.Fits n) (hn : 0 < n)
    (hs : s.Evaluable M P n) (hsm : P.Smooth (M.listRadius s) s) (useDEdG : Bool)
    (he : M.evaluateNNP srt s true useDEdG = some (M', s')) (i : ℕ) (hi : i < s.atoms.length)
    (x : ℝ → Vec3) (v : Vec3) (t : ℝ) (h0 : x t = 0) (hv : HasDerivAt x v t) (R : ℝ)
    (hR : P.Within R s) (E : ℝ → ℝ) (hE : ∀ y, IsEnergyFrozen P R s i (x y) (E y)) :
    HasDerivAt E (-(s'.forceOn i).dot v) t :=
  forces_frozen hsrt hM hP hn hs hsm useDEdG he hi x v t h0 hv R hR E hE

/-- A crystal in which an atom sees its own images. -/
example : ∃ srt M M' s', IsSort srt ∧ M.SetUp exPotential 2 ∧
    exCrystal.Evaluable M exPotential 2 ∧ M.evaluateNNP srt exCrystal true false = some (M', s') ∧
    ∃ E : ℝ → ℝ, HasDerivAt E (-(s'.forceOn 0).dot ![0, 1, 0]) 0 ∧
      ∀ y, IsEnergyFrozen exPotential 3 exCrystal 0 (y • ![0, 1, 0]) (E y) := by
  obtain ⟨srt, hsrt⟩ := exists_isSort
  obtain ⟨M, hM, -⟩ := exists_exMode
  have hev : exCrystal.Evaluable M exPotential 2 :=
    exPotential_evaluable exCrystal_new exCrystal_apart
  obtain ⟨M', s', he, -⟩ := C74_energy hsrt hM exPotential_fits (by norm_num) hev true false
  have hi : 0 < exCrystal.atoms.length := by rw [exCrystal_length]; norm_num
  have hE : ∀ y : ℝ, ∃ E, IsEnergyFrozen exPotential 3 exCrystal 0 (y • ![0, 1, 0]) E := fun y =>
    exists_isEnergyFrozen _ _ (fun hp => (exCrystal_new.boxed hp).1) 0 hi _
  choose E hE using hE
  refine ⟨srt, M, M', s', hsrt, hM, hev, he, E, ?_, hE⟩
  refine C75_forces_exact hsrt hM exPotential_fits (by norm_num) hev
    (exPotential_smooth exCrystal_apart _) false he 0 hi _ _ 0 (zero_smul _ _) ?_ 3 ?_ E hE
  · simpa using (hasDerivAt_id (0 : ℝ)).smul_const (![0, 1, 0] : Vec3)
  · intro i _ S hS
    simp only [exPotential, List.mem_singleton] at hS
    rw [hS]
    exact le_rfl

/-! ### C76 -/

section Same

variable {Q : Matrix (Fin 3) (Fin 3) ℝ} {w : Vec3} {σ : ℕ → ℕ} {m : ℕ → Fin 3 → ℤ}
  (h : SameArrangement Q w σ m s s')
include h

theorem SameArrangement.displace {i : ℕ} (hi : i < s.atoms.length) (x : Vec3) :
    SameArrangement Q w σ m (s.displace i x) (s'.displace (σ i) (Q.mulVec x)) := by
  have hl : ∀ (s : Structure) f, (s.move f).atoms.length = s.atoms.length := fun s f => by
    simp [Structure.move]
  refine ⟨h.orthogonal, ?_, ?_, ?_, ?_, ?_, h.periodic, h.box, h.inside⟩
  · rw [Structure.displace, Structure.displace, hl, hl, h.length]
  · rw [Structure.displace, hl]; exact h.range
  · rw [Structure.displace, hl]; exact h.injective
  · intro k hk
    rw [Structure.displace, hl] at hk
    exact (at_elementOf (r := fun i (_ : ℝ) => _) 0 _).trans
      ((h.element k hk).trans (at_elementOf (r := fun i (_ : ℝ) => _) 0 _).symm)
  · intro k hk
    rw [Structure.displace, hl] at hk
    have hk' : σ k < s'.atoms.length := by rw [h.length]; exact h.range k hk
    have e1 : (s.displace i x).position k = s.position k + if k = i then x else 0 :=
      at_position (r := fun k (_ : ℝ) => s.position k + if k = i then x else 0) 0 hk
    have e2 : (s'.displace (σ i) (Q.mulVec x)).position (σ k) =
        s'.position (σ k) + if σ k = σ i then Q.mulVec x else 0 :=
      at_position (r := fun k (_ : ℝ) => s'.position k + if k = σ i then Q.mulVec x else 0) 0 hk'
    rw [e1, e2, h.position k hk]
    show _ = Q.mulVec (_ + shift s.box (m k)) + w
    by_cases e : k = i
    · subst e
      rw [if_pos rfl, if_pos rfl]
      simp only [Matrix.mulVec_add]
      abel
    · rw [if_neg e, if_neg fun e' => e (h.injective k hk i hi e')]
      simp

theorem SameArrangement.isEnvDisplaced {R : ℝ} {i : ℕ} (hi : i < s.atoms.length) {x : Vec3}
    {env : List Site} (he : IsEnvDisplaced s R i x env) :
    IsEnvDisplaced s' R (σ i) (Q.mulVec x) (env.map (Site.rotate Q)) := by
  obtain ⟨imgs, h1, h2, h3, rfl⟩ := he
  refine ⟨imgs.map fun p => (σ p.1, p.2 + (m p.1 - m i)), ?_, ?_, ?_, ?_⟩
  · refine h1.map_on ?_
    rintro ⟨j, n⟩ hp ⟨j', n'⟩ hp' e
    simp only [Prod.mk.injEq] at e
    have := h.injective j (h2 _ hp).1 j' (h2 _ hp').1 e.1
    subst this
    have e2 := add_right_cancel e.2
    rw [e2]
  · intro p hp
    obtain ⟨⟨j, n⟩, hq, rfl⟩ := List.mem_map.1 hp
    exact (h.partner hi (h2 _ hq).1 n).2 (h2 _ hq)
  · rintro ⟨k, l⟩ hp hl
    obtain ⟨j, hj, rfl⟩ := h.surjective (k := k) (by rw [← h.length]; exact hp.1)
    have e : l = l - (m j - m i) + (m j - m i) := by abel
    rw [e] at hp hl
    have hp' := (h.partner hi hj _).1 hp
    rw [h.separation hi hj hp', ← Matrix.mulVec_add, h.len_mulVec] at hl
    refine List.mem_map.2 ⟨(j, l - (m j - m i)), h3 _ hp' hl, ?_⟩
    simp
  · rw [List.map_map, List.map_map]
    refine List.map_congr_left fun p hp => ?_
    obtain ⟨j, n⟩ := p
    have hp' := h2 _ hp
    simp only [Function.comp_apply, Site.rotate]
    rw [h.separation hi hp'.1 hp', h.element j hp'.1, Matrix.mulVec_add]

theorem SameArrangement.isEnergyFrozen {R E : ℝ} {i : ℕ} (hi : i < s.atoms.length) {x : Vec3}
    (hE : IsEnergyFrozen P R s i x E) : IsEnergyFrozen P R s' (σ i) (Q.mulVec x) E := by
  obtain ⟨env, h1, h2, rfl⟩ := hE
  have : ∀ k, ∃ i, k < s.atoms.length → i < s.atoms.length ∧ σ i = k := by
    intro k
    by_cases hk : k < s.atoms.length
    · obtain ⟨i, hi, e⟩ := h.surjective hk
      exact ⟨i, fun _ => ⟨hi, e⟩⟩
    · exact ⟨0, fun h => absurd h hk⟩
  choose τ hτ using this
  have hτσ : ∀ k < s.atoms.length, τ (σ k) = k := fun k hk =>
    h.injective _ (hτ (σ k) (h.range k hk)).1 k hk (hτ (σ k) (h.range k hk)).2
  refine ⟨fun k => (env (τ k)).map (Site.rotate Q), ?_, ?_, ?_⟩
  · intro k hk hne
    rw [h.length] at hk
    obtain ⟨hj, e⟩ := hτ k hk
    have hl : (s.displace i x).atoms.length = s.atoms.length := by simp [Structure.displace, Structure.move]
    have := (h.displace hi x).isEnv (by rw [hl]; exact hj) (h1 _ hj fun e' => hne (by rw [← e, e']))
    rwa [e] at this
  · simp only [hτσ i hi]
    exact h.isEnvDisplaced hi h2
  · rw [h.length]
    refine Finset.sum_bij (fun i _ => σ i) ?_ ?_ ?_ ?_
    · intro i hi
      exact Finset.mem_range.2 (h.range i (Finset.mem_range.1 hi))
    · intro i hi j hj e
      exact h.injective i (Finset.mem_range.1 hi) j (Finset.mem_range.1 hj) e
    · intro k hk
      obtain ⟨i, hi, e⟩ := h.surjective (Finset.mem_range.1 hk)
      exact ⟨i, Finset.mem_range.2 hi, e⟩
    · intro k hk
      have hk := Finset.mem_range.1 hk
      simp only [hτσ k hk, h.atomic, h.element k hk]

end Same

/-- C76: the forces turn with the arrangement of atoms. -/
theorem C76_forces_covariant (hsrt : IsSort srt) (hM : M.SetUp P n) (hP : P.Fits n) (hn : 0 < n)
    {s1 s2 : Structure} (h1 : s1.Evaluable M P n) (h2 : s2.Evaluable M P n)
    (hsm1 : P.Smooth (M.listRadius s1) s1) (hsm2 : P.Smooth (M.listRadius s2) s2)
    (Q : Matrix (Fin 3) (Fin 3) ℝ) (w : Vec3) (σ : ℕ → ℕ) (m : ℕ → Fin 3 → ℤ)
    (hsame : SameArrangement Q w σ m s1 s2) (d1 d2 : Bool) {M1 M2 : Mode}
    {s1' s2' : Structure} (e1 : M.evaluateNNP srt s1 true d1 = some (M1, s1'))
    (e2 : M.evaluateNNP srt s2 true d2 = some (M2, s2')) :
    ∀ i < s1.atoms.length, s2'.forceOn (σ i) = Q.mulVec (s1'.forceOn i) := by
  intro i hi
  have hW : ∀ {s : Structure}, s.Evaluable M P n → P.Within M.maxCutoffRadius s := by
    intro s h i hi S hS
    refine (hM.valid ?_ hS).2.2
    rw [elementOf_eq (List.getElem?_eq_getElem hi)]
    exact (h.new.atom _ (List.getElem_mem hi)).1
  have key : ∀ u : Vec3, (s2'.forceOn (σ i)).dot (Q.mulVec u) = (s1'.forceOn i).dot u := by
    intro u
    have hE : ∀ t : ℝ, ∃ E, IsEnergyFrozen P M.maxCutoffRadius s1 i (t • u) E := fun t =>
      exists_isEnergyFrozen P _ (fun hp => (h1.new.boxed hp).1) i hi _
    choose E hE using hE
    have hE2 : ∀ t : ℝ, IsEnergyFrozen P M.maxCutoffRadius s2 (σ i) (t • Q.mulVec u) (E t) := by
      intro t
      rw [← Matrix.mulVec_smul]
      exact hsame.isEnergyFrozen hi (hE t)
    have hline : ∀ u : Vec3, HasDerivAt (fun t : ℝ => t • u) u 0 := fun u => by
      simpa using (hasDerivAt_id (0 : ℝ)).smul_const u
    have D1 := forces_frozen hsrt hM hP hn h1 hsm1 d1 e1 hi (fun t => t • u) u 0 (zero_smul _ _)
      (hline u) _ (hW h1) E hE
    have D2 := forces_frozen hsrt hM hP hn h2 hsm2 d2 e2 (by rw [hsame.length]; exact hsame.range i hi)
      (fun t => t • Q.mulVec u) _ 0 (zero_smul _ _) (hline _) _ (hW h2) E hE2
    have := D1.unique D2
    linarith
  have hQ : Q * Q.transpose = 1 := by
    have := hsame.orthogonal
    exact mul_eq_one_comm.1 this
  have key2 : ∀ x : Vec3, (s2'.forceOn (σ i)).dot x = Vec3.dot (Q.mulVec (s1'.forceOn i)) x := by
    intro x
    have h3 := key (Q.transpose.mulVec x)
    have h4 := rot_dot hsame.orthogonal (s1'.forceOn i) (Q.transpose.mulVec x)
    rw [Matrix.mulVec_mulVec, hQ, Matrix.one_mulVec] at h3 h4
    rw [h3, ← h4]
  funext k
  have h5 := key2 (Pi.single k 1)
  fin_cases k <;> simpa [Vec3.dot] using h5

/-- A cluster and the same cluster rotated, translated and with its atoms in another order. -/
example : ∃ (srt : List Neighbor → List Neighbor) (M M1 M2 : Mode) (s1 s2 : Structure),
    IsSort srt ∧ M.SetUp exPotential 2 ∧
    M.evaluateNNP srt exCluster true false = some (M1, s1) ∧
    M.evaluateNNP srt exCluster' true false = some (M2, s2) ∧
    s2.energyShort = s1.energyShort ∧
    s2.forceOn 1 = Matrix.mulVec !![0, -1, 0; 1, 0, 0; 0, 0, 1] (s1.forceOn 0) := by
  obtain ⟨srt, hsrt⟩ := exists_isSort
  obtain ⟨M, hM, -⟩ := exists_exMode
  have hev : exCluster.Evaluable M exPotential 2 :=
    exPotential_evaluable exCluster_new exCluster_apart
  have hev' : exCluster'.Evaluable M exPotential 2 :=
    exPotential_evaluable exCluster'_new exCluster'_apart
  obtain ⟨M1, s1, e1, -⟩ := C74_energy hsrt hM exPotential_fits (by norm_num) hev true false
  obtain ⟨M2, s2, e2, -⟩ := C74_energy hsrt hM exPotential_fits (by norm_num) hev' true false
  refine ⟨srt, M, M1, M2, s1, s2, hsrt, hM, e1, e2, ?_, ?_⟩
  · exact C76_energy_invariant hsrt hM exPotential_fits (by norm_num) hev hev' _ _ _ _
      exCluster_same _ _ _ _ e1 e2
  · exact C76_forces_covariant hsrt hM exPotential_fits (by norm_num) hev hev'
      (exPotential_smooth exCluster_apart _) (exPotential_smooth exCluster'_apart _)
      _ _ _ _ exCluster_same _ _ e1 e2 0
      (by rw [show exCluster.atoms.length = 3 from exSystem_length]; norm_num)

end N2P2
