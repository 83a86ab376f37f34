import Verif.Spec.OwnImages
import Verif.Props.Mode

/-! The forces calculated for structures in which atoms may see their own periodic images. -/

namespace N2P2

open Filter Topology

variable {s : Structure} {t0 : ℝ} {M M' : Mode} {P : Potential} {n : ℕ} {El : ℕ → ElementData}
  {A : ℕ → Atom} {cs : List Atom} {i : ℕ}

/-- Values do not depend on the choice of environment. -/
theorem formula_envDisplaced {S : SymFnc} (hV : S.Valid) {R R' : ℝ} (h1 : S.rc ≤ R) (h2 : S.rc ≤ R')
    {x : Vec3} {env env' : List Site} (he : IsEnvDisplaced s R i x env)
    (he' : IsEnvDisplaced s R' i x env') : S.formula env = S.formula env' := by
  classical
  obtain ⟨l, a1, a2, a3, rfl⟩ := he
  obtain ⟨l', b1, b2, b3, rfl⟩ := he'
  have key : (l.filter fun p => decide (len (s.separation i p + x) < S.rc)).Perm
      (l'.filter fun p => decide (len (s.separation i p + x) < S.rc)) := by
    refine (List.perm_ext_iff_of_nodup (a1.filter _) (b1.filter _)).2 fun p => ?_
    simp only [List.mem_filter, decide_eq_true_eq]
    constructor
    · rintro ⟨hp, hl⟩
      exact ⟨b3 p (a2 p hp) (hl.le.trans h2), hl⟩
    · rintro ⟨hp, hl⟩
      exact ⟨a3 p (b2 p hp) (hl.le.trans h1), hl⟩
  rw [← formula_filter hV, ← formula_filter hV (List.map _ l'), List.filter_map, List.filter_map]
  refine formula_perm S (List.Perm.map _ ?_)
  have e : ((fun y : Site => decide (y.dr.norm < S.rc)) ∘
      fun p : ℕ × (Fin 3 → ℤ) => (⟨s.elementOf p.1, s.separation i p + x⟩ : Site)) =
      fun p => decide (len (s.separation i p + x) < S.rc) := by
    funext p
    simp only [Function.comp_apply, len_eq]
  convert key using 2

theorem atomic_envDisplaced {e : ℕ} (hV : ∀ S ∈ P.functions e, S.Valid) {R R' : ℝ}
    (h1 : ∀ S ∈ P.functions e, S.rc ≤ R) (h2 : ∀ S ∈ P.functions e, S.rc ≤ R') {x : Vec3}
    {env env' : List Site} (he : IsEnvDisplaced s R i x env) (he' : IsEnvDisplaced s R' i x env') :
    P.atomic e env = P.atomic e env' := by
  have : P.input e env = P.input e env' := by
    funext m
    unfold Potential.input
    cases h : (P.functions e)[m]? with
    | none => rfl
    | some S =>
      have hS := List.mem_of_getElem? h
      simp only
      rw [formula_envDisplaced (hV S hS) (h1 S hS) (h2 S hS) he he']
  unfold Potential.atomic
  rw [this]

/-- Only images within the radius at the start can be within the radius a little later. -/
theorem eventually_displaced (hb : Boxed s) (hf : ∀ a ∈ s.atoms, Cleared a) {R : ℝ} (hR : 0 ≤ R)
    (hi : i < s.atoms.length) {x : ℝ → Vec3} (h0 : x t0 = 0) (hc : ContinuousAt x t0) :
    ∀ᶠ t in 𝓝 t0, ∀ p, s.IsPartner i p →
      len (s.separation i p + x t) ≤ R → len (s.separation i p) ≤ R := by
  obtain ⟨srt, hsrt⟩ := exists_isSort
  obtain ⟨s1, -, -, -, -, h3⟩ := build_cleared hsrt (s := s) (rc := R + 1)
    (le_max_of_le_left (by linarith)) hb hf false
  have hsmall : ∀ᶠ t in 𝓝 t0, (x t).norm < 1 := by
    have : ContinuousAt (fun t => (x t).norm) t0 := continuous_norm3.continuousAt.comp hc
    refine this.eventually (gt_mem_nhds ?_)
    simp [h0, Vec3.norm]
  have hnear : ∀ᶠ t in 𝓝 t0, ∀ p, s.IsPartner i p → len (s.separation i p) ≤ R + 1 →
      R < len (s.separation i p) → R < len (s.separation i p + x t) := by
    obtain ⟨a, g1, -, -, -, -, g5, -⟩ := h3 i _ (List.getElem?_eq_getElem hi)
    obtain ⟨imgs, -, hm, -⟩ := g5.imgs
    have : ∀ᶠ t in 𝓝 t0, ∀ p ∈ imgs.toFinset, R < len (s.separation i p) →
        R < len (s.separation i p + x t) := by
      refine (Finset.eventually_all _).2 fun p _ => ?_
      by_cases hp : R < len (s.separation i p)
      · have hcont : ContinuousAt (fun t => (s.separation i p + x t).norm) t0 :=
          continuous_norm3.continuousAt.comp (continuousAt_const.add hc)
        have := hcont.eventually (lt_mem_nhds (a := R) (by
          show R < (s.separation i p + x t0).norm
          rw [h0, add_zero, ← len_eq]; exact hp))
        filter_upwards [this] with t ht _
        rw [len_eq]; exact ht
      · exact Eventually.of_forall fun t h => absurd h hp
    filter_upwards [this] with t ht p hp h1 h2
    refine ht p ?_ h2
    rw [List.mem_toFinset, hm, isImage_iff s _ hi]
    exact ⟨hp, h1.trans (le_max_left _ _)⟩
  filter_upwards [hsmall, hnear] with t h1 h2 p hp hle
  by_contra hgt
  push Not at hgt
  by_cases h4 : len (s.separation i p) ≤ R + 1
  · have := h2 p hp h4 hgt
    linarith
  · push Not at h4
    have k1 := norm_triangle (s.separation i p + x t) (-x t)
    rw [norm_neg, add_neg_cancel_right, ← len_eq, ← len_eq] at k1
    linarith

/-- The energy of one atom displaced from its environment changes at the rate given by the derivatives
in the buffers. -/
theorem atomic_deriv_displaced (hM : M.SetUp P n) (hP : P.Fits n) {e : ElementData} {b : Atom}
    (h : AtomState M n s i e (A i) b) {imgs} (hi : i < s.atoms.length)
    (hL : ListOf s (M.listRadius s) i (A i) imgs) (hS : P.Smooth (M.listRadius s) s)
    {x : ℝ → Vec3} {v : Vec3} (h0 : x t0 = 0) (hd : HasDerivAt x v t0) :
    HasDerivAt (fun t => P.atomic (s.elementOf i)
        (imgs.map fun p => ⟨s.elementOf p.1, s.separation i p + x t⟩))
      ((selfGradOf P s A (inputGrad P s A) i).dot v) t0 := by
  obtain ⟨hSens, hn0, hn1⟩ := hP _ (h.lt hM)
  obtain ⟨hsm, hreg⟩ := hS i hi _ hL.isBall
  set rk : ℕ → ℝ → Vec3 := fun k t => s.separation i ((imgs[k]?).getD (0, 0)) + x t with hrk
  have henv : ∀ t, (imgs.map fun p => (⟨s.elementOf p.1, s.separation i p + x t⟩ : Site)) =
      (A i).envAt fun k => rk k t := by
    intro t
    obtain ⟨-, hm, hl, hk⟩ := hL
    refine List.ext_getElem (by simpa [Atom.envAt] using hl.symm) fun k h1 h2 => ?_
    have h1' : k < imgs.length := by simpa using h1
    have h2' : k < (A i).neighbors.length := by rw [hl]; exact h1'
    obtain ⟨-, e1, -⟩ := hk k _ _ (List.getElem?_eq_getElem h2') (List.getElem?_eq_getElem h1')
    simp only [Atom.envAt, List.getElem_mapIdx, List.getElem_map, hrk, List.getElem?_eq_getElem h1',
      Option.getD_some, e1]
  have hr : ∀ (k : ℕ) (nb : Neighbor), (A i).neighbors[k]? = some nb → rk k t0 = nb.dr := by
    intro k nb hk
    have hk' : k < imgs.length := by rw [← hL.2.2.1]; exact (List.getElem?_eq_some_iff.1 hk).1
    obtain ⟨-, -, q2, -⟩ := hL.2.2.2 k _ _ hk (List.getElem?_eq_getElem hk')
    simp only [hrk, List.getElem?_eq_getElem hk', Option.getD_some, h0, add_zero, q2]
  have hdk : ∀ k < (A i).neighbors.length, HasDerivAt (rk k) (v - 0) t0 := by
    intro k _
    rw [sub_zero]
    exact hd.const_add _
  have hf : e.symmetryFunctions = P.functions (s.elementOf i) := by
    rw [(hM.functions _ _ h.get).1, h.element]
  have hstart : ((A i).envAt fun k => rk k t0) = (A i).env := by
    rw [← henv, hL.env, h0]
    simp only [add_zero]
  have hin : ∀ m, HasDerivAt (fun t => P.input (s.elementOf i) ((A i).envAt fun k => rk k t) m)
      (Contrib.rate (A i).neighbors.length v (fun _ => 0)
        (totalOf (P.functions (s.elementOf i)) (A i) m)) t0 := by
    intro m
    unfold Potential.input totalOf
    cases hm : (P.functions (s.elementOf i))[m]? with
    | none =>
      simp only
      have : Contrib.rate (A i).neighbors.length v (fun _ => 0) 0 = 0 := by
        simp [Contrib.rate, zero_dot]
      rw [this]
      exact hasDerivAt_const _ _
    | some S =>
      have hmem := List.mem_of_getElem? hm
      obtain ⟨q1, q2, -⟩ := hM.valid (h.lt hM) hmem
      refine scale_hasDerivAt q2 ?_
      exact SymFnc.formula_deriv q1 (h.ready.list S (by rw [hf]; exact hmem))
        (h.ready.triplets S (by rw [hf]; exact hmem)) (hsm S hmem) hr hdk
  simp only [henv]
  have key := NetShape.hasDerivAt_forward (T := P.shape (s.elementOf i))
    (c := fun _ => P.weights (s.elementOf i)) (c' := 0) (s := t0)
    (fun p => hasDerivAt_const _ _) hin (by rw [hstart]; exact hreg) _
    le_rfl 0 (by rw [hn1]; norm_num)
  refine key.congr_deriv ?_
  rw [NetShape.tangent_linear _ _ _ _ _ (by rw [hn1]; norm_num), hn0, hstart]
  refine (input_rate (inputGrad P s A i) (P.functions (s.elementOf i)) (A i) v fun _ => 0).trans ?_
  have : ∀ u : Vec3, u.dot 0 = 0 := fun u => by simp [Vec3.dot]
  simp only [this, Finset.sum_const_zero, sub_zero]
  rfl

open Classical in
theorem energy_deriv_frozen (hM : M.SetUp P n) (hP : P.Fits n) (hs : s.New n)
    (h : ForceState M P n s El A cs) (hS : P.Smooth (M.listRadius s) s) (hi : i < s.atoms.length)
    {x : ℝ → Vec3} {v : Vec3} (h0 : x t0 = 0) (hd : HasDerivAt x v t0) {R : ℝ} (hR : P.Within R s)
    {E : ℝ → ℝ} (hE : ∀ t, IsEnergyFrozen P R s i (x t) (E t)) :
    HasDerivAt E (-(-selfGradOf P s A (inputGrad P s A) i + ∑ j ∈ Finset.range s.atoms.length,
      if j = i then 0 else forceFrom P s A (inputGrad P s A) i j).dot v) t0 := by
  have hat : ∀ i, ∃ imgs b, i < s.atoms.length → AtomState M n s i (El i) (A i) b ∧
      ListOf s (M.listRadius s) i (A i) imgs := by
    intro i
    by_cases hi : i < s.atoms.length
    · obtain ⟨b, hb, -⟩ := h.atom i hi
      obtain ⟨imgs, hL⟩ := listOf_of hi hb.position hb.list
      exact ⟨imgs, b, fun _ => ⟨hb, hL⟩⟩
    · exact ⟨[], A i, fun h => absurd h hi⟩
  choose imgs b hat using hat
  have hlt : ∀ i < s.atoms.length, s.elementOf i < n := fun i hi => (hat i hi).1.lt hM
  set r : ℕ → ℝ → Vec3 := fun k t => s.position k + if k = i then x t else 0 with hr
  set w : ℕ → Vec3 := fun k => if k = i then v else 0 with hw
  have h0' : ∀ k < s.atoms.length, r k t0 = s.position k := by
    intro k _
    simp only [hr, h0, ite_self, add_zero]
  have hd' : ∀ k < s.atoms.length, HasDerivAt (r k) (w k) t0 := by
    intro k _
    simp only [hr, hw]
    by_cases e : k = i
    · simp only [if_pos e]
      exact hd.const_add _
    · simp only [if_neg e]
      exact hasDerivAt_const _ _
  have hclear : ∀ a ∈ s.atoms, Cleared a := fun a ha => by
    obtain ⟨⟨g1, g2, g3, g4, -, -⟩, -⟩ := hs.fresh a ha
    exact ⟨g1, g2, g3, g4⟩
  have hLR : 0 ≤ M.listRadius s := le_max_of_le_left hM.max_nonneg
  have hfun : E =ᶠ[𝓝 t0] fun t => ∑ j ∈ Finset.range s.atoms.length, if j = i then
      P.atomic (s.elementOf i) ((imgs i).map fun p => ⟨s.elementOf p.1, s.separation i p + x t⟩)
      else P.atomic (s.elementOf j) (movedEnv r (A j) j s.box (imgs j) t) := by
    have hev := eventually_images (s := s) (r := r) (t0 := t0) hs.boxed hclear hLR h0'
      (fun i hi => (hd' i hi).continuousAt)
    have hev' := eventually_displaced hs.boxed hclear hLR hi h0 hd.continuousAt
    filter_upwards [hev, hev'] with t ht ht'
    obtain ⟨env, g1, g2, g3⟩ := hE t
    rw [g3]
    refine Finset.sum_congr rfl fun j hj => ?_
    have hj := Finset.mem_range.1 hj
    have hL := (hat j hj).2
    have hval : ∀ S ∈ P.functions (s.elementOf j), S.Valid := fun S hS => (hM.valid (hlt j hj) hS).1
    have hrad : ∀ S ∈ P.functions (s.elementOf j), S.rc ≤ M.listRadius s :=
      fun S hS => (hM.valid (hlt j hj) hS).2.2.trans (le_max_left _ _)
    by_cases e : j = i
    · rw [if_pos e]
      subst e
      refine atomic_envDisplaced hval (hR j hj) hrad g2 ⟨imgs j, hL.1, fun p hp => ((hL.2.1 p).1 hp).1,
        fun p hp hl => (hL.2.1 p).2 ⟨hp, ht' p hp hl⟩, rfl⟩
    · rw [if_neg e]
      unfold Potential.atomic
      rw [input_env (s := s.at r t) (i := j) hval (hR j hj) hrad (g1 j hj e) ?_]
      refine ⟨imgs j, hL.1, ?_, ?_, hL.movedEnv hj t⟩
      · intro p hp
        rw [at_isPartner]
        exact ((hL.2.1 p).1 hp).1
      · intro p hp hl
        rw [at_isPartner] at hp
        exact (hL.2.1 p).2 ⟨hp, ht j hj p hp hl⟩
  have hsum : HasDerivAt (fun t => ∑ j ∈ Finset.range s.atoms.length, if j = i then
      P.atomic (s.elementOf i) ((imgs i).map fun p => ⟨s.elementOf p.1, s.separation i p + x t⟩)
      else P.atomic (s.elementOf j) (movedEnv r (A j) j s.box (imgs j) t))
      (∑ j ∈ Finset.range s.atoms.length, if j = i then (selfGradOf P s A (inputGrad P s A) i).dot v
        else -(forceFrom P s A (inputGrad P s A) i j).dot v) t0 := by
    refine HasDerivAt.fun_sum fun j hj => ?_
    have hj := Finset.mem_range.1 hj
    by_cases e : j = i
    · simp only [if_pos e]
      exact atomic_deriv_displaced hM hP (hat i hi).1 hi (hat i hi).2 hS h0 hd
    · simp only [if_neg e]
      refine (atomic_deriv hM hP (hat j hj).1 rfl hj (hat j hj).2 hS h0' hd').congr_deriv ?_
      rw [pair_swap (hat j hj).2, dot_single _ i _ hi]
      have : ∀ u : Vec3, u.dot 0 = 0 := fun u => by simp [Vec3.dot]
      simp only [hw, if_neg e, this, zero_sub]
  refine (hsum.congr_of_eventuallyEq hfun).congr_deriv ?_
  rw [add_dot, neg_dot, sum_dot, neg_add, neg_neg, ← Finset.sum_neg_distrib]
  have e1 : ∀ j ∈ Finset.range s.atoms.length, (if j = i then (selfGradOf P s A (inputGrad P s A) i).dot v
      else -(forceFrom P s A (inputGrad P s A) i j).dot v) =
      (if j = i then (selfGradOf P s A (inputGrad P s A) i).dot v else 0) +
      -((if j = i then 0 else forceFrom P s A (inputGrad P s A) i j).dot v) := by
    intro j _
    by_cases e : j = i
    · simp only [if_pos e, zero_dot, neg_zero, add_zero]
    · simp only [if_neg e, zero_add]
  rw [Finset.sum_congr rfl e1, Finset.sum_add_distrib, Finset.sum_ite_eq', if_pos (Finset.mem_range.2 hi)]

/-- The forces of the program, for all structures. -/
theorem forces_frozen {srt : List Neighbor → List Neighbor} {s' : Structure} (hsrt : IsSort srt)
    (hM : M.SetUp P n) (hP : P.Fits n) (hn : 0 < n)
    (hs : s.Evaluable M P n) (hsm : P.Smooth (M.listRadius s) s)
    (useDEdG : Bool) (he : M.evaluateNNP srt s true useDEdG = some (M', s'))
    (hi : i < s.atoms.length) (x : ℝ → Vec3) (v : Vec3) (t : ℝ) (h0 : x t = 0) (hv : HasDerivAt x v t)
    (R : ℝ) (hR : P.Within R s) (E : ℝ → ℝ) (hE : ∀ y, IsEnergyFrozen P R s i (x y) (E y)) :
    HasDerivAt E (-(s'.forceOn i).dot v) t := by
  obtain ⟨El, A, cs, hFS, h2, h3, hf, -⟩ := forces_eq hsrt hM hP hn hs useDEdG he
  rw [← h3] at hsm
  rw [hf i hi]
  exact energy_deriv_frozen h2 hP hs.new hFS hsm hi h0 hv hR hE

theorem exists_isEnergyFrozen (P : Potential) (R : ℝ) (hbox : s.isPeriodic = true → NonSingular s.box)
    (i : ℕ) (hi : i < s.atoms.length) (x : Vec3) : ∃ E, IsEnergyFrozen P R s i x E := by
  obtain ⟨-, env, h1, -⟩ := exists_isEnergy P R (s := s.displace i x) hbox
  obtain ⟨-, env', h2, -⟩ := exists_isEnergy P (R + x.norm) (s := s) hbox
  obtain ⟨imgs, a1, a2, a3, -⟩ := h2 i hi
  refine ⟨_, fun j => if j = i then imgs.map fun p => ⟨s.elementOf p.1, s.separation i p + x⟩ else env j,
    ?_, ?_, rfl⟩
  · intro j hj e
    simp only [if_neg e]
    exact h1 j (by rw [Structure.displace, Structure.move, List.length_mapIdx]; exact hj)
  · simp only [if_pos]
    refine ⟨imgs, a1, a2, fun p hp hl => a3 p hp ?_, rfl⟩
    have k1 := norm_triangle (s.separation i p + x) (-x)
    rw [norm_neg, add_neg_cancel_right, ← len_eq, ← len_eq] at k1
    linarith

end N2P2
