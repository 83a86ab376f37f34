import Verif.Lemma.ModeForce
import Verif.Props.SymFnc
import Verif.Props.Geometry

/-! The derivative of the potential energy along a motion of the atoms. -/

namespace N2P2

open Filter Topology

namespace NetShape

/-- The derivative is linear in the direction of the input. -/
theorem tangent_linear {T : NetShape} (c G G' : ℕ → ℝ) : ∀ l k, k < T.n l →
    T.tangent c G 0 G' l k = ∑ m ∈ Finset.range (T.n 0), G' m * T.tangent c G 0 (unit m) l k := by
  intro l
  induction l with
  | zero =>
    intro k hk
    simp only [tangent, unit]
    rw [Finset.sum_eq_single k]
    · simp
    · intro b _ hb; simp [Ne.symm hb]
    · intro h; exact absurd (Finset.mem_range.2 hk) h
  | succ l ih =>
    intro k _
    simp only [tangent, Pi.zero_apply, zero_mul, zero_add, add_zero]
    rw [Finset.sum_congr rfl fun j hj => by rw [ih j (Finset.mem_range.1 hj)]]
    simp only [Finset.mul_sum, Finset.sum_div]
    rw [Finset.sum_comm]
    refine Finset.sum_congr rfl fun m _ => ?_
    refine Finset.sum_congr rfl fun j _ => ?_
    ring

end NetShape

/-! ### Distances along a motion -/

theorem norm_triangle (a b : Vec3) : (a + b).norm ≤ a.norm + b.norm := by
  have h := (abs_le.1 (cauchy a b)).2
  have ha : 0 ≤ a.norm := Real.sqrt_nonneg _
  have hb : 0 ≤ b.norm := Real.sqrt_nonneg _
  have e1 : a.norm ^ 2 = a.norm2 := Real.sq_sqrt (norm2_nonneg a)
  have e2 : b.norm ^ 2 = b.norm2 := Real.sq_sqrt (norm2_nonneg b)
  refine Real.sqrt_le_iff.2 ⟨by positivity, ?_⟩
  have : (a + b) 0 * (a + b) 0 + (a + b) 1 * (a + b) 1 + (a + b) 2 * (a + b) 2 =
      a.norm2 + 2 * a.dot b + b.norm2 := by
    simp only [Vec3.norm2, Vec3.dot, Pi.add_apply]; ring
  rw [this, ← e1, ← e2]
  nlinarith

theorem continuous_norm3 : Continuous Vec3.norm := by
  unfold Vec3.norm
  fun_prop

/-- The structure with the atoms at `r · t`. -/
abbrev Structure.at (s : Structure) (r : ℕ → ℝ → Vec3) (t : ℝ) : Structure :=
  s.move fun i => r i t

variable {s : Structure} {r : ℕ → ℝ → Vec3} {v : ℕ → Vec3} {t0 : ℝ}

theorem at_length (t : ℝ) : (s.at r t).atoms.length = s.atoms.length := by
  simp [Structure.at, Structure.move]

theorem at_elementOf (t : ℝ) (i : ℕ) : (s.at r t).elementOf i = s.elementOf i := by
  simp only [Structure.elementOf, Structure.move, List.getElem?_mapIdx, Option.map_map]
  rfl

theorem at_position (t : ℝ) {i : ℕ} (hi : i < s.atoms.length) :
    (s.at r t).position i = r i t := by
  simp [Structure.position, Structure.move, hi]

theorem at_isPartner (t : ℝ) (i : ℕ) (p : ℕ × (Fin 3 → ℤ)) :
    (s.at r t).IsPartner i p ↔ s.IsPartner i p := by
  unfold Structure.IsPartner
  rw [at_length]
  rfl

theorem at_separation (t : ℝ) {i : ℕ} (hi : i < s.atoms.length) {p : ℕ × (Fin 3 → ℤ)}
    (hp : p.1 < s.atoms.length) :
    (s.at r t).separation i p = r i t - r p.1 t + shift s.box p.2 := by
  unfold Structure.separation
  rw [at_position t hi, at_position t hp]
  rfl

/-- Only images within the radius at the start can be within the radius a little later. -/
theorem eventually_images (hb : Boxed s) (hf : ∀ a ∈ s.atoms, Cleared a) {R : ℝ} (hR : 0 ≤ R)
    (h0 : ∀ i < s.atoms.length, r i t0 = s.position i)
    (hc : ∀ i < s.atoms.length, ContinuousAt (r i) t0) :
    ∀ᶠ t in 𝓝 t0, ∀ i < s.atoms.length, ∀ p, s.IsPartner i p →
      len ((s.at r t).separation i p) ≤ R → len (s.separation i p) ≤ R := by
  obtain ⟨srt, hsrt⟩ := exists_isSort
  obtain ⟨s1, -, -, -, -, h3⟩ := build_cleared hsrt (s := s) (rc := R + 1)
    (le_max_of_le_left (by linarith)) hb hf false
  have hmove : ∀ i, i < s.atoms.length → ∀ᶠ t in 𝓝 t0, (r i t - r i t0).norm < 1 / 2 := by
    intro i hi
    have : ContinuousAt (fun t => (r i t - r i t0).norm) t0 :=
      continuous_norm3.continuousAt.comp ((hc i hi).sub continuousAt_const)
    refine this.eventually (gt_mem_nhds ?_)
    simp [Vec3.norm]
  have hsmall : ∀ᶠ t in 𝓝 t0, ∀ i ∈ Finset.range s.atoms.length,
      (r i t - r i t0).norm < 1 / 2 :=
    (Finset.eventually_all _).2 fun i hi => hmove i (Finset.mem_range.1 hi)
  have hnear : ∀ᶠ t in 𝓝 t0, ∀ i ∈ Finset.range s.atoms.length, ∀ p, s.IsPartner i p →
      len (s.separation i p) ≤ R + 1 → R < len (s.separation i p) →
      R < len ((s.at r t).separation i p) := by
    refine (Finset.eventually_all _).2 fun i hi => ?_
    have hi := Finset.mem_range.1 hi
    obtain ⟨a, g1, -, -, -, -, g5, -⟩ := h3 i _ (List.getElem?_eq_getElem hi)
    obtain ⟨imgs, -, hm, -⟩ := g5.imgs
    have : ∀ᶠ t in 𝓝 t0, ∀ p ∈ imgs.toFinset, s.IsPartner i p → R < len (s.separation i p) →
        R < len ((s.at r t).separation i p) := by
      refine (Finset.eventually_all _).2 fun p _ => ?_
      by_cases hp : s.IsPartner i p ∧ R < len (s.separation i p)
      · have hcont : ContinuousAt (fun t => (r i t - r p.1 t + shift s.box p.2).norm) t0 :=
          continuous_norm3.continuousAt.comp
            (((hc i hi).sub (hc p.1 hp.1.1)).add continuousAt_const)
        have := hcont.eventually (lt_mem_nhds (a := R) (by
          show R < (r i t0 - r p.1 t0 + shift s.box p.2).norm
          rw [h0 i hi, h0 p.1 hp.1.1, ← len_eq]; exact hp.2))
        filter_upwards [this] with t ht _ _
        rw [at_separation t hi hp.1.1, len_eq]; exact ht
      · exact Eventually.of_forall fun t h1 h2 => absurd ⟨h1, h2⟩ hp
    filter_upwards [this] with t ht p hp h1 h2
    refine ht p ?_ hp h2
    rw [List.mem_toFinset, hm, isImage_iff s _ hi]
    exact ⟨hp, h1.trans (le_max_left _ _)⟩
  filter_upwards [hsmall, hnear] with t h1 h2 i hi p hp hle
  by_contra hgt
  push Not at hgt
  by_cases h4 : len (s.separation i p) ≤ R + 1
  · have := h2 i (Finset.mem_range.2 hi) p hp h4 hgt
    linarith
  · push Not at h4
    have e : s.separation i p = (s.at r t).separation i p +
        (-(r i t - r i t0) + (r p.1 t - r p.1 t0)) := by
      rw [at_separation t hi hp.1, h0 i hi, h0 p.1 hp.1]
      unfold Structure.separation
      abel
    have k1 := norm_triangle ((s.at r t).separation i p)
      (-(r i t - r i t0) + (r p.1 t - r p.1 t0))
    have k2 := norm_triangle (-(r i t - r i t0)) (r p.1 t - r p.1 t0)
    rw [norm_neg] at k2
    have k3 := h1 i (Finset.mem_range.2 hi)
    have k4 := h1 p.1 (Finset.mem_range.2 hp.1)
    rw [← e, ← len_eq, ← len_eq] at k1
    linarith

/-! ### The derivative -/

theorem neg_dot (u w : Vec3) : (-u).dot w = -u.dot w := by
  simp [Vec3.dot]; ring

theorem sum_dot {α : Type} (t : Finset α) (f : α → Vec3) (w : Vec3) :
    (∑ x ∈ t, f x).dot w = ∑ x ∈ t, (f x).dot w := by
  classical
  induction t using Finset.induction_on with
  | empty => simp [zero_dot]
  | insert x t hx ih => rw [Finset.sum_insert hx, Finset.sum_insert hx, add_dot, ih]

theorem sum_dot_right {α : Type} (t : Finset α) (f : α → ℝ) (g : α → Vec3) (w : Vec3) :
    ∑ x ∈ t, f x * (g x).dot w = (∑ x ∈ t, f x • g x).dot w := by
  rw [sum_dot]
  exact Finset.sum_congr rfl fun x _ => (smul_dot _ _ _).symm

variable {M : Mode} {P : Potential} {n : ℕ} {El : ℕ → ElementData} {A : ℕ → Atom} {cs : List Atom}
  {x : ℕ → ℕ → ℝ}

theorem input_rate (x : ℕ → ℝ) (Ss : List SymFnc) (a : Atom) (v0 : Vec3) (w : ℕ → Vec3) :
    ∑ m ∈ Finset.range Ss.length,
      Contrib.rate a.neighbors.length v0 w (totalOf Ss a m) * x m =
      (selfGrad x Ss a).dot v0 -
        ∑ k ∈ Finset.range a.neighbors.length, (pairForce x Ss a k).dot (w k) := by
  unfold selfGrad pairForce Contrib.rate
  simp only [sum_dot, smul_dot]
  rw [Finset.sum_comm, ← Finset.sum_sub_distrib]
  refine Finset.sum_congr rfl fun m _ => ?_
  rw [sub_mul, Finset.sum_mul]
  congr 1
  · ring
  · exact Finset.sum_congr rfl fun k _ => by ring

/-- The neighbour lists of the atoms, moved along. -/
noncomputable def movedEnv (r : ℕ → ℝ → Vec3) (a : Atom) (i : ℕ) (box : Fin 3 → Vec3)
    (imgs : List (ℕ × (Fin 3 → ℤ))) (t : ℝ) : List Site :=
  a.envAt fun k => r i t - r ((imgs[k]?).getD (0, 0)).1 t + shift box ((imgs[k]?).getD (0, 0)).2

theorem ListOf.movedEnv {R : ℝ} {i : ℕ} {a : Atom} {imgs} (h : ListOf s R i a imgs)
    (hi : i < s.atoms.length) (t : ℝ) : movedEnv r a i s.box imgs t =
      imgs.map fun p => ⟨(s.at r t).elementOf p.1, (s.at r t).separation i p⟩ := by
  obtain ⟨-, hm, hl, hk⟩ := h
  unfold N2P2.movedEnv
  refine List.ext_getElem (by simpa [Atom.envAt] using hl) fun k h1 h2 => ?_
  have h1' : k < a.neighbors.length := by simpa [Atom.envAt] using h1
  have h2' : k < imgs.length := by simpa using h2
  obtain ⟨-, e1, -⟩ := hk k _ _ (List.getElem?_eq_getElem h1') (List.getElem?_eq_getElem h2')
  have hp := ((hm _).1 (List.getElem_mem h2')).1.1
  simp only [Atom.envAt, List.getElem_mapIdx, List.getElem_map, List.getElem?_eq_getElem h2',
    Option.getD_some, at_elementOf]
  rw [at_separation t hi hp, e1]

theorem AtomState.lt (hM : M.SetUp P n) {i : ℕ} {e : ElementData} {a b : Atom}
    (h : AtomState M n s i e a b) : s.elementOf i < n := by
  rw [← h.element, ← hM.count]; exact (List.getElem?_eq_some_iff.1 h.get).1

theorem ListOf.movedEnv_start {R : ℝ} {i : ℕ} {a : Atom} {imgs} (h : ListOf s R i a imgs)
    (hi : i < s.atoms.length) (h0 : ∀ i < s.atoms.length, r i t0 = s.position i) :
    N2P2.movedEnv r a i s.box imgs t0 = a.env := by
  rw [h.movedEnv hi, h.env]
  refine List.map_congr_left fun p hp => ?_
  have hp := ((h.2.1 p).1 hp).1.1
  rw [at_elementOf, at_separation t0 hi hp, h0 i hi, h0 _ hp]
  rfl

/-- The network inputs of one atom change at the rate given by the derivatives in the buffers. -/
theorem input_deriv (hM : M.SetUp P n) {i : ℕ} {e : ElementData} {a b : Atom}
    (h : AtomState M n s i e a b) {imgs} (hi : i < s.atoms.length)
    (hL : ListOf s (M.listRadius s) i a imgs)
    (hS : ∀ S ∈ P.functions (s.elementOf i), S.Smooth a.env)
    (h0 : ∀ i < s.atoms.length, r i t0 = s.position i)
    (hd : ∀ i < s.atoms.length, HasDerivAt (r i) (v i) t0) (m : ℕ) :
    HasDerivAt (fun t => P.input (s.elementOf i) (movedEnv r a i s.box imgs t) m)
      (Contrib.rate a.neighbors.length (v i) (fun k => v (nbIndex a k))
        (totalOf (P.functions (s.elementOf i)) a m)) t0 := by
  have hlt := h.lt hM
  have hget : ∀ k, k < a.neighbors.length → ∃ p nb, imgs[k]? = some p ∧ a.neighbors[k]? = some nb ∧
      nb.index = p.1 ∧ nb.dr = s.separation i p ∧ p.1 < s.atoms.length := by
    intro k hk
    have hk' : k < imgs.length := by rw [← hL.2.2.1]; exact hk
    obtain ⟨q1, -, q2, -⟩ := hL.2.2.2 k _ _ (List.getElem?_eq_getElem hk)
      (List.getElem?_eq_getElem hk')
    exact ⟨_, _, List.getElem?_eq_getElem hk', List.getElem?_eq_getElem hk, q1, q2,
      ((hL.2.1 _).1 (List.getElem_mem hk')).1.1⟩
  set rk : ℕ → ℝ → Vec3 := fun k t =>
    r i t - r ((imgs[k]?).getD (0, 0)).1 t + shift s.box ((imgs[k]?).getD (0, 0)).2 with hrk
  have hr : ∀ (k : ℕ) (nb : Neighbor), a.neighbors[k]? = some nb → rk k t0 = nb.dr := by
    intro k nb hk
    obtain ⟨p, nb', g1, g2, g3, g4, g5⟩ := hget k (List.getElem?_eq_some_iff.1 hk).1
    rw [hk] at g2
    cases g2
    simp only [hrk, g1, Option.getD_some, g4]
    rw [h0 i hi, h0 _ g5]
    rfl
  have hdk : ∀ k < a.neighbors.length, HasDerivAt (rk k) (v i - v (nbIndex a k)) t0 := by
    intro k hk
    obtain ⟨p, nb, g1, g2, g3, g4, g5⟩ := hget k hk
    have e : nbIndex a k = p.1 := by unfold nbIndex; rw [g2]; exact g3
    simp only [hrk, g1, Option.getD_some, e]
    exact ((hd i hi).sub (hd _ g5)).add_const _
  have hf : e.symmetryFunctions = P.functions (s.elementOf i) := by
    rw [(hM.functions _ _ h.get).1, h.element]
  unfold Potential.input totalOf
  cases hm : (P.functions (s.elementOf i))[m]? with
  | none =>
    simp only
    have : Contrib.rate a.neighbors.length (v i) (fun k => v (nbIndex a k)) 0 = 0 := by
      simp [Contrib.rate, zero_dot]
    rw [this]
    exact hasDerivAt_const _ _
  | some S =>
    have hmem := List.mem_of_getElem? hm
    obtain ⟨q1, q2, -⟩ := hM.valid hlt hmem
    refine scale_hasDerivAt q2 ?_
    exact SymFnc.formula_deriv q1 (h.ready.list S (by rw [hf]; exact hmem))
      (h.ready.triplets S (by rw [hf]; exact hmem)) (hS S hmem) hr hdk

/-- The energy of one atom changes at the rate given by the derivatives in the buffers. -/
theorem atomic_deriv (hM : M.SetUp P n) (hP : P.Fits n) {i : ℕ} {e : ElementData} {a b : Atom}
    (h : AtomState M n s i e a b) (hA : A i = a) {imgs} (hi : i < s.atoms.length)
    (hL : ListOf s (M.listRadius s) i a imgs)
    (hS : P.Smooth (M.listRadius s) s)
    (h0 : ∀ i < s.atoms.length, r i t0 = s.position i)
    (hd : ∀ i < s.atoms.length, HasDerivAt (r i) (v i) t0) :
    HasDerivAt (fun t => P.atomic (s.elementOf i) (movedEnv r a i s.box imgs t))
      ((selfGradOf P s A (inputGrad P s A) i).dot (v i) - ∑ k ∈ Finset.range a.neighbors.length,
        (pairForceOf P s A (inputGrad P s A) i k).dot (v (nbIndex a k))) t0 := by
  obtain ⟨hSens, hn0, hn1⟩ := hP _ (h.lt hM)
  have henv := hL.movedEnv_start (r := r) hi h0
  obtain ⟨hsm, hreg⟩ := hS i hi _ hL.isBall
  have key := NetShape.hasDerivAt_forward (T := P.shape (s.elementOf i))
    (c := fun _ => P.weights (s.elementOf i)) (c' := 0) (s := t0)
    (fun p => hasDerivAt_const _ _) (input_deriv hM h hi hL hsm h0 hd) (by rw [henv]; exact hreg) _
    le_rfl 0 (by rw [hn1]; norm_num)
  refine key.congr_deriv ?_
  rw [NetShape.tangent_linear _ _ _ _ _ (by rw [hn1]; norm_num), hn0, henv]
  subst hA
  exact input_rate (inputGrad P s A i) (P.functions (s.elementOf i)) (A i) (v i) _

/-- The pair forces of an atom act on the atoms of the structure. -/
theorem pair_swap {j : ℕ} {R : ℝ} {imgs} (hL : ListOf s R j (A j) imgs) :
    ∑ k ∈ Finset.range (A j).neighbors.length,
      (pairForceOf P s A x j k).dot (v (nbIndex (A j) k)) =
      ∑ i ∈ Finset.range s.atoms.length, (forceFrom P s A x i j).dot (v i) := by
  classical
  unfold forceFrom
  simp only [sum_dot]
  rw [Finset.sum_comm]
  refine Finset.sum_congr rfl fun k hk => ?_
  have hk := Finset.mem_range.1 hk
  have hk' : k < imgs.length := by rw [← hL.2.2.1]; exact hk
  obtain ⟨q1, -⟩ := hL.2.2.2 k _ _ (List.getElem?_eq_getElem hk)
    (List.getElem?_eq_getElem hk')
  have hlt : nbIndex (A j) k < s.atoms.length := by
    unfold nbIndex
    rw [List.getElem?_eq_getElem hk]
    show (A j).neighbors[k].index < _
    rw [q1]
    exact ((hL.2.1 _).1 (List.getElem_mem hk')).1.1
  rw [Finset.sum_eq_single (nbIndex (A j) k)]
  · rw [if_pos rfl]
  · intro i _ hi
    rw [if_neg (Ne.symm hi), zero_dot]
  · intro hn
    exact absurd (Finset.mem_range.2 hlt) hn

open Classical in
/-- The energy changes at the rate given by the forces, apart from the terms of an atom acting on
itself through its own images. -/
theorem energy_deriv (hM : M.SetUp P n) (hP : P.Fits n) (hs : s.New n)
    (h : ForceState M P n s El A cs)
    (hS : P.Smooth (M.listRadius s) s) (h0 : ∀ i < s.atoms.length, r i t0 = s.position i)
    (hd : ∀ i < s.atoms.length, HasDerivAt (r i) (v i) t0) {R : ℝ} (hR : P.Within R s) {E : ℝ → ℝ}
    (hE : ∀ t, IsEnergy P R (s.at r t) (E t)) :
    HasDerivAt E (-∑ i ∈ Finset.range s.atoms.length,
      (-selfGradOf P s A (inputGrad P s A) i + ∑ j ∈ Finset.range s.atoms.length, forceFrom P s A (inputGrad P s A) i j).dot (v i))
      t0 := by
  have hat : ∀ i, ∃ imgs b, i < s.atoms.length → AtomState M n s i (El i) (A i) b ∧
      ListOf s (M.listRadius s) i (A i) imgs := by
    intro i
    by_cases hi : i < s.atoms.length
    · obtain ⟨b, hb, -⟩ := h.atom i hi
      obtain ⟨imgs, hL⟩ := listOf_of hi hb.position hb.list
      exact ⟨imgs, b, fun _ => ⟨hb, hL⟩⟩
    · exact ⟨[], A i, fun h => absurd h hi⟩
  choose imgs b hat using hat
  have hlt : ∀ i < s.atoms.length, s.elementOf i < n := by
    intro i hi
    have h := (hat i hi).1
    rw [← h.element, ← hM.count]; exact (List.getElem?_eq_some_iff.1 h.get).1
  have hfun : E =ᶠ[𝓝 t0] fun t => ∑ i ∈ Finset.range s.atoms.length,
      P.atomic (s.elementOf i) (movedEnv r (A i) i s.box (imgs i) t) := by
    have hev := eventually_images (s := s) (r := r) (t0 := t0) hs.boxed (fun a ha => by
        obtain ⟨⟨g1, g2, g3, g4, -, -⟩, -⟩ := hs.fresh a ha
        exact ⟨g1, g2, g3, g4⟩) (R := M.listRadius s) (le_max_of_le_left hM.max_nonneg) h0
      (fun i hi => (hd i hi).continuousAt)
    filter_upwards [hev] with t ht
    refine IsEnergy.unique (P := P) (s := s.at r t) (R := R) (R' := M.listRadius s) ?_ ?_ ?_
      (hE t) ?_
    · intro i hi S hS
      rw [at_length] at hi
      rw [at_elementOf] at hS
      exact (hM.valid (hlt i hi) hS).1
    · intro i hi S hS
      rw [at_length] at hi
      rw [at_elementOf] at hS
      exact hR i hi S hS
    · intro i hi S hS
      rw [at_length] at hi
      rw [at_elementOf] at hS
      exact (hM.valid (hlt i hi) hS).2.2.trans (le_max_left _ _)
    · refine ⟨fun i => movedEnv r (A i) i s.box (imgs i) t, ?_, ?_⟩
      · intro i hi
        rw [at_length] at hi
        have hL := (hat i hi).2
        refine ⟨imgs i, hL.1, ?_, ?_, hL.movedEnv hi t⟩
        · intro p hp
          rw [at_isPartner]
          exact ((hL.2.1 p).1 hp).1
        · intro p hp hl
          rw [at_isPartner] at hp
          exact (hL.2.1 p).2 ⟨hp, ht i hi p hp hl⟩
      · rw [at_length]
        exact Finset.sum_congr rfl fun i _ => by rw [at_elementOf]
  have hsum : HasDerivAt (fun t => ∑ i ∈ Finset.range s.atoms.length,
      P.atomic (s.elementOf i) (movedEnv r (A i) i s.box (imgs i) t))
      (∑ i ∈ Finset.range s.atoms.length, ((selfGradOf P s A (inputGrad P s A) i).dot (v i) -
        ∑ k ∈ Finset.range (A i).neighbors.length,
          (pairForceOf P s A (inputGrad P s A) i k).dot (v (nbIndex (A i) k)))) t0 :=
    HasDerivAt.fun_sum fun i hi => by
      have hi := Finset.mem_range.1 hi
      exact atomic_deriv hM hP (hat i hi).1 rfl hi (hat i hi).2 hS h0 hd
  refine (hsum.congr_of_eventuallyEq hfun).congr_deriv ?_
  have hswap : ∀ j < s.atoms.length, ∑ k ∈ Finset.range (A j).neighbors.length,
      (pairForceOf P s A (inputGrad P s A) j k).dot (v (nbIndex (A j) k)) =
      ∑ i ∈ Finset.range s.atoms.length, (forceFrom P s A (inputGrad P s A) i j).dot (v i) :=
    fun j hj => pair_swap (hat j hj).2
  rw [Finset.sum_sub_distrib, Finset.sum_congr rfl fun j hj => hswap j (Finset.mem_range.1 hj),
    Finset.sum_comm, ← Finset.sum_sub_distrib, ← Finset.sum_neg_distrib]
  refine Finset.sum_congr rfl fun i _ => ?_
  rw [add_dot, neg_dot, sum_dot]
  ring

/-- An atom does not act on itself if its own images are beyond all cutoff radii. -/
theorem forceFrom_self {i : ℕ} {b : Atom} {e : ElementData} (h : AtomState M n s i e (A i) b)
    (hi : i < s.atoms.length)
    (hfar : ∀ q : Fin 3 → ℤ, s.IsPartner i (i, q) → ∀ S ∈ P.functions (s.elementOf i),
      S.rc ≤ len (s.separation i (i, q))) : forceFrom P s A x i i = 0 := by
  classical
  obtain ⟨imgs, hL⟩ := listOf_of hi h.position h.list
  unfold forceFrom
  refine Finset.sum_eq_zero fun k hk => ?_
  have hk := Finset.mem_range.1 hk
  have hk' : k < imgs.length := by rw [← hL.2.2.1]; exact hk
  obtain ⟨q1, -, -, q2⟩ := hL.2.2.2 k _ _ (List.getElem?_eq_getElem hk)
    (List.getElem?_eq_getElem hk')
  have hp := ((hL.2.1 _).1 (List.getElem_mem hk')).1
  by_cases hki : nbIndex (A i) k = i
  · rw [if_pos hki]
    unfold nbIndex at hki
    rw [List.getElem?_eq_getElem hk] at hki
    have hki : (A i).neighbors[k].index = i := hki
    rw [q1] at hki
    have e : imgs[k] = (i, imgs[k].2) := Prod.ext hki rfl
    rw [e] at q2 hp
    unfold pairForceOf pairForce
    refine Finset.sum_eq_zero fun m hm => ?_
    have hm := Finset.mem_range.1 hm
    have hS := List.getElem_mem hm
    unfold totalOf
    rw [List.getElem?_eq_getElem hm]
    simp only
    rw [SymFnc.total_irrelevant _ true _ (List.getElem?_eq_getElem hk), smul_zero]
    rintro ⟨hlt, -⟩
    have := hfar _ hp _ hS
    linarith
  · rw [if_neg hki]

theorem ForceState.lists (h : ForceState M P n s El A cs) :
    ∀ j < s.atoms.length, ∃ R imgs, ListOf s R j (A j) imgs := by
  intro j hj
  obtain ⟨b, hb, -⟩ := h.atom j hj
  exact ⟨_, listOf_of hj hb.position hb.list⟩

/-- The forces through the energy of one atom cancel. -/
theorem selfGradOf_eq {j : ℕ} {R : ℝ} {imgs} (hL : ListOf s R j (A j) imgs) :
    selfGradOf P s A x j = ∑ i ∈ Finset.range s.atoms.length, forceFrom P s A x i j := by
  classical
  have e1 : selfGradOf P s A x j =
      ∑ k ∈ Finset.range (A j).neighbors.length, pairForceOf P s A x j k := by
    unfold selfGradOf pairForceOf selfGrad pairForce
    rw [Finset.sum_comm]
    refine Finset.sum_congr rfl fun m hm => ?_
    rw [← Finset.smul_sum]
    congr 1
    unfold totalOf
    cases (P.functions (s.elementOf j))[m]? with
    | none => simp
    | some S => exact S.total_balanced true (A j)
  rw [e1]
  unfold forceFrom
  rw [Finset.sum_comm]
  refine Finset.sum_congr rfl fun k hk => ?_
  have hk := Finset.mem_range.1 hk
  have hk' : k < imgs.length := by rw [← hL.2.2.1]; exact hk
  obtain ⟨q1, -⟩ := hL.2.2.2 k _ _ (List.getElem?_eq_getElem hk)
    (List.getElem?_eq_getElem hk')
  have hlt : nbIndex (A j) k < s.atoms.length := by
    unfold nbIndex
    rw [List.getElem?_eq_getElem hk]
    show (A j).neighbors[k].index < _
    rw [q1]
    exact ((hL.2.1 _).1 (List.getElem_mem hk')).1.1
  rw [Finset.sum_eq_single (nbIndex (A j) k)]
  · rw [if_pos rfl]
  · intro i _ hi
    rw [if_neg (Ne.symm hi)]
  · intro hn
    exact absurd (Finset.mem_range.2 hlt) hn

/-- The sum of all forces: only the action of atoms on themselves is missing. -/
theorem force_sum (hL : ∀ j < s.atoms.length, ∃ R imgs, ListOf s R j (A j) imgs) :
    ∑ i ∈ Finset.range s.atoms.length, (-selfGradOf P s A x i +
      ∑ j ∈ Finset.range s.atoms.length, forceFrom P s A x i j) = 0 := by
  have hbal : ∀ j < s.atoms.length, selfGradOf P s A x j =
      ∑ i ∈ Finset.range s.atoms.length, forceFrom P s A x i j := by
    intro j hj
    obtain ⟨R, imgs, h⟩ := hL j hj
    exact selfGradOf_eq h
  rw [Finset.sum_add_distrib, Finset.sum_comm (f := fun i j => forceFrom P s A x i j),
    Finset.sum_neg_distrib, ← Finset.sum_congr rfl fun j hj => hbal j (Finset.mem_range.1 hj)]
  exact neg_add_cancel _

end N2P2
