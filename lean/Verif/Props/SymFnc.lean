import Verif.Lemma.SymFncState
import Verif.Props.Scaling

/-! Properties of the symmetry functions. -/

namespace N2P2

/-! ### C68 -/

/-- C68: `calculate` stores the scaled value of the documented formula in the entry of the function
and leaves the other values alone. -/
theorem C68_value (S : SymFnc) (a : Atom) (derivatives : Bool) (L : CacheLayout) (R : ℝ)
    (h : S.Ready a derivatives L R) :
    ∃ a', S.calculate a derivatives = some a' ∧
      a'.value S = some (S.sc.scale (S.formula a.env)) ∧
      ∀ i ≠ S.index, a'.G[i]? = a.G[i]? := by
  obtain ⟨caches, hc, e⟩ := SymFnc.calculate_eq h.valid h.list h.allocated h.triplets h.disjoint
    h.use h.le h.cache
  refine ⟨_, e, ?_, ?_⟩
  · simp [Atom.value, SymFnc.finish, h.allocated.G]
  · intro i hi
    simp [SymFnc.finish, List.getElem?_set_ne (Ne.symm hi)]

/-- C68: after all functions of an element have been evaluated, each entry holds the scaled value of
the formula of its function. -/
theorem C68_all_values (Ss : List SymFnc) (a : Atom) (derivatives : Bool) (L : CacheLayout) (R : ℝ)
    (h : ∀ S ∈ Ss, S.Ready a derivatives L R) (hidx : Ss.Pairwise fun S T => S.index ≠ T.index) :
    ∃ a', calculateSymmetryFunctions Ss a derivatives = some a' ∧
      ∀ S ∈ Ss, a'.value S = some (S.sc.scale (S.formula a.env)) := by
  obtain ⟨a', e, f, -⟩ := calculateAll_eq h
  refine ⟨a', e, ?_⟩
  have hG : a'.G = a'.forgetCaches.G := rfl
  have hlen : ∀ S ∈ Ss, S.index < a.forgetCaches.G.length := fun S hS => (h S hS).allocated.G
  have henv : a.forgetCaches.env = a.env := a.forget_env
  have key : ∀ (Ts : List SymFnc) (b : Atom), b.env = a.env →
      (Ts.Pairwise fun S T => S.index ≠ T.index) → (∀ S ∈ Ts, S.index < b.G.length) →
      (∀ S ∈ Ts, (Ts.foldl (fun b S => S.pure derivatives b) b).G[S.index]? =
        some (S.sc.scale (S.formula a.env))) ∧
      ∀ i, (∀ S ∈ Ts, S.index ≠ i) →
        (Ts.foldl (fun b S => S.pure derivatives b) b).G[i]? = b.G[i]? := by
    intro Ts
    induction Ts with
    | nil =>
      intro b _ _ _
      exact ⟨fun S hS => absurd hS List.not_mem_nil, fun i _ => rfl⟩
    | cons T Ts ih =>
      intro b hb hp hl
      rw [List.pairwise_cons] at hp
      have hb' : (T.pure derivatives b).env = a.env := by
        rw [SymFnc.pure, T.finish_env, hb]
      have hG' : (T.pure derivatives b).G = b.G.set T.index (T.sc.scale (T.formula a.env)) := by
        rw [← hb]; rfl
      obtain ⟨i1, i2⟩ := ih (T.pure derivatives b) hb' hp.2 fun S hS => by
        rw [hG', List.length_set]
        exact hl S (List.mem_cons_of_mem _ hS)
      constructor
      · intro S hS
        rcases List.mem_cons.1 hS with rfl | hS
        · rw [List.foldl_cons, i2 _ fun T hT => Ne.symm (hp.1 T hT), hG',
            List.getElem?_set_self (hl S List.mem_cons_self)]
        · rw [List.foldl_cons]
          exact i1 S hS
      · intro i hi
        rw [List.foldl_cons, i2 i fun S hS => hi S (List.mem_cons_of_mem _ hS), hG',
          List.getElem?_set_ne (hi T List.mem_cons_self)]
  intro S hS
  unfold Atom.value
  rw [hG, f]
  exact (key Ss _ henv hidx hlen).1 S hS

/-! ### C31, C32 -/

/-- C31: the value is the same for an atom and its neighbours after moving all of them by the same
rotation (or reflection) `Q` and translation `w`. -/
theorem C31_rigid_motion (S : SymFnc) (a b a' b' : Atom) (derivatives derivatives' : Bool)
    (L L' : CacheLayout) (R R' : ℝ) (x0 w : Vec3) (others : List (ℕ × Vec3))
    (Q : Matrix (Fin 3) (Fin 3) ℝ) (hQ : Q.transpose * Q = 1)
    (ha : a.env = envOf x0 others)
    (hb : b.env = envOf (Q.mulVec x0 + w) (others.map fun p => (p.1, Q.mulVec p.2 + w)))
    (ra : S.Ready a derivatives L R) (rb : S.Ready b derivatives' L' R')
    (ea : S.calculate a derivatives = some a') (eb : S.calculate b derivatives' = some b') :
    a'.value S = b'.value S := by
  obtain ⟨a1, e1, v1, -⟩ := C68_value S a derivatives L R ra
  obtain ⟨b1, e2, v2, -⟩ := C68_value S b derivatives' L' R' rb
  rw [ea] at e1
  rw [eb] at e2
  obtain rfl := Option.some.inj e1
  obtain rfl := Option.some.inj e2
  rw [v1, v2]
  have : b.env = a.env.map (Site.rotate Q) := by
    rw [ha, hb]
    unfold envOf
    rw [List.map_map, List.map_map]
    refine List.map_congr_left fun p _ => ?_
    simp only [Function.comp, Site.rotate, Matrix.mulVec_sub, add_sub_add_right_eq_sub]
  rw [this, formula_rotate hQ]

/-- C32: the value does not depend on the order of the neighbour list. -/
theorem C32_order (S : SymFnc) (a b a' b' : Atom) (derivatives derivatives' : Bool)
    (L L' : CacheLayout) (R R' : ℝ) (hperm : b.env.Perm a.env)
    (ra : S.Ready a derivatives L R) (rb : S.Ready b derivatives' L' R')
    (ea : S.calculate a derivatives = some a') (eb : S.calculate b derivatives' = some b') :
    a'.value S = b'.value S := by
  obtain ⟨a1, e1, v1, -⟩ := C68_value S a derivatives L R ra
  obtain ⟨b1, e2, v2, -⟩ := C68_value S b derivatives' L' R' rb
  rw [ea] at e1
  rw [eb] at e2
  obtain rfl := Option.some.inj e1
  obtain rfl := Option.some.inj e2
  rw [v1, v2, formula_perm S hperm]

/-! ### C33, C34 -/

theorem getD_modify (l : List Vec3) (i : ℕ) (f : Vec3 → Vec3) (h : i < l.length) :
    ((l.modify i f)[i]?).getD 0 = f ((l[i]?).getD 0) := by
  simp [h]

theorem SymFnc.gradSelf_finish {S : SymFnc} {a : Atom} (h : S.index < a.dGdr.length) (x : Contrib)
    (caches : ℕ → List ℝ) (v : ℝ) : (S.finish a x caches v).gradSelf S = a.gradSelf S + x.2.1 := by
  unfold Atom.gradSelf SymFnc.finish SymFnc.conc
  dsimp only
  rw [getD_modify _ _ _ h]

theorem SymFnc.gradNeighbor_finish {S : SymFnc} {a : Atom} (hA : S.Allocated a true) (x : Contrib)
    (caches : ℕ → List ℝ) (v : ℝ) (k : ℕ)
    (hx : ∀ n, a.neighbors[k]? = some n →
      ¬ (n.d < S.rc ∧ S.checkRelevantElement n.element = true) → x.2.2 k = 0)
    (hk : k < a.neighbors.length) :
    (S.finish a x caches v).gradNeighbor S k = a.gradNeighbor S k - x.2.2 k := by
  unfold Atom.gradNeighbor
  rw [S.finish_neighbor]
  have hn : a.neighbors[k]? = some a.neighbors[k] := List.getElem?_eq_getElem hk
  rw [hn]
  dsimp only [Option.map_some]
  by_cases hc : a.neighbors[k].d < S.rc ∧ S.checkRelevantElement a.neighbors[k].element = true
  · obtain ⟨i, h1, h2⟩ := hA.slot rfl _ (List.getElem_mem hk) hc.1 hc.2
    have hs : S.slotOf a.neighbors[k].element = i := by
      unfold SymFnc.slotOf
      rw [List.getD_eq_getElem?_getD, h1]
      rfl
    unfold SymFnc.stored SymFnc.concN
    dsimp only
    rw [if_pos hc.2, if_pos hc.2, h1]
    dsimp only
    rw [hs, getD_modify _ _ _ h2]
  · have h0 := hx _ hn hc
    rw [h0, sub_zero]
    unfold SymFnc.stored SymFnc.concN
    dsimp only
    rw [modify_sub_zero]

theorem scale_hasDerivAt {S : SymFnc} (hs : S.Scaled) {f : ℝ → ℝ} {D t : ℝ}
    (h : HasDerivAt (fun s => S.sf * f s) D t) : HasDerivAt (fun s => S.sc.scale (f s)) D t := by
  obtain ⟨old, ty, l, Smin, Smax, hset⟩ := hs
  have : (fun s => S.sc.scale (f s)) = fun s => S.sf * f s + (S.sc.scale (f t) - S.sf * f t) := by
    funext s
    have := C11_scale_slope old ty l Smin Smax S.sc hset (f s) (f t)
    unfold SymFnc.sf
    linarith
  rw [this]
  exact h.add_const _

/-- C33: the derivatives added by `calculate` are the gradient of the (scaled) value. If the central
atom moves along `x0` and neighbour `k` along `x k`, starting at the current geometry, the rate of
change of the value is the sum of the added derivatives times the velocities. -/
theorem C33_gradient (S : SymFnc) (a : Atom) (L : CacheLayout) (R : ℝ) (h : S.Ready a true L R)
    (hscale : S.Scaled) (hsmooth : S.Smooth a.env) (x0 : ℝ → Vec3) (x : ℕ → ℝ → Vec3) (t : ℝ)
    (v0 : Vec3) (v : ℕ → Vec3) (hstart : a.envAt (fun k => x0 t - x k t) = a.env)
    (hv0 : HasDerivAt x0 v0 t) (hv : ∀ k < a.neighbors.length, HasDerivAt (x k) (v k) t) :
    ∃ a', S.calculate a true = some a' ∧
      HasDerivAt (fun s => S.sc.scale (S.formula (a.envAt fun k => x0 s - x k s)))
        ((a'.gradSelf S - a.gradSelf S).dot v0 + ∑ k ∈ Finset.range a.neighbors.length,
          (a'.gradNeighbor S k - a.gradNeighbor S k).dot (v k)) t := by
  obtain ⟨caches, hc, e⟩ := SymFnc.calculate_eq h.valid h.list h.allocated h.triplets h.disjoint
    h.use h.le h.cache
  refine ⟨_, e, ?_⟩
  have hr : ∀ k n, a.neighbors[k]? = some n → x0 t - x k t = n.dr := by
    intro k n hn
    have := congrArg (·[k]?) hstart
    simp only [Atom.envAt, Atom.env, List.getElem?_mapIdx, List.getElem?_map, hn, Option.map_some,
      Option.some.injEq, Site.mk.injEq, true_and] at this
    exact this
  have key := SymFnc.formula_deriv h.valid h.list h.triplets hsmooth
    (r := fun k s => x0 s - x k s) (v0 := v0) (v := v) hr fun k hk => hv0.sub (hv k hk)
  refine (scale_hasDerivAt hscale key).congr_deriv ?_
  unfold Contrib.rate
  rw [S.gradSelf_finish (h.allocated.dGdr rfl), add_sub_cancel_left, sub_eq_add_neg]
  congr 1
  rw [← Finset.sum_neg_distrib]
  refine Finset.sum_congr rfl fun k hk => ?_
  have hk' : k < a.neighbors.length := Finset.mem_range.1 hk
  rw [SymFnc.gradNeighbor_finish h.allocated _ _ _ k
    (fun n hn hno => S.total_irrelevant true a hn hno) hk', sub_sub_cancel_left]
  simp [Vec3.dot]
  ring

/-- C34: the derivatives added for the central atom and all neighbours sum to zero. -/
theorem C34_sum_rule (S : SymFnc) (a : Atom) (L : CacheLayout) (R : ℝ) (h : S.Ready a true L R) :
    ∃ a', S.calculate a true = some a' ∧
      (a'.gradSelf S - a.gradSelf S) + ∑ k ∈ Finset.range a.neighbors.length,
        (a'.gradNeighbor S k - a.gradNeighbor S k) = 0 := by
  obtain ⟨caches, hc, e⟩ := SymFnc.calculate_eq h.valid h.list h.allocated h.triplets h.disjoint
    h.use h.le h.cache
  refine ⟨_, e, ?_⟩
  rw [S.gradSelf_finish (h.allocated.dGdr rfl), add_sub_cancel_left, S.total_balanced true a,
    ← Finset.sum_add_distrib]
  refine Finset.sum_eq_zero fun k hk => ?_
  have hk' : k < a.neighbors.length := Finset.mem_range.1 hk
  rw [SymFnc.gradNeighbor_finish h.allocated _ _ _ k
    (fun n hn hno => S.total_irrelevant true a hn hno) hk', sub_sub_cancel_left, add_neg_cancel]

/-! ### C36 -/

theorem near_env {a : Atom} {rc : ℝ} (h : ∀ n ∈ a.neighbors, n.d = n.dr.norm) :
    (open Classical in a.env.filter fun x => decide (x.dr.norm < rc)) =
      (a.nearNeighbors rc).map Neighbor.site := by
  classical
  unfold Atom.env Atom.nearNeighbors Atom.forgetCaches
  dsimp only
  rw [List.filter_map, List.filter_map, List.map_map]
  have : a.neighbors.filter ((fun x : Site => decide (x.dr.norm < rc)) ∘
      fun n => ⟨n.element, n.dr⟩) = a.neighbors.filter ((fun n : Neighbor => decide (n.d < rc)) ∘
      fun n => { n with cache := [] }) := by
    refine List.filter_congr fun n hn => ?_
    simp only [Function.comp, h n hn]
  rw [this]
  rfl

/-- C36: two atoms whose neighbours closer than the cutoff are the same get the same value, the same
derivatives for themselves and the same derivatives for the close neighbours; the derivatives stored
with far neighbours are left alone. -/
theorem C36_far_neighbours (S : SymFnc) (a b : Atom) (L L' : CacheLayout) (R R' : ℝ)
    (ra : S.Ready a true L R) (rb : S.Ready b true L' R')
    (hnear : a.nearNeighbors S.rc = b.nearNeighbors S.rc) (hself : a.dGdr = b.dGdr) :
    ∃ a' b', S.calculate a true = some a' ∧ S.calculate b true = some b' ∧
      a'.value S = b'.value S ∧ a'.dGdr = b'.dGdr ∧
      a'.nearNeighbors S.rc = b'.nearNeighbors S.rc ∧
      ∀ (k : ℕ) (n : Neighbor), a.neighbors[k]? = some n → S.rc ≤ n.d →
        ∃ n' : Neighbor, a'.neighbors[k]? = some n' ∧ n'.dGdr = n.dGdr := by
  obtain ⟨a', ea, fa, -⟩ := ra.calculate
  obtain ⟨b', eb, fb, -⟩ := rb.calculate
  obtain ⟨a1, e1, va, -⟩ := C68_value S a true L R ra
  obtain ⟨b1, e2, vb, -⟩ := C68_value S b true L' R' rb
  rw [ea] at e1
  rw [eb] at e2
  obtain rfl := Option.some.inj e1
  obtain rfl := Option.some.inj e2
  have hn' : a.forgetCaches.neighbors.filter S.near = b.forgetCaches.neighbors.filter S.near := hnear
  refine ⟨a', b', ea, eb, ?_, ?_, ?_, ?_⟩
  · rw [va, vb, ← formula_filter ra.valid a.env, ← formula_filter ra.valid b.env,
      near_env ra.list.d, near_env rb.list.d, hnear]
  · have h1 : a'.dGdr = (S.pure true a.forgetCaches).dGdr := by rw [← fa]; rfl
    have h2 : b'.dGdr = (S.pure true b.forgetCaches).dGdr := by rw [← fb]; rfl
    rw [h1, h2]
    have h3 : ∀ c : Atom, (S.pure true c).dGdr = c.dGdr.modify S.index (· + (S.total true c).2.1) :=
      fun _ => rfl
    rw [h3, h3, S.total_self_filter, S.total_self_filter, hn']
    have h4 : a.forgetCaches.dGdr = b.forgetCaches.dGdr := hself
    rw [h4]
  · have h1 : a'.nearNeighbors S.rc = (S.pure true a.forgetCaches).neighbors.filter S.near := by
      rw [← fa]; rfl
    have h2 : b'.nearNeighbors S.rc = (S.pure true b.forgetCaches).neighbors.filter S.near := by
      rw [← fb]; rfl
    rw [h1, h2, S.pure_near, S.pure_near, hn']
  · intro k n hn hfar
    have h1 : (a'.neighbors[k]?).map Neighbor.forget =
        some (S.concN ((S.total true a.forgetCaches).2.2 k) [] n.forget) := by
      rw [← Atom.forget_getElem?, fa, SymFnc.pure, S.finish_neighbor, Atom.forget_getElem?, hn]
      rfl
    have hfn : a.forgetCaches.neighbors[k]? = some n.forget := by
      rw [Atom.forget_getElem?, hn]; rfl
    have h0 := S.total_irrelevant true a.forgetCaches hfn fun hcon =>
      absurd (show n.d < S.rc from hcon.1) (not_lt.2 hfar)
    rw [h0] at h1
    cases hx : a'.neighbors[k]? with
    | none => rw [hx] at h1; cases h1
    | some n' =>
      rw [hx] at h1
      refine ⟨n', rfl, ?_⟩
      have h2 := congrArg Neighbor.dGdr (Option.some.inj h1)
      change n'.dGdr = n.dGdr.modify _ (· - 0) at h2
      rw [h2, modify_sub_zero]

/-! ### C57 -/

/-- C57 (partial): evaluating any sequence of symmetry functions through the caches gives the same
atom, apart from the caches themselves, as evaluating them without caches. Missing: the functions
must have been given caches for all of their relevant elements or for none (`CacheUse.uniform`);
without this the code reads outside a vector, see `C57_mixed_caches_wrong`. -/
theorem C57_cache_transparent_partial (Ss : List SymFnc) (a : Atom) (derivatives : Bool)
    (L : CacheLayout) (R : ℝ) (h : ∀ S ∈ Ss, S.Ready a derivatives L R) :
    ∃ a' b', calculateSymmetryFunctions Ss a derivatives = some a' ∧
      calculateSymmetryFunctions (Ss.map SymFnc.uncached) a derivatives = some b' ∧
      a'.forgetCaches = b'.forgetCaches := by
  obtain ⟨a', ea, fa, -⟩ := calculateAll_eq h
  obtain ⟨b', eb, fb, -⟩ := calculateAll_eq (Ss := Ss.map SymFnc.uncached) (a := a)
    (derivatives := derivatives) (L := fun _ => []) (R := R) (by
      intro S hS
      obtain ⟨T, hT, rfl⟩ := List.mem_map.1 hS
      exact (h T hT).uncached)
  refine ⟨a', b', ea, eb, ?_⟩
  rw [fa, fb, List.foldl_map]
  rfl

/-! ### Concrete atoms -/

/-- A neighbour with memory for one derivative. -/
noncomputable def exNb (e : ℕ) (dr : Vec3) (cache : List ℝ) : Neighbor :=
  { index := 0, tag := 0, element := e, d := dr.norm, dr := dr, cache := cache, dGdr := [0] }

/-- An atom with memory for one symmetry function. -/
noncomputable def exCenter (ns : List Neighbor) : Atom :=
  { Atom.init with numNeighbors := ns.length, neighbors := ns, G := [0], dGdr := [0] }

/-- A symmetry function with cutoff radius 3 for the elements 0 and 1. -/
noncomputable def exSym (kind : SFKind) (fc : CutoffFunction) (cr ca : CompactFunction)
    (ci : List (List ℕ)) : SymFnc :=
  { kind := kind, sc := ⟨0, 0, 0, .none, 0, 0, 0, 0, 0, 0, 1⟩, rc := 3, e1 := 0, e2 := 1,
    eta := 1 / 2, rs := 0, lambda := 1, zeta := 2, zetaInt := 2, useIntegerPow := true, rl := 0,
    angleLeft := -90, angleRight := 90, angleLeftRadians := -(Real.pi / 2),
    angleRightRadians := Real.pi / 2, subtype := [], cutoffType := .HARD, cutoffAlpha := 0,
    convLength := 1, fc := fc, cr := cr, ca := ca, indexPerElement := [0, 0], cacheIndices := ci, atomicNumber := fun e => e + 1 }

theorem exNorm (x y z r : ℝ) (hr : 0 ≤ r) (h : x * x + y * y + z * z = r * r) :
    Vec3.norm ![x, y, z] = r := by
  rw [norm_eq, show Vec3.norm2 ![x, y, z] = r * r by
    rw [← h]; simp [Vec3.norm2], Real.sqrt_mul_self hr]

theorem exScaled (kind : SFKind) (fc : CutoffFunction) (cr ca : CompactFunction)
    (ci : List (List ℕ)) : (exSym kind fc cr ca ci).Scaled :=
  ⟨⟨0, 0, 0, .none, 0, 0, 0, 0, 0, 0, 1⟩, .none, ⟨1, 1, 0, 0, 0, none⟩, 0, 0, by
    unfold setScalingType
    rw [if_neg (by simp)]
    rfl⟩

theorem exFunctions : ∃ (fc : CutoffFunction) (cr ca : CompactFunction),
    fc.Configured .COS 3 0 ∧ (∃ t as, cr.Configured t as 0 3) ∧
    ∃ t as, ca.Configured t as (-(Real.pi / 2)) (Real.pi / 2) := by
  obtain ⟨fc, hfc⟩ := configured_exists .COS 3 0 le_rfl (by norm_num)
  have hlr : ∀ l r : ℝ, l < r → ∃ c : CompactFunction, ∃ t as, c.Configured t as l r := by
    intro l r h
    have : ∃ c, CompactFunction.init.setLeftRight l r = some c ∧ c.core = ⟨.POLY2, false⟩ := by
      unfold CompactFunction.setLeftRight
      rw [if_neg (not_le.2 h)]
      exact ⟨_, rfl, rfl⟩
    obtain ⟨c, hc, hcore⟩ := this
    exact ⟨c, .POLY2, false, hcore, Or.inl ⟨_, hc⟩⟩
  obtain ⟨cr, hcr⟩ := hlr 0 3 (by norm_num)
  obtain ⟨ca, hca⟩ := hlr (-(Real.pi / 2)) (Real.pi / 2) (by linarith [Real.pi_pos])
  exact ⟨fc, cr, ca, hfc, hcr, hca⟩

theorem exSym_ready (kind : SFKind) (fc : CutoffFunction) (cr ca : CompactFunction)
    (hfc : ∃ t α, fc.Configured t 3 α) (hcr : ∃ t as, cr.Configured t as 0 3)
    (hca : ∃ t as, ca.Configured t as (-(Real.pi / 2)) (Real.pi / 2)) (ns : List Neighbor)
    (hns : ∀ n ∈ ns, ∃ e dr c, n = exNb e dr c ∧ e < 2 ∧ 0 < dr.norm)
    (hT : (exSym kind fc cr ca [[], []]).TripletsOK (exCenter ns).env) :
    (exSym kind fc cr ca [[], []]).Ready (exCenter ns) true (fun _ => []) 3 := by
  refine ⟨⟨by norm_num [exSym], fun _ => hfc, fun _ => hcr, fun _ _ => hca,
    fun _ _ => by norm_num [exSym], fun _ _ _ => ⟨by norm_num [exSym], by norm_num [exSym]⟩⟩,
    ⟨?_, ?_, rfl, ?_, ?_⟩, ⟨Nat.zero_lt_one, fun _ => Nat.zero_lt_one, ⟨by simp [exSym], ?_⟩, ?_⟩,
    hT, ?_, ⟨?_, ?_⟩, le_rfl, ?_⟩
  · intro n hn
    obtain ⟨e, dr, c, rfl, -, -⟩ := hns n hn
    rfl
  · intro n hn
    obtain ⟨e, dr, c, rfl, -, h⟩ := hns n hn
    exact h
  · exact le_rfl
  · intro n hn
    have : (exCenter ns).getStoredMinNumNeighbors (exSym kind fc cr ca [[], []]).rc = ns.length := rfl
    rw [this] at hn
    simp [exCenter] at hn
  · intro n hn
    obtain ⟨e, dr, c, rfl, he, -⟩ := hns n hn
    exact he
  · intro _ n hn _ _
    obtain ⟨e, dr, c, rfl, he, -⟩ := hns n hn
    refine ⟨0, ?_, Nat.zero_lt_one⟩
    change ([0, 0] : List ℕ)[e]? = some 0
    interval_cases e <;> rfl
  · intro e c hc; cases hc
  · intro e ci _ hci
    refine Or.inl ?_
    change ([[], []] : List (List ℕ))[e]? = some ci at hci
    have := List.mem_of_getElem? hci
    simpa using this
  · intro _ _ e e' ci ci' _ _ h1 h2
    have h1 := List.mem_of_getElem? (show ([[], []] : List (List ℕ))[e]? = some ci from h1)
    have h2 := List.mem_of_getElem? (show ([[], []] : List (List ℕ))[e']? = some ci' from h2)
    simp at h1 h2
    simp [h1, h2]
  · intro n _ _ c hc; cases hc

/-- The neighbours used in the examples. -/
noncomputable def exN1 (cache : List ℝ) : Neighbor := exNb 0 ![1, 0, 0] cache
noncomputable def exN2 (cache : List ℝ) : Neighbor := exNb 1 ![0, 2, 0] cache
noncomputable def exN1' : Neighbor := exNb 0 ![0, 1, 0] []
noncomputable def exN2' : Neighbor := exNb 1 ![-2, 0, 0] []
noncomputable def exN3 : Neighbor := exNb 0 ![0, 0, 5] []

theorem exN1_d (c : List ℝ) : (exN1 c).d = 1 := exNorm 1 0 0 1 (by norm_num) (by norm_num)
theorem exN2_d (c : List ℝ) : (exN2 c).d = 2 := exNorm 0 2 0 2 (by norm_num) (by norm_num)
theorem exN3_d : exN3.d = 5 := exNorm 0 0 5 5 (by norm_num) (by norm_num)

/-- A wide angular function with cosine cutoff and an atom with three neighbours, the last one
beyond the cutoff, meet the hypotheses of all theorems above. -/
theorem exReady : ∃ fc cr ca, let S := exSym .ExpAngw fc cr ca [[], []]
    fc.Configured .COS 3 0 ∧ S.Ready (exCenter [exN1', exN2']) true (fun _ => []) 3 ∧
    S.Ready (exCenter [exN1 [], exN2 [], exN3]) true (fun _ => []) 3 ∧
    S.Ready (exCenter [exN2 [], exN1 []]) true (fun _ => []) 3 ∧
    S.Ready (exCenter [exN1 [], exN2 []]) true (fun _ => []) 3 := by
  obtain ⟨fc, cr, ca, hfc, hcr, hca⟩ := exFunctions
  have hT : ∀ env, (exSym .ExpAngw fc cr ca [[], []]).TripletsOK env := fun env he =>
    absurd (by simp [SymFnc.IsExp, exSym]) he
  have h1 : ∃ e dr c, exN1 [] = exNb e dr c ∧ e < 2 ∧ 0 < dr.norm :=
    ⟨0, _, _, rfl, by norm_num, by rw [exNorm 1 0 0 1 (by norm_num) (by norm_num)]; norm_num⟩
  have h2 : ∃ e dr c, exN2 [] = exNb e dr c ∧ e < 2 ∧ 0 < dr.norm :=
    ⟨1, _, _, rfl, by norm_num, by rw [exNorm 0 2 0 2 (by norm_num) (by norm_num)]; norm_num⟩
  have h3 : ∃ e dr c, exN3 = exNb e dr c ∧ e < 2 ∧ 0 < dr.norm :=
    ⟨0, _, _, rfl, by norm_num, by rw [exNorm 0 0 5 5 (by norm_num) (by norm_num)]; norm_num⟩
  have h1' : ∃ e dr c, exN1' = exNb e dr c ∧ e < 2 ∧ 0 < dr.norm :=
    ⟨0, _, _, rfl, by norm_num, by rw [exNorm 0 1 0 1 (by norm_num) (by norm_num)]; norm_num⟩
  have h2' : ∃ e dr c, exN2' = exNb e dr c ∧ e < 2 ∧ 0 < dr.norm :=
    ⟨1, _, _, rfl, by norm_num, by rw [exNorm (-2) 0 0 2 (by norm_num) (by norm_num)]; norm_num⟩
  refine ⟨fc, cr, ca, hfc, ?_, ?_, ?_, ?_⟩ <;>
    refine exSym_ready _ fc cr ca ⟨_, _, hfc⟩ hcr hca _ ?_ (hT _) <;> intro n hn <;>
    simp only [List.mem_cons, List.not_mem_nil, or_false] at hn <;>
    rcases hn with rfl | rfl | rfl <;> assumption

/-- C68 in a case where the value is not zero: right angle at the central atom, distances 1 and 2;
the cutoff function is 3/4 and 1/4 there. -/
example : ∃ (S : SymFnc) (a a' : Atom), S.calculate a true = some a' ∧
    a'.value S = some (2 ^ (1 - 2 : ℝ) * (Real.exp (-1 / 2) * Real.exp (-2)) * (3 / 4 * (1 / 4))) := by
  obtain ⟨fc, cr, ca, hfc, -, -, -, h⟩ := exReady
  obtain ⟨a', e, v, -⟩ := C68_value _ _ _ _ _ h
  refine ⟨_, _, a', e, ?_⟩
  rw [v]
  congr 1
  change SymFnc.formula _ [⟨0, ![1, 0, 0]⟩, ⟨1, ![0, 2, 0]⟩] = _
  have hf : ∀ r : ℝ, 0 ≤ r → r < 3 → fc.f r = (Real.cos (Real.pi * (r / 3)) + 1) / 2 := by
    intro r h0 h3
    have hc := hfc.cfg
    unfold CutoffFunction.f
    rw [hc.rc, if_neg (not_le.2 h3), CutoffFunction.fInner, hc.type, hc.rci, hc.iw]
    dsimp only
    rw [if_neg (by linarith)]
    norm_num
    ring_nf
  have f1 : fc.f 1 = 3 / 4 := by
    rw [hf 1 (by norm_num) (by norm_num), mul_one_div, Real.cos_pi_div_three]
    norm_num
  have f2 : fc.f 2 = 1 / 4 := by
    rw [hf 2 (by norm_num) (by norm_num),
      show Real.pi * (2 / 3) = Real.pi - Real.pi / 3 by ring, Real.cos_pi_sub,
      Real.cos_pi_div_three]
    norm_num
  have n1 := exNorm 1 0 0 1 (by norm_num) (by norm_num)
  have n2 := exNorm 0 2 0 2 (by norm_num) (by norm_num)
  have hc : cosAngle ![1, 0, 0] ![0, 2, 0] = 0 := by simp [cosAngle, Vec3.dot]
  simp [SymFnc.formula, SymFnc.siteTerm, SymFnc.pairTerm, pairSum, exSym, n1, n2, hc, f1, f2,
    SymFnc.ofPair, SymFnc.angularFactor, SymFnc.gauss]
  norm_num

/-- C31: a rotation by 90 degrees about the z axis. -/
example : ∃ (S : SymFnc) (a b a' b' : Atom) (Q : Matrix (Fin 3) (Fin 3) ℝ) (w : Vec3),
    Q ≠ 1 ∧ w ≠ 0 ∧ Q.transpose * Q = 1 ∧
    a.env = envOf 0 [(0, ![-1, 0, 0]), (1, ![0, -2, 0])] ∧
    b.env = envOf (Q.mulVec 0 + w) ([(0, ![-1, 0, 0]), (1, ![0, -2, 0])].map fun p =>
      (p.1, Q.mulVec p.2 + w)) ∧
    S.calculate a true = some a' ∧ S.calculate b true = some b' ∧ a'.value S = b'.value S := by
  obtain ⟨fc, cr, ca, -, h', -, -, h⟩ := exReady
  obtain ⟨a', e1, -⟩ := C68_value _ _ _ _ _ h
  obtain ⟨b', e2, -⟩ := C68_value _ _ _ _ _ h'
  have hQ : (!![0, -1, 0; 1, 0, 0; 0, 0, 1] : Matrix (Fin 3) (Fin 3) ℝ).transpose *
      !![0, -1, 0; 1, 0, 0; 0, 0, 1] = 1 := by
    ext i j
    fin_cases i <;> fin_cases j <;> simp [Matrix.mul_apply, Fin.sum_univ_three]
  have ha : (exCenter [exN1 [], exN2 []]).env = envOf 0 [(0, ![-1, 0, 0]), (1, ![0, -2, 0])] := by
    simp [Atom.env, envOf, exCenter, exN1, exN2, exNb]
  have hb : (exCenter [exN1', exN2']).env = envOf
      ((!![0, -1, 0; 1, 0, 0; 0, 0, 1] : Matrix (Fin 3) (Fin 3) ℝ).mulVec 0 + ![1, 2, 3])
      ([(0, ![-1, 0, 0]), (1, ![0, -2, 0])].map fun p =>
        (p.1, (!![0, -1, 0; 1, 0, 0; 0, 0, 1] : Matrix (Fin 3) (Fin 3) ℝ).mulVec p.2 +
          ![1, 2, 3])) := by
    simp only [Atom.env, envOf, exCenter, exN1', exN2', exNb, List.map_cons, List.map_nil,
      add_sub_add_right_eq_sub]
    congr 2
    · ext i; fin_cases i <;> simp
    · congr 2
      ext i; fin_cases i <;> simp
  refine ⟨_, _, _, a', b', _, _, ?_, ?_, hQ, ha, hb, e1, e2,
    C31_rigid_motion _ _ _ _ _ _ _ _ _ _ _ _ _ _ _ hQ ha hb h h' e1 e2⟩
  · intro hh
    have := congrFun (congrFun hh 0) 0
    simp at this
  · intro hh
    have := congrFun hh 0
    simp at this

/-- C32: the two orders of the neighbours. -/
example : ∃ (S : SymFnc) (a b a' b' : Atom), a.env ≠ b.env ∧ S.calculate a true = some a' ∧
    S.calculate b true = some b' ∧ a'.value S = b'.value S := by
  obtain ⟨fc, cr, ca, -, -, -, h1, h2⟩ := exReady
  obtain ⟨a', e1, -⟩ := C68_value _ _ _ _ _ h1
  obtain ⟨b', e2, -⟩ := C68_value _ _ _ _ _ h2
  refine ⟨_, _, _, a', b', ?_, e1, e2, C32_order _ _ _ _ _ _ _ _ _ _ _ ?_ h1 h2 e1 e2⟩
  · intro h
    have := congrArg (fun l : List Site => l.map Site.element) h
    simp [Atom.env, exCenter, exN1, exN2, exNb] at this
  · exact List.Perm.swap _ _ _

/-- C33: all neighbours at rest, the central atom moves along the diagonal. -/
example : ∃ (S : SymFnc) (a a' : Atom), S.calculate a true = some a' ∧ a.neighbors.length = 2 ∧
    HasDerivAt (fun s : ℝ => S.sc.scale (S.formula (a.envAt fun k =>
      s • (![1, 1, 1] : Vec3) - if k = 0 then ![-1, 0, 0] else ![0, -2, 0])))
      ((a'.gradSelf S - a.gradSelf S).dot ![1, 1, 1]) 0 := by
  obtain ⟨fc, cr, ca, hfc, -, -, -, h⟩ := exReady
  have hsm : (exSym .ExpAngw fc cr ca [[], []]).Smooth (exCenter [exN1 [], exN2 []]).env := by
    refine ⟨fun _ hh => ?_, fun _ => ?_, fun _ _ => Or.inl (by norm_num [exSym])⟩
    · have : fc.cutoffType = .COS := hfc.cfg.type
      have h2 : fc.cutoffType = .HARD := hh
      rw [this] at h2
      cases h2
    · refine List.pairwise_pair.2 ?_
      change 0 < Vec3.norm (![1, 0, 0] - ![0, 2, 0])
      rw [show (![1, 0, 0] - ![0, 2, 0] : Vec3) = ![1, -2, 0] by
        ext i; fin_cases i <;> simp, norm_eq, Real.sqrt_pos]
      simp only [Vec3.norm2, Matrix.cons_val]
      norm_num
  obtain ⟨a', e, hd⟩ := C33_gradient _ _ _ _ h (exScaled _ _ _ _ _) hsm
    (fun s => s • (![1, 1, 1] : Vec3))
    (fun k _ => if k = 0 then ![-1, 0, 0] else ![0, -2, 0]) 0 ![1, 1, 1] (fun _ => 0) (by
      simp [Atom.envAt, Atom.env, exCenter, exN1, exN2, exNb]) (by
      simpa using (hasDerivAt_id (0 : ℝ)).smul_const (![1, 1, 1] : Vec3))
      (fun k _ => hasDerivAt_const _ _)
  refine ⟨_, _, a', e, rfl, hd.congr_deriv ?_⟩
  simp [Vec3.dot]

example : ∃ (S : SymFnc) (a a' : Atom), S.calculate a true = some a' ∧ a.neighbors.length = 3 ∧
    (a'.gradSelf S - a.gradSelf S) + ∑ k ∈ Finset.range 3,
      (a'.gradNeighbor S k - a.gradNeighbor S k) = 0 := by
  obtain ⟨fc, cr, ca, -, -, h, -, -⟩ := exReady
  obtain ⟨a', e, hs⟩ := C34_sum_rule _ _ _ _ h
  exact ⟨_, _, a', e, rfl, hs⟩

/-- C36: an atom with and without a neighbour at distance 5. -/
example : ∃ (S : SymFnc) (a b : Atom), a.neighbors.length = 3 ∧ b.neighbors.length = 2 ∧
    ∃ a' b', S.calculate a true = some a' ∧ S.calculate b true = some b' ∧
      a'.value S = b'.value S ∧ a'.dGdr = b'.dGdr := by
  obtain ⟨fc, cr, ca, -, -, h1, -, h2⟩ := exReady
  obtain ⟨a', b', e1, e2, hv, hg, -⟩ := C36_far_neighbours _ _ _ _ _ _ _ h1 h2 (by
    classical
    change List.filter _ [exN1 [], exN2 [], exN3] = List.filter _ [exN1 [], exN2 []]
    have d1 := exN1_d []
    have d2 := exN2_d []
    have d3 := exN3_d
    simp [List.filter_cons, d1, d2, d3, exSym]
    norm_num) rfl
  exact ⟨_, _, _, rfl, rfl, a', b', e1, e2, hv, hg⟩

/-- A cached version of the function above meets the hypotheses of C57. -/
theorem exReadyCached (kind : SFKind) (fc : CutoffFunction) (cr ca : CompactFunction)
    (hfc : ∃ t α, fc.Configured t 3 α) (hcr : ∃ t as, cr.Configured t as 0 3)
    (hca : ∃ t as, ca.Configured t as (-(Real.pi / 2)) (Real.pi / 2))
    (hk : (exSym kind fc cr ca [[0, 1], [0, 1]]).IsExp) :
    (exSym kind fc cr ca [[0, 1], [0, 1]]).Ready (exCenter [exN1 [-1, -1], exN2 [-1, -1]]) true
      (fun _ => [⟨0, 1, fc.fdf⟩]) 3 := by
  have hb := exSym_ready kind fc cr ca hfc hcr hca [exN1 [-1, -1], exN2 [-1, -1]] (by
    intro n hn
    simp only [List.mem_cons, List.not_mem_nil, or_false] at hn
    rcases hn with rfl | rfl
    · exact ⟨0, _, _, rfl, by norm_num, by
        rw [exNorm 1 0 0 1 (by norm_num) (by norm_num)]; norm_num⟩
    · exact ⟨1, _, _, rfl, by norm_num, by
        rw [exNorm 0 2 0 2 (by norm_num) (by norm_num)]; norm_num⟩) (fun h => absurd hk h)
  refine ⟨⟨hb.valid.rc_pos, hb.valid.fc, hb.valid.cr, hb.valid.ca, hb.valid.zeta, hb.valid.pow⟩,
    hb.list, ⟨hb.allocated.G, hb.allocated.dGdr, hb.allocated.cache, hb.allocated.slot⟩,
    fun h => absurd hk h, ?_, ⟨?_, ?_⟩, le_rfl, ?_⟩
  · intro e c hc
    obtain rfl := List.mem_singleton.1 hc
    exact ⟨Nat.zero_ne_one, fun c' hc' => Or.inl (List.mem_singleton.1 hc').symm⟩
  · intro e ci _ hci
    have := List.mem_of_getElem? (show ([[0, 1], [0, 1]] : List (List ℕ))[e]? = some ci from hci)
    refine Or.inr ⟨_, List.mem_singleton.2 rfl, by simpa using this, ?_⟩
    rcases hk with hk | hk | hk | hk | hk <;> · unfold SymFnc.cachedFunction; rw [hk]; rfl
  · intro _ _ e e' ci ci' _ _ h1 h2
    have h1 := List.mem_of_getElem? (show ([[0, 1], [0, 1]] : List (List ℕ))[e]? = some ci from h1)
    have h2 := List.mem_of_getElem? (show ([[0, 1], [0, 1]] : List (List ℕ))[e']? = some ci' from h2)
    simp at h1 h2
    simp [h1, h2]
  · intro n hn _ c hc
    obtain rfl := List.mem_singleton.1 hc
    have hn : n ∈ [exN1 [-1, -1], exN2 [-1, -1]] := hn
    have : n.cache = [-1, -1] := by
      simp only [List.mem_cons, List.not_mem_nil, or_false] at hn
      rcases hn with rfl | rfl <;> rfl
    rw [this]
    exact ⟨-1, -1, rfl, rfl, Or.inl (by norm_num)⟩

/-- C57: a wide angular and a radial function share the slots of the cache. -/
example : ∃ (S T : SymFnc) (a : Atom), S.kind = .ExpAngw ∧ T.kind = .ExpRad ∧
    S.cacheIndices = [[0, 1], [0, 1]] ∧ T.cacheIndices = [[0, 1], [0, 1]] ∧
    ∃ a' b', calculateSymmetryFunctions [S, T] a true = some a' ∧
      calculateSymmetryFunctions [S.uncached, T.uncached] a true = some b' ∧
      a'.forgetCaches = b'.forgetCaches := by
  obtain ⟨fc, cr, ca, hfc, hcr, hca⟩ := exFunctions
  have h := fun kind hk => exReadyCached kind fc cr ca ⟨_, _, hfc⟩ hcr hca hk
  exact ⟨exSym .ExpAngw fc cr ca [[0, 1], [0, 1]], exSym .ExpRad fc cr ca [[0, 1], [0, 1]],
    exCenter [exN1 [-1, -1], exN2 [-1, -1]], rfl, rfl, rfl, rfl,
    C57_cache_transparent_partial [_, _] _ _ _ _ fun S hS => by
      rcases List.mem_cons.1 hS with rfl | hS
      · exact h _ (by simp [SymFnc.IsExp, exSym])
      · rcases List.mem_cons.1 hS with rfl | hS
        · exact h _ (by simp [SymFnc.IsExp, exSym])
        · cases hS⟩

/-- C57 fails if a function was given a cache for one of its two elements only: the code looks for
the slots of the second neighbour, finds none, and reads outside the vector. Parameters, memory and
caches are otherwise in order. -/
theorem C57_mixed_caches_wrong : ∃ (S : SymFnc) (a : Atom) (L : CacheLayout),
    S.Valid ∧ a.ListOK S.rc ∧ S.Allocated a true ∧ L.Disjoint ∧ a.CacheOK L S.rc ∧
    (∀ e ci, S.checkRelevantElement e → S.cacheIndices[e]? = some ci →
      ci = [] ∨ ∃ c ∈ L e, ci = [c.val, c.der] ∧ c.fdf = S.cachedFunction) ∧
    S.calculate a true = none ∧ ∃ a', S.uncached.calculate a true = some a' := by
  obtain ⟨fc, cr, ca, hfc, hcr, hca⟩ := exFunctions
  have hb := exSym_ready .ExpAngw fc cr ca ⟨_, _, hfc⟩ hcr hca [exN1 [-1, -1], exN2 []] (by
    intro n hn
    simp only [List.mem_cons, List.not_mem_nil, or_false] at hn
    rcases hn with rfl | rfl
    · exact ⟨0, _, _, rfl, by norm_num, by
        rw [exNorm 1 0 0 1 (by norm_num) (by norm_num)]; norm_num⟩
    · exact ⟨1, _, _, rfl, by norm_num, by
        rw [exNorm 0 2 0 2 (by norm_num) (by norm_num)]; norm_num⟩)
    (fun h => absurd (by simp [SymFnc.IsExp, exSym]) h)
  refine ⟨exSym .ExpAngw fc cr ca [[0, 1], []], exCenter [exN1 [-1, -1], exN2 []],
    fun e => if e = 0 then [⟨0, 1, fc.fdf⟩] else [],
    ⟨hb.valid.rc_pos, hb.valid.fc, hb.valid.cr, hb.valid.ca, hb.valid.zeta, hb.valid.pow⟩,
    hb.list, ⟨hb.allocated.G, hb.allocated.dGdr, hb.allocated.cache, hb.allocated.slot⟩,
    ?_, ?_, ?_, ?_, ?_⟩
  · intro e c hc
    by_cases he : e = 0
    · simp only [he, if_true] at hc ⊢
      obtain rfl := List.mem_singleton.1 hc
      exact ⟨Nat.zero_ne_one, fun c' hc' => Or.inl (List.mem_singleton.1 hc').symm⟩
    · simp [he] at hc
  · intro n hn _ c hc
    have hn : n ∈ [exN1 [-1, -1], exN2 []] := hn
    simp only [List.mem_cons, List.not_mem_nil, or_false] at hn
    rcases hn with rfl | rfl
    · have : c = ⟨0, 1, fc.fdf⟩ := by simpa [exN1, exNb] using hc
      subst this
      exact ⟨-1, -1, rfl, rfl, Or.inl (by norm_num)⟩
    · simp [exN2, exNb] at hc
  · intro e ci _ hci
    change ([[0, 1], []] : List (List ℕ))[e]? = some ci at hci
    rcases e with _ | _ | e
    · obtain rfl := Option.some.inj hci
      exact Or.inr ⟨_, List.mem_singleton.2 rfl, rfl, rfl⟩
    · obtain rfl := Option.some.inj hci
      exact Or.inl rfl
    · simp at hci
  · have d1 := exN1_d [-1, -1]
    have d2 := exN2_d []
    have r2 : List.range (2 - 1) = [0] := rfl
    have r1 : List.range' (0 + 1) (2 - (0 + 1)) = [1] := rfl
    change SymFnc.pairCalculate _ _ _ _ = none
    unfold SymFnc.pairCalculate
    have hbd : (exSym .ExpAngw fc cr ca [[0, 1], []]).kernelExpAngw.bound
      (exCenter [exN1 [-1, -1], exN2 []]) = 2 := rfl
    rw [hbd]
    simp only [if_neg (two_ne_zero (α := ℕ)), r2, List.foldlM_cons, List.foldlM_nil]
    have : SymFnc.pairOuterStep (exSym .ExpAngw fc cr ca [[0, 1], []])
        (exSym .ExpAngw fc cr ca [[0, 1], []]).kernelExpAngw true 2
        (0, exCenter [exN1 [-1, -1], exN2 []]) 0 = none := by
      have hj : (exSym .ExpAngw fc cr ca [[0, 1], []]).kernelExpAngw.selJ (exN1 [-1, -1]) :=
        ⟨Or.inl rfl, by rw [d1]; norm_num [exSym]⟩
      have hk : ∀ c, (exSym .ExpAngw fc cr ca [[0, 1], []]).kernelExpAngw.selK
          (exN1 c) (exN2 []) := fun c => ⟨Or.inl ⟨rfl, rfl⟩, by rw [d2]; norm_num [exSym]⟩
      have hc : ∃ p c, cachedFdf fc.fdf [0, 1] [0, 1] (exN1 [-1, -1]) = some (p, exN1 c) := by
        unfold cachedFdf
        simp [exN1, exNb]
      obtain ⟨q, c, hc⟩ := hc
      unfold SymFnc.pairOuterStep
      simp only [exCenter, List.getElem?_cons_zero, Option.bind_eq_bind, Option.bind_some, r1]
      rw [if_pos hj, show (exSym .ExpAngw fc cr ca [[0, 1], []]).cacheIndices[
        (exN1 [-1, -1]).element]? = some [0, 1] from rfl, Option.bind_some,
        show (exSym .ExpAngw fc cr ca [[0, 1], []]).kernelExpAngw.fdf = fc.fdf from rfl, hc,
        Option.bind_some]
      simp only [List.foldlM_cons, List.foldlM_nil, SymFnc.pairStep, Atom.setNeighbor,
        List.set_cons_zero, List.getElem?_cons_zero, List.getElem?_cons_succ, Option.bind_eq_bind,
        Option.bind_some]
      rw [if_pos (hk c)]
      rfl
    rw [this]
    rfl
  · obtain ⟨a', e, -⟩ := C68_value _ _ _ _ _ hb
    exact ⟨a', e⟩

/-- C68 needs its condition on collinear triplets: for an angular support around 0 degrees the
formula gives a positive value for two neighbours in the same direction, the code gives zero. -/
theorem C68_collinear_wrong : ∃ (S : SymFnc) (a a' : Atom),
    S.Valid ∧ a.ListOK S.rc ∧ S.Allocated a false ∧ S.cacheIndices = [[], []] ∧
    S.calculate a false = some a' ∧ a'.value S = some 0 ∧
    S.sc.scale (S.formula a.env) = 400 / 729 := by
  obtain ⟨fc, -, -, hfc, -⟩ := exFunctions
  have hcr : CompactFunction.Configured ⟨3 / 2, 3 / 2, 0, 3, 2 / 3, ⟨.POLY1, false⟩⟩ .POLY1 false
      0 3 := by
    refine ⟨rfl, Or.inl ⟨⟨0, 0, 0, 0, 0, ⟨.POLY1, false⟩⟩, ?_⟩⟩
    unfold CompactFunction.setLeftRight
    rw [if_neg (by norm_num)]
    norm_num
  have hca : CompactFunction.Configured ⟨0, Real.pi / 2, -(Real.pi / 2), Real.pi / 2,
      1 / (Real.pi / 2), ⟨.POLY1, false⟩⟩ .POLY1 false (-(Real.pi / 2)) (Real.pi / 2) := by
    refine ⟨rfl, Or.inr ⟨⟨0, 0, 0, 0, 0, ⟨.POLY1, false⟩⟩, 0, Real.pi / 2, ?_, by ring, by ring⟩⟩
    unfold CompactFunction.setCenterWidth
    rw [if_neg (by linarith [Real.pi_pos])]
    norm_num
  have n1 := exNorm 1 0 0 1 (by norm_num) (by norm_num)
  have n2 := exNorm 2 0 0 2 (by norm_num) (by norm_num)
  have hp := Real.pi_pos
  have hcos : cosAngle ![1, 0, 0] ![2, 0, 0] = 1 := by
    simp [cosAngle, Vec3.dot, n1, n2]
  have hb := exSym_ready .ExpAngw fc _ _ ⟨_, _, hfc⟩ ⟨_, _, hcr⟩ ⟨_, _, hca⟩
    [exNb 0 ![1, 0, 0] [], exNb 1 ![2, 0, 0] []] (by
    intro n hn
    simp only [List.mem_cons, List.not_mem_nil, or_false] at hn
    rcases hn with rfl | rfl
    · exact ⟨0, _, _, rfl, by norm_num, by rw [n1]; norm_num⟩
    · exact ⟨1, _, _, rfl, by norm_num, by rw [n2]; norm_num⟩)
    (fun h => absurd (by simp [SymFnc.IsExp, exSym]) h)
  refine ⟨exSym .CompAngw fc ⟨3 / 2, 3 / 2, 0, 3, 2 / 3, ⟨.POLY1, false⟩⟩ ⟨0, Real.pi / 2,
      -(Real.pi / 2), Real.pi / 2, 1 / (Real.pi / 2), ⟨.POLY1, false⟩⟩ [[], []],
    exCenter [exNb 0 ![1, 0, 0] [], exNb 1 ![2, 0, 0] []],
    exCenter [exNb 0 ![1, 0, 0] [], exNb 1 ![2, 0, 0] []],
    ⟨hb.valid.rc_pos, fun _ => ⟨_, _, hfc⟩, fun _ => ⟨_, _, hcr⟩, fun _ _ => ⟨_, _, hca⟩,
      fun _ _ => by norm_num [exSym], fun _ _ _ => ⟨by norm_num [exSym], by norm_num [exSym]⟩⟩,
    hb.list, ⟨hb.allocated.G, nofun, hb.allocated.cache, nofun⟩, rfl,
    ?_, rfl, ?_⟩
  · have hK : ∀ S : SymFnc, ∀ pij pik, S.bodyCompAngw (fun _ _ => 1) (exNb 0 ![1, 0, 0] [])
        (exNb 1 ![2, 0, 0] []) pij pik = some none := by
      intro S pij pik
      unfold SymFnc.bodyCompAngw
      refine if_pos (Or.inr (le_of_eq ?_))
      simp [exNb, n1, n2, Vec3.dot]
    change SymFnc.pairCalculate _ _ _ _ = _
    have r1 : List.range' (0 + 1) (2 - (0 + 1)) = [1] := rfl
    unfold SymFnc.pairCalculate
    generalize hS : exSym .CompAngw fc ⟨3 / 2, 3 / 2, 0, 3, 2 / 3, ⟨.POLY1, false⟩⟩ ⟨0, Real.pi / 2,
      -(Real.pi / 2), Real.pi / 2, 1 / (Real.pi / 2), ⟨.POLY1, false⟩⟩ [[], []] = S
    have hbd : S.kernelCompAngw.bound
      (exCenter [exNb 0 ![1, 0, 0] [], exNb 1 ![2, 0, 0] []]) = 2 := rfl
    have hj : S.kernelCompAngw.selJ (exNb 0 ![1, 0, 0] []) := by
      subst hS
      exact ⟨Or.inl rfl, by simp [exNb, n1]; norm_num [exSym], by simp [exNb, n1]; norm_num [exSym]⟩
    have hk : S.kernelCompAngw.selK (exNb 0 ![1, 0, 0] []) (exNb 1 ![2, 0, 0] []) := by
      subst hS
      exact ⟨Or.inl ⟨rfl, rfl⟩, by simp [exNb, n2]; norm_num [exSym],
        by simp [exNb, n2]; norm_num [exSym]⟩
    have hci : S.cacheIndices = [[], []] := by subst hS; rfl
    have h1 : S.cacheIndices[(exNb 0 ![1, 0, 0] []).element]? = some [] := by rw [hci]; rfl
    have h2 : S.cacheIndices[(exNb 1 ![2, 0, 0] []).element]? = some [] := by rw [hci]; rfl
    have hout : S.pairOuterStep S.kernelCompAngw false 2
        (0, exCenter [exNb 0 ![1, 0, 0] [], exNb 1 ![2, 0, 0] []]) 0 =
        some (0, exCenter [exNb 0 ![1, 0, 0] [], exNb 1 ![2, 0, 0] []]) := by
      unfold SymFnc.pairOuterStep
      simp only [exCenter, List.getElem?_cons_zero, Option.bind_eq_bind, Option.bind_some, r1]
      rw [if_pos hj, h1, Option.bind_some]
      simp only [cachedFdf, List.length_nil, if_true, Option.bind_some, List.foldlM_cons,
        List.foldlM_nil, SymFnc.pairStep, Atom.setNeighbor, List.set_cons_zero,
        List.getElem?_cons_zero, List.getElem?_cons_succ, Option.bind_eq_bind]
      rw [if_pos hk, h1, h2]
      simp only [Option.bind_some, ite_self, List.length_nil, if_true]
      have : S.kernelCompAngw.body = S.bodyCompAngw fun _ _ => 1 := rfl
      rw [this, hK]
      rfl
    rw [hbd]
    simp only [if_neg (two_ne_zero (α := ℕ)), show List.range (2 - 1) = [0] from rfl,
      List.foldlM_cons, List.foldlM_nil, hout]
    subst hS
    simp [Atom.setG, exCenter, exSym, SymFnc.index, SymFncScaling.scale]
  · change SymFnc.formula _ [⟨0, ![1, 0, 0]⟩, ⟨1, ![2, 0, 0]⟩] = _
    simp [SymFnc.formula, SymFnc.siteTerm, SymFnc.pairTerm, pairSum, exSym, n1, n2, hcos,
      SymFnc.ofPair, SymFnc.angular, SymFnc.radial, SymFnc.compact, hp, CompactFunction.f,
      CoreFunction.f, CoreType.f]
    norm_num [abs_of_neg, abs_of_pos]

end N2P2
