import Verif.Spec.SymFnc
import Mathlib.Algebra.BigOperators.Group.List.Basic

/-! The loops of the symmetry functions compute sums of contributions of single neighbours or
pairs, whatever the caches contain. -/

namespace N2P2

/-! ### Cache -/

theorem cachedFdf_nil (fdf : ℝ → ℝ × ℝ) (idx : List ℕ) (n : Neighbor) :
    cachedFdf fdf [] idx n = some (fdf n.d, n) := by
  simp [cachedFdf]

theorem cachedFdf_slot {L : CacheLayout} (hL : L.Disjoint) {n : Neighbor} (hn : n.CacheOK L)
    {c : CacheSlot} (hc : c ∈ L n.element) (check : List ℕ) (hch : check ≠ []) :
    ∃ cache, cachedFdf c.fdf check [c.val, c.der] n =
      some (c.fdf n.d, { n with cache := cache }) ∧
      ({ n with cache := cache } : Neighbor).CacheOK L := by
  classical
  obtain ⟨v, w, hv, hw, hvw⟩ := hn c hc
  have hlen : check.length ≠ 0 := by simpa using hch
  have hne := (hL _ c hc).1
  have hv' : c.val < n.cache.length := (List.getElem?_eq_some_iff.1 hv).1
  have hw' : c.der < n.cache.length := (List.getElem?_eq_some_iff.1 hw).1
  by_cases h : v < 0
  · refine ⟨(n.cache.set c.val (c.fdf n.d).1).set c.der (c.fdf n.d).2, ?_, ?_⟩
    · simp only [cachedFdf, if_neg hlen, List.getElem?_cons_zero, List.getElem?_cons_succ,
        Option.bind_eq_bind, Option.bind_some, hv, hw, if_pos h]
      simp [hne.symm, hv', hw']
    · intro c' hc'
      obtain ⟨v', w', hv1, hw1, hor⟩ := hn c' hc'
      have hv1' : c'.val < n.cache.length := (List.getElem?_eq_some_iff.1 hv1).1
      have hw1' : c'.der < n.cache.length := (List.getElem?_eq_some_iff.1 hw1).1
      rcases (hL _ c hc).2 c' hc' with rfl | ⟨h1, h2, h3, h4⟩
      · exact ⟨(c.fdf n.d).1, (c.fdf n.d).2, by simp [hne.symm, hv'],
          by simp [hw'], Or.inr rfl⟩
      · refine ⟨v', w', ?_, ?_, hor⟩
        · simp only [List.getElem?_set, if_neg h1, if_neg h3, hv1]
        · simp only [List.getElem?_set, if_neg h2, if_neg h4, hw1]
  · refine ⟨n.cache, ?_, hn⟩
    have hfd : (v, w) = c.fdf n.d := hvw.resolve_left h
    simp only [cachedFdf, if_neg hlen, List.getElem?_cons_zero, List.getElem?_cons_succ,
      Option.bind_eq_bind, Option.bind_some, hv, hw, if_neg h, hfd]

/-! ### Contributions -/

/-- Added to the value, to the derivative of the central atom, and subtracted from the derivatives
of the neighbours. -/
abbrev Contrib := ℝ × Vec3 × (ℕ → Vec3)

/-- Position in `dGdr` of a neighbour. -/
def SymFnc.slotOf (S : SymFnc) (e : ℕ) : ℕ := S.indexPerElement.getD e 0

/-- The neighbour `k` after subtracting `v` and with a new cache. -/
def SymFnc.concN (S : SymFnc) (v : Vec3) (cache : List ℝ) (n : Neighbor) : Neighbor :=
  { n with cache := cache, dGdr := n.dGdr.modify (S.slotOf n.element) (· - v) }

/-- The state of the loop after the contributions `x`. -/
def SymFnc.conc (S : SymFnc) (a : Atom) (x : Contrib) (caches : ℕ → List ℝ) : ℝ × Atom :=
  (x.1, { a with
    dGdr := a.dGdr.modify S.index (· + x.2.1)
    neighbors := a.neighbors.mapIdx fun k n => S.concN (x.2.2 k) (caches k) n })

theorem modify_sub_zero (l : List Vec3) (i : ℕ) : l.modify i (· - 0) = l := by
  refine List.ext_getElem? fun k => ?_
  simp only [List.getElem?_modify, sub_zero]
  cases l[k]? <;> simp

theorem modify_add_zero (l : List Vec3) (i : ℕ) : l.modify i (· + 0) = l := by
  refine List.ext_getElem? fun k => ?_
  simp only [List.getElem?_modify, add_zero]
  cases l[k]? <;> simp

theorem SymFnc.conc_zero (S : SymFnc) (a : Atom) :
    S.conc a 0 (fun k => (a.neighbors[k]?.map (·.cache)).getD []) = (0, a) := by
  unfold SymFnc.conc SymFnc.concN
  have h1 : a.dGdr.modify S.index (· + (0 : Contrib).2.1) = a.dGdr := modify_add_zero _ _
  have h2 : a.neighbors.mapIdx (fun k n =>
      ({ n with
          cache := ((a.neighbors[k]?.map (·.cache)).getD [])
          dGdr := n.dGdr.modify (S.slotOf n.element) (· - (0 : Contrib).2.2 k) } : Neighbor))
      = a.neighbors := by
    refine List.ext_getElem? fun k => ?_
    rw [List.getElem?_mapIdx]
    cases h : a.neighbors[k]? with
    | none => simp
    | some n =>
      simp only [Option.map_some, Option.getD_some, Option.some.injEq]
      have : n.dGdr.modify (S.slotOf n.element) (· - (0 : Contrib).2.2 k) = n.dGdr :=
        modify_sub_zero _ _
      rw [this]
  rw [h1, h2]
  rfl

theorem SymFnc.conc_neighbor (S : SymFnc) (a : Atom) (x : Contrib) (caches : ℕ → List ℝ) (k : ℕ)
    {n : Neighbor} (h : a.neighbors[k]? = some n) :
    (S.conc a x caches).2.neighbors[k]? = some (S.concN (x.2.2 k) (caches k) n) := by
  simp [SymFnc.conc, List.getElem?_mapIdx, h]

theorem SymFnc.conc_setNeighbor (S : SymFnc) (a : Atom) (x : Contrib) (caches : ℕ → List ℝ) (k : ℕ)
    {n : Neighbor} (h : a.neighbors[k]? = some n) (cache : List ℝ) :
    (S.conc a x caches).2.setNeighbor k (S.concN (x.2.2 k) cache n) =
      (S.conc a x (Function.update caches k cache)).2 := by
  unfold SymFnc.conc Atom.setNeighbor
  congr 1
  refine List.ext_getElem? fun i => ?_
  rw [List.getElem?_set, List.getElem?_mapIdx, List.getElem?_mapIdx]
  by_cases hik : k = i
  · subst hik
    have : k < a.neighbors.length := (List.getElem?_eq_some_iff.1 h).1
    rw [if_pos rfl, if_pos (by simpa using this), h]
    simp [SymFnc.concN]
  · simp [hik, Function.update_of_ne (Ne.symm hik)]

/-- Adding to the derivative of the central atom. -/
theorem SymFnc.conc_addDGdr (S : SymFnc) (a : Atom) (x : Contrib) (caches : ℕ → List ℝ) (v : Vec3)
    (h : S.index < a.dGdr.length) :
    (S.conc a x caches).2.addDGdr S.index v =
      some (S.conc a (x + (0, v, 0)) caches).2 := by
  unfold SymFnc.conc Atom.addDGdr
  have h1 : (a.dGdr.modify S.index (· + x.2.1))[S.index]? =
      some (a.dGdr[S.index] + x.2.1) := by simp [h]
  simp only [h1, Option.bind_eq_bind, Option.bind_some, Option.some.injEq]
  congr 1
  · refine List.ext_getElem? fun i => ?_
    rw [List.getElem?_set]
    by_cases hi : S.index = i
    · subst hi
      simp [h, add_assoc]
    · simp [hi]
  · simp

/-- Subtracting from the derivative of a neighbour. -/
theorem SymFnc.conc_subNeighborDGdr (S : SymFnc) (a : Atom) (x : Contrib) (caches : ℕ → List ℝ)
    (k : ℕ) (v : Vec3) {n : Neighbor} (h : a.neighbors[k]? = some n)
    (hs : S.slotOf n.element < n.dGdr.length) :
    (S.conc a x caches).2.subNeighborDGdr k (S.slotOf n.element) v =
      some (S.conc a (x + (0, 0, Pi.single k v)) caches).2 := by
  unfold Atom.subNeighborDGdr
  rw [S.conc_neighbor a x caches k h]
  have h1 : (S.concN (x.2.2 k) (caches k) n).dGdr[S.slotOf n.element]? =
      some (n.dGdr[S.slotOf n.element] - x.2.2 k) := by simp [SymFnc.concN, hs]
  simp only [h1, Option.bind_eq_bind, Option.bind_some, Option.some.injEq]
  unfold SymFnc.conc Atom.setNeighbor
  congr 1
  · simp
  · refine List.ext_getElem? fun i => ?_
    rw [List.getElem?_set, List.getElem?_mapIdx, List.getElem?_mapIdx]
    by_cases hik : k = i
    · subst hik
      have hk : k < a.neighbors.length := (List.getElem?_eq_some_iff.1 h).1
      simp only [if_true, List.length_mapIdx, hk, h, Option.map_some, Option.some.injEq]
      unfold SymFnc.concN
      congr 1
      refine List.ext_getElem? fun m => ?_
      rw [List.getElem?_set]
      by_cases hm : S.slotOf n.element = m
      · subst hm
        simp [hs, sub_sub]
      · simp [hm]
    · simp [hik]

theorem SymFnc.conc_fst (S : SymFnc) (a : Atom) (x : Contrib) (caches : ℕ → List ℝ) (v : ℝ) :
    (x.1 + v, (S.conc a x caches).2) = S.conc a (x + (v, 0, 0)) caches := by
  simp [SymFnc.conc]

/-- The atom after `calculate` with contributions `x` and raw value `v`. -/
noncomputable def SymFnc.finish (S : SymFnc) (a : Atom) (x : Contrib) (caches : ℕ → List ℝ)
    (v : ℝ) : Atom :=
  { (S.conc a x caches).2 with G := a.G.set S.index (S.sc.scale v) }

theorem SymFnc.setG_conc (S : SymFnc) (a : Atom) (x : Contrib) (caches : ℕ → List ℝ) (v : ℝ)
    (h : S.index < a.G.length) :
    (S.conc a x caches).2.setG S.index (S.sc.scale v) = some (S.finish a x caches v) := by
  unfold Atom.setG
  have : (S.conc a x caches).2.G[S.index]? = some a.G[S.index] := by
    simp [SymFnc.conc, h]
  rw [this]
  rfl

/-- A loop each step of which adds a contribution adds the sum of the contributions. -/
theorem foldlM_conc (S : SymFnc) (a : Atom) (Inv : (ℕ → List ℝ) → Prop)
    (step : ℝ × Atom → ℕ → Option (ℝ × Atom)) (c : ℕ → Contrib) :
    ∀ (l : List ℕ), (∀ j ∈ l, ∀ x caches, Inv caches → ∃ caches', Inv caches' ∧
        step (S.conc a x caches) j = some (S.conc a (x + c j) caches')) →
      ∀ x caches, Inv caches → ∃ caches', Inv caches' ∧
        l.foldlM step (S.conc a x caches) = some (S.conc a (x + (l.map c).sum) caches') := by
  intro l
  induction l with
  | nil =>
    intro _ x caches h
    exact ⟨caches, h, by simp⟩
  | cons j l ih =>
    intro hs x caches h
    obtain ⟨c1, h1, e1⟩ := hs j (by simp) x caches h
    obtain ⟨c2, h2, e2⟩ := ih (fun i hi => hs i (by simp [hi])) (x + c j) c1 h1
    refine ⟨c2, h2, ?_⟩
    rw [List.foldlM_cons, e1]
    simp only [Option.bind_eq_bind, Option.bind_some]
    rw [e2, List.map_cons, List.sum_cons, add_assoc]

/-- The invariant of the caches during `calculate`. -/
def CachesOK (L : CacheLayout) (R : ℝ) (a : Atom) (caches : ℕ → List ℝ) : Prop :=
  ∀ (k : ℕ) (n : Neighbor), a.neighbors[k]? = some n → n.d < R →
    ({ n with cache := caches k } : Neighbor).CacheOK L

theorem Neighbor.CacheOK.dGdr {L : CacheLayout} {n : Neighbor} (h : n.CacheOK L) (g : List Vec3) :
    ({ n with dGdr := g } : Neighbor).CacheOK L := h

/-- Reading through the cache gives the function value and keeps the caches in order. -/
theorem SymFnc.cached_step {S : SymFnc} {L : CacheLayout} (hL : L.Disjoint) (hS : S.CacheUse L)
    {R : ℝ} {a : Atom} {x : Contrib} {caches : ℕ → List ℝ} (h : CachesOK L R a caches) {k : ℕ}
    {n : Neighbor} (hk : a.neighbors[k]? = some n) (hR : n.d < R)
    (hrel : S.checkRelevantElement n.element) {ci check : List ℕ}
    (hci : S.cacheIndices[n.element]? = some ci) (hcheck : check = [] ↔ ci = []) :
    ∃ cache, cachedFdf S.cachedFunction check ci (S.concN (x.2.2 k) (caches k) n) =
        some (S.cachedFunction n.d, S.concN (x.2.2 k) cache n) ∧
      CachesOK L R a (Function.update caches k cache) := by
  have hn : (S.concN (x.2.2 k) (caches k) n).CacheOK L := h k n hk hR
  have hupd : ∀ cache, ({ n with cache := cache } : Neighbor).CacheOK L →
      CachesOK L R a (Function.update caches k cache) := by
    intro cache hc i m hm hd
    by_cases hik : i = k
    · subst hik
      rw [hk] at hm
      cases hm
      simpa using hc
    · rw [Function.update_of_ne hik]
      exact h i m hm hd
  rcases hS.slots n.element ci hrel hci with rfl | ⟨c, hc, rfl, hf⟩
  · rw [hcheck.2 rfl, cachedFdf_nil]
    exact ⟨caches k, rfl, hupd _ hn⟩
  · have hne : check ≠ [] := fun e => by simpa using hcheck.1 e
    obtain ⟨cache, e, hok⟩ := cachedFdf_slot hL hn (c := c) hc check hne
    rw [hf] at e
    exact ⟨cache, e, hupd cache hok⟩

/-! ### Radial loop -/

/-- The kernel does not look at the cache or the derivatives of a neighbour. -/
structure RadialKernel.Local (K : RadialKernel) : Prop where
  sel : ∀ n c g, K.sel { n with cache := c, dGdr := g } ↔ K.sel n
  term : ∀ n c g p, K.term { n with cache := c, dGdr := g } p = K.term n p
  p1 : ∀ n c g p, K.p1 { n with cache := c, dGdr := g } p = K.p1 n p

open Classical in
/-- Contribution of neighbour `j`. -/
noncomputable def RadialKernel.contrib (K : RadialKernel) (derivatives : Bool) (a : Atom) (j : ℕ) :
    Contrib :=
  match a.neighbors[j]? with
  | none => 0
  | some n =>
    if K.sel n then
      (K.term n (K.fdf n.d),
        if derivatives then
          (K.p1 n (K.fdf n.d) • n.dr, Pi.single j (K.p1 n (K.fdf n.d) • n.dr))
        else 0)
    else 0

theorem SymFnc.radialStep_conc {S : SymFnc} {K : RadialKernel} {L : CacheLayout} {R : ℝ} {a : Atom}
    {derivatives : Bool} (hK : K.Local) (hfdf : K.fdf = S.cachedFunction)
    (hsel : ∀ n, K.sel n → n.d < S.rc ∧ S.checkRelevantElement n.element)
    (hL : L.Disjoint) (hS : S.CacheUse L) (hR : S.rc ≤ R) (hA : S.Allocated a derivatives)
    (j : ℕ) (hj : j < a.neighbors.length) (x : Contrib) (caches : ℕ → List ℝ)
    (h : CachesOK L R a caches) :
    ∃ caches', CachesOK L R a caches' ∧
      S.radialStep K derivatives (S.conc a x caches) j =
        some (S.conc a (x + K.contrib derivatives a j) caches') := by
  classical
  have hn : a.neighbors[j]? = some a.neighbors[j] := List.getElem?_eq_getElem hj
  generalize a.neighbors[j] = n at hn
  have hmem : n ∈ a.neighbors := List.mem_of_getElem? hn
  unfold SymFnc.radialStep RadialKernel.contrib
  rw [S.conc_neighbor a x caches j hn]
  simp only [Option.bind_eq_bind, Option.bind_some, hn]
  have hs : K.sel (S.concN (x.2.2 j) (caches j) n) ↔ K.sel n := hK.sel n _ _
  by_cases hsn : K.sel n
  · obtain ⟨hd, hrel⟩ := hsel n hsn
    rw [if_pos (hs.2 hsn), if_pos hsn]
    have hci : S.cacheIndices[n.element]? = some (S.cacheIndices[n.element]'(hA.cache.2 n hmem)) :=
      List.getElem?_eq_getElem _
    generalize S.cacheIndices[n.element]'(hA.cache.2 n hmem) = ci at hci
    obtain ⟨cache, e, hok⟩ := SymFnc.cached_step (x := x) hL hS h hn (hd.trans_le hR) hrel hci
      (Iff.rfl : ci = [] ↔ ci = [])
    have hci' : S.cacheIndices[(S.concN (x.2.2 j) (caches j) n).element]? = some ci := hci
    refine ⟨Function.update caches j cache, hok, ?_⟩
    rw [hci']
    simp only [Option.bind_some]
    rw [hfdf, e]
    simp only [Option.bind_some]
    have e1 : ∀ p, K.term (S.concN (x.2.2 j) cache n) p = K.term n p := fun p => hK.term n _ _ p
    have e2 : ∀ p, K.p1 (S.concN (x.2.2 j) cache n) p = K.p1 n p := fun p => hK.p1 n _ _ p
    have e3 : (S.concN (x.2.2 j) cache n).dr = n.dr := rfl
    have e4 : (S.concN (x.2.2 j) cache n).element = n.element := rfl
    rw [e1, e2, e3, e4, S.conc_setNeighbor a x caches j hn cache]
    have hfst : (S.conc a x caches).1 = x.1 := rfl
    rw [hfst]
    cases derivatives with
    | false =>
      simp only [Bool.false_eq_true, if_false]
      rw [S.conc_fst]
      congr 1
    | true =>
      simp only [if_true]
      rw [S.conc_addDGdr a x _ _ (hA.dGdr rfl)]
      simp only [Option.bind_some]
      obtain ⟨i, hi, hil⟩ := hA.slot rfl n hmem hd hrel
      have hslot : S.slotOf n.element = i := by
        simp [SymFnc.slotOf, List.getD_eq_getElem?_getD, hi]
      rw [hi]
      simp only [Option.bind_some]
      rw [← hslot, S.conc_subNeighborDGdr a _ _ j _ hn (by rw [hslot]; exact hil)]
      simp only [Option.bind_some, Option.some.injEq]
      refine Prod.ext ?_ ?_
      · simp [SymFnc.conc]
      · simp [SymFnc.conc, add_assoc]
  · rw [if_neg (fun h' => hsn (hs.1 h')), if_neg hsn]
    exact ⟨caches, h, by rw [add_zero]⟩

/-- The radial loop adds the sum of all contributions. -/
theorem SymFnc.radialCalculate_eq {S : SymFnc} {K : RadialKernel} {L : CacheLayout} {R : ℝ}
    {a : Atom} {derivatives : Bool} (hK : K.Local) (hfdf : K.fdf = S.cachedFunction)
    (hsel : ∀ n, K.sel n → n.d < S.rc ∧ S.checkRelevantElement n.element)
    (hL : L.Disjoint) (hS : S.CacheUse L) (hR : S.rc ≤ R) (hA : S.Allocated a derivatives)
    (hb : K.bound a ≤ a.neighbors.length) (hC : a.CacheOK L R) :
    ∃ caches, CachesOK L R a caches ∧ S.radialCalculate K a derivatives =
      some (S.finish a ((List.range (K.bound a)).map (K.contrib derivatives a)).sum caches
        (((List.range (K.bound a)).map (K.contrib derivatives a)).sum).1) := by
  have hinit : CachesOK L R a (fun k => (a.neighbors[k]?.map (·.cache)).getD []) := by
    intro k n hk hd
    have := hC n (List.mem_of_getElem? hk) hd
    simpa [hk] using this
  obtain ⟨caches, hok, e⟩ := foldlM_conc S a (CachesOK L R a) (S.radialStep K derivatives)
    (K.contrib derivatives a) (List.range (K.bound a))
    (fun j hj x c h => SymFnc.radialStep_conc hK hfdf hsel hL hS hR hA j
      ((List.mem_range.1 hj).trans_le hb) x c h) 0 _ hinit
  refine ⟨caches, hok, ?_⟩
  rw [S.conc_zero] at e
  unfold SymFnc.radialCalculate
  rw [e]
  simp only [Option.bind_eq_bind, Option.bind_some, zero_add]
  exact S.setG_conc a _ caches _ hA.G

/-! ### Pair loop -/

/-- The kernel does not look at the cache or the derivatives of a neighbour, and its body gives the
terms `T`. -/
structure SymFnc.PairKernel.Local (K : SymFnc.PairKernel)
    (T : Neighbor → Neighbor → Option SymFnc.PairTerm) : Prop where
  selJ : ∀ n c g, K.selJ { n with cache := c, dGdr := g } ↔ K.selJ n
  selK : ∀ n c g n' c' g', K.selK { n with cache := c, dGdr := g }
    { n' with cache := c', dGdr := g' } ↔ K.selK n n'
  body : ∀ n c g n' c' g', K.body { n with cache := c, dGdr := g }
    { n' with cache := c', dGdr := g' } (K.fdf n.d) (K.fdf n'.d) = some (T n n')

/-- Contribution of a pair with terms `t`. -/
noncomputable def SymFnc.pairContribOf (S : SymFnc) (derivatives : Bool) (j k : ℕ)
    (nj nk : Neighbor) (t : SymFnc.PairTerm) : Contrib :=
  (t.value,
    if derivatives then
      ((t.p1 * S.sf) • nj.dr + (t.p2 * S.sf) • nk.dr,
        Pi.single j ((t.p1 * S.sf) • nj.dr + (t.p3 * S.sf) • (nk.dr - nj.dr))
          + Pi.single k ((t.p2 * S.sf) • nk.dr - (t.p3 * S.sf) • (nk.dr - nj.dr)))
    else 0)

open Classical in
/-- Contribution of the pair of neighbours `j`, `k`. -/
noncomputable def SymFnc.pairContrib (S : SymFnc) (K : SymFnc.PairKernel)
    (T : Neighbor → Neighbor → Option SymFnc.PairTerm) (derivatives : Bool) (a : Atom)
    (j k : ℕ) : Contrib :=
  match a.neighbors[j]?, a.neighbors[k]? with
  | some nj, some nk =>
    if K.selJ nj ∧ K.selK nj nk then
      match T nj nk with
      | none => 0
      | some t => S.pairContribOf derivatives j k nj nk t
    else 0
  | _, _ => 0

theorem SymFnc.pairStep_conc {S : SymFnc} {K : SymFnc.PairKernel}
    {T : Neighbor → Neighbor → Option SymFnc.PairTerm} {L : CacheLayout} {R : ℝ} {a : Atom}
    {derivatives : Bool} (hK : K.Local T) (hfdf : K.fdf = S.cachedFunction)
    (hselJ : ∀ n, K.selJ n → n.d < S.rc ∧ S.checkRelevantElement n.element)
    (hselK : ∀ n n', K.selJ n → K.selK n n' → n'.d < S.rc ∧ S.checkRelevantElement n'.element)
    (hJ : K.checkJ = true → S.IsExp ∧ S.IsAng)
    (hL : L.Disjoint) (hS : S.CacheUse L) (hR : S.rc ≤ R) (hA : S.Allocated a derivatives)
    (j : ℕ) {nj : Neighbor} (hnj : a.neighbors[j]? = some nj) (hj : K.selJ nj)
    (k : ℕ) (hk : k < a.neighbors.length) (x : Contrib) (caches : ℕ → List ℝ)
    (h : CachesOK L R a caches) :
    ∃ caches', CachesOK L R a caches' ∧
      S.pairStep K derivatives j (K.fdf nj.d) (S.conc a x caches) k =
        some (S.conc a (x + S.pairContrib K T derivatives a j k) caches') := by
  classical
  have hnk : a.neighbors[k]? = some a.neighbors[k] := List.getElem?_eq_getElem hk
  generalize a.neighbors[k] = nk at hnk
  have hmj : nj ∈ a.neighbors := List.mem_of_getElem? hnj
  have hmk : nk ∈ a.neighbors := List.mem_of_getElem? hnk
  unfold SymFnc.pairStep SymFnc.pairContrib
  rw [S.conc_neighbor a x caches j hnj, S.conc_neighbor a x caches k hnk]
  simp only [Option.bind_eq_bind, Option.bind_some, hnj, hnk]
  have hs : K.selK (S.concN (x.2.2 j) (caches j) nj) (S.concN (x.2.2 k) (caches k) nk) ↔
    K.selK nj nk := hK.selK nj _ _ nk _ _
  by_cases hsn : K.selK nj nk
  · obtain ⟨hdj, hrelj⟩ := hselJ nj hj
    obtain ⟨hdk, hrelk⟩ := hselK nj nk hj hsn
    rw [if_pos (hs.2 hsn), if_pos ⟨hj, hsn⟩]
    have hcj : S.cacheIndices[nj.element]? = some (S.cacheIndices[nj.element]'(hA.cache.2 nj hmj)) :=
      List.getElem?_eq_getElem _
    generalize S.cacheIndices[nj.element]'(hA.cache.2 nj hmj) = cj at hcj
    have hck : S.cacheIndices[nk.element]? = some (S.cacheIndices[nk.element]'(hA.cache.2 nk hmk)) :=
      List.getElem?_eq_getElem _
    generalize S.cacheIndices[nk.element]'(hA.cache.2 nk hmk) = ck at hck
    have hcheck : (if K.checkJ then cj else ck) = [] ↔ ck = [] := by
      by_cases hb : K.checkJ
      · rw [if_pos hb]; exact hS.uniform (hJ hb).1 (hJ hb).2 _ _ cj ck hrelj hrelk hcj hck
      · rw [if_neg hb]
    obtain ⟨cache, e, hok⟩ := SymFnc.cached_step (x := x) hL hS h hnk (hdk.trans_le hR) hrelk hck
      hcheck
    have hcj' : S.cacheIndices[(S.concN (x.2.2 j) (caches j) nj).element]? = some cj := hcj
    have hck' : S.cacheIndices[(S.concN (x.2.2 k) (caches k) nk).element]? = some ck := hck
    refine ⟨Function.update caches k cache, hok, ?_⟩
    rw [hcj', hck']
    simp only [Option.bind_some]
    have ebody : K.body (S.concN (x.2.2 j) (caches j) nj) (S.concN (x.2.2 k) cache nk)
      (K.fdf nj.d) (S.cachedFunction nk.d) = some (T nj nk) := by
      rw [← hfdf]; exact hK.body nj _ _ nk _ _
    have e' : cachedFdf K.fdf (if K.checkJ then cj else ck) ck (S.concN (x.2.2 k) (caches k) nk) =
        some (S.cachedFunction nk.d, S.concN (x.2.2 k) cache nk) := by rw [hfdf]; exact e
    rw [e']
    simp only [Option.bind_some]
    rw [ebody, S.conc_setNeighbor a x caches k hnk cache]
    simp only [Option.bind_some]
    have hfst : (S.conc a x caches).1 = x.1 := rfl
    rw [hfst]
    cases hT : T nj nk with
    | none =>
      simp only [add_zero]
      rfl
    | some t =>
      simp only
      unfold SymFnc.pairContribOf
      cases derivatives with
      | false =>
        simp only [Bool.false_eq_true, if_false]
        rw [S.conc_fst]
        congr 1
      | true =>
        simp only [if_true]
        have e3 : (S.concN (x.2.2 k) cache nk).dr = nk.dr := rfl
        have e4 : (S.concN (x.2.2 k) cache nk).element = nk.element := rfl
        have e5 : (S.concN (x.2.2 j) (caches j) nj).dr = nj.dr := rfl
        have e6 : (S.concN (x.2.2 j) (caches j) nj).element = nj.element := rfl
        rw [e3, e4, e5, e6, S.conc_addDGdr a x _ _ (hA.dGdr rfl)]
        simp only [Option.bind_some]
        obtain ⟨i, hi, hil⟩ := hA.slot rfl nj hmj hdj hrelj
        obtain ⟨i', hi', hil'⟩ := hA.slot rfl nk hmk hdk hrelk
        have hslot : S.slotOf nj.element = i := by
          simp [SymFnc.slotOf, List.getD_eq_getElem?_getD, hi]
        have hslot' : S.slotOf nk.element = i' := by
          simp [SymFnc.slotOf, List.getD_eq_getElem?_getD, hi']
        rw [hi, hi']
        simp only [Option.bind_some]
        rw [← hslot, S.conc_subNeighborDGdr a _ _ j _ hnj (by rw [hslot]; exact hil)]
        simp only [Option.bind_some]
        rw [← hslot', S.conc_subNeighborDGdr a _ _ k _ hnk (by rw [hslot']; exact hil')]
        simp only [Option.bind_some, Option.some.injEq]
        refine Prod.ext ?_ ?_
        · simp [SymFnc.conc]
        · simp [SymFnc.conc, add_assoc]
  · rw [if_neg (fun h' => hsn (hs.1 h')), if_neg (fun h' => hsn h'.2)]
    exact ⟨caches, h, by rw [add_zero]⟩

/-- Contributions of the pairs of `j` with all later neighbours. -/
noncomputable def SymFnc.outerContrib (S : SymFnc) (K : SymFnc.PairKernel)
    (T : Neighbor → Neighbor → Option SymFnc.PairTerm) (derivatives : Bool) (a : Atom)
    (m j : ℕ) : Contrib :=
  ((List.range' (j + 1) (m - (j + 1))).map (S.pairContrib K T derivatives a j)).sum

theorem SymFnc.pairOuterStep_conc {S : SymFnc} {K : SymFnc.PairKernel}
    {T : Neighbor → Neighbor → Option SymFnc.PairTerm} {L : CacheLayout} {R : ℝ} {a : Atom}
    {derivatives : Bool} (hK : K.Local T) (hfdf : K.fdf = S.cachedFunction)
    (hselJ : ∀ n, K.selJ n → n.d < S.rc ∧ S.checkRelevantElement n.element)
    (hselK : ∀ n n', K.selJ n → K.selK n n' → n'.d < S.rc ∧ S.checkRelevantElement n'.element)
    (hJ : K.checkJ = true → S.IsExp ∧ S.IsAng)
    (hL : L.Disjoint) (hS : S.CacheUse L) (hR : S.rc ≤ R) (hA : S.Allocated a derivatives)
    (m : ℕ) (hm : m ≤ a.neighbors.length)
    (j : ℕ) (hj : j < a.neighbors.length) (x : Contrib) (caches : ℕ → List ℝ)
    (h : CachesOK L R a caches) :
    ∃ caches', CachesOK L R a caches' ∧
      S.pairOuterStep K derivatives m (S.conc a x caches) j =
        some (S.conc a (x + S.outerContrib K T derivatives a m j) caches') := by
  classical
  have hnj : a.neighbors[j]? = some a.neighbors[j] := List.getElem?_eq_getElem hj
  generalize a.neighbors[j] = nj at hnj
  have hmj : nj ∈ a.neighbors := List.mem_of_getElem? hnj
  unfold SymFnc.pairOuterStep
  rw [S.conc_neighbor a x caches j hnj]
  simp only [Option.bind_eq_bind, Option.bind_some]
  have hs : K.selJ (S.concN (x.2.2 j) (caches j) nj) ↔ K.selJ nj := hK.selJ nj _ _
  by_cases hsn : K.selJ nj
  · obtain ⟨hdj, hrelj⟩ := hselJ nj hsn
    rw [if_pos (hs.2 hsn)]
    have hcj : S.cacheIndices[nj.element]? = some (S.cacheIndices[nj.element]'(hA.cache.2 nj hmj)) :=
      List.getElem?_eq_getElem _
    generalize S.cacheIndices[nj.element]'(hA.cache.2 nj hmj) = cj at hcj
    obtain ⟨cache, e, hok⟩ := SymFnc.cached_step (x := x) hL hS h hnj (hdj.trans_le hR) hrelj hcj
      (Iff.rfl : cj = [] ↔ cj = [])
    have hcj' : S.cacheIndices[(S.concN (x.2.2 j) (caches j) nj).element]? = some cj := hcj
    rw [hcj']
    simp only [Option.bind_some]
    have e' : cachedFdf K.fdf cj cj (S.concN (x.2.2 j) (caches j) nj) =
        some (S.cachedFunction nj.d, S.concN (x.2.2 j) cache nj) := by rw [hfdf]; exact e
    rw [e']
    simp only [Option.bind_some]
    rw [S.conc_setNeighbor a x caches j hnj cache]
    have hfst : ((S.conc a x caches).1, (S.conc a x (Function.update caches j cache)).2) =
      S.conc a x (Function.update caches j cache) := rfl
    rw [hfst, ← hfdf]
    exact foldlM_conc S a (CachesOK L R a) _ (S.pairContrib K T derivatives a j) _
      (fun k hk x c h => SymFnc.pairStep_conc hK hfdf hselJ hselK hJ hL hS hR hA j hnj hsn k
        (by have := (List.mem_range'_1.1 hk).2; omega) x c h) x _ hok
  · rw [if_neg (fun h' => hsn (hs.1 h'))]
    refine ⟨caches, h, ?_⟩
    have : S.outerContrib K T derivatives a m j = 0 := by
      unfold SymFnc.outerContrib
      refine List.sum_eq_zero fun c hc => ?_
      obtain ⟨k, -, rfl⟩ := List.mem_map.1 hc
      unfold SymFnc.pairContrib
      rw [hnj]
      cases a.neighbors[k]? with
      | none => rfl
      | some nk => exact if_neg fun h' => hsn h'.1
    rw [this, add_zero]

/-- Sum of the contributions of all pairs. -/
noncomputable def SymFnc.pairTotal (S : SymFnc) (K : SymFnc.PairKernel)
    (T : Neighbor → Neighbor → Option SymFnc.PairTerm) (derivatives : Bool) (a : Atom) (m : ℕ) :
    Contrib :=
  ((List.range (m - 1)).map (S.outerContrib K T derivatives a m)).sum

theorem SymFnc.pairCalculate_eq {S : SymFnc} {K : SymFnc.PairKernel}
    {T : Neighbor → Neighbor → Option SymFnc.PairTerm} {L : CacheLayout} {R : ℝ} {a : Atom}
    {derivatives : Bool} (hK : K.Local T) (hfdf : K.fdf = S.cachedFunction)
    (hselJ : ∀ n, K.selJ n → n.d < S.rc ∧ S.checkRelevantElement n.element)
    (hselK : ∀ n n', K.selJ n → K.selK n n' → n'.d < S.rc ∧ S.checkRelevantElement n'.element)
    (hJ : K.checkJ = true → S.IsExp ∧ S.IsAng)
    (hL : L.Disjoint) (hS : S.CacheUse L) (hR : S.rc ≤ R) (hA : S.Allocated a derivatives)
    (hb : K.bound a ≤ a.neighbors.length) (hC : a.CacheOK L R) :
    ∃ caches, CachesOK L R a caches ∧ S.pairCalculate K a derivatives =
      some (S.finish a (S.pairTotal K T derivatives a (K.bound a)) caches
        ((S.pairTotal K T derivatives a (K.bound a)).1 * K.pnorm)) := by
  have hinit : CachesOK L R a (fun k => (a.neighbors[k]?.map (·.cache)).getD []) := by
    intro k n hk hd
    have := hC n (List.mem_of_getElem? hk) hd
    simpa [hk] using this
  unfold SymFnc.pairCalculate
  have hlist : List.range ((if K.bound a = 0 then 1 else K.bound a) - 1) =
      List.range (K.bound a - 1) := by
    by_cases h0 : K.bound a = 0 <;> simp [h0]
  have hstep : (List.range (K.bound a - 1)).foldlM (S.pairOuterStep K derivatives
      (if K.bound a = 0 then 1 else K.bound a)) (0, a) =
      (List.range (K.bound a - 1)).foldlM (S.pairOuterStep K derivatives (K.bound a)) (0, a) := by
    by_cases h0 : K.bound a = 0
    · simp [h0]
    · simp [h0]
  simp only [hlist, hstep]
  obtain ⟨caches, hok, e⟩ := foldlM_conc S a (CachesOK L R a)
    (S.pairOuterStep K derivatives (K.bound a)) (S.outerContrib K T derivatives a (K.bound a))
    (List.range (K.bound a - 1))
    (fun j hj x c h => SymFnc.pairOuterStep_conc hK hfdf hselJ hselK hJ hL hS hR hA (K.bound a) hb j
      (by have := List.mem_range.1 hj; omega) x c h) 0 _ hinit
  refine ⟨caches, hok, ?_⟩
  rw [S.conc_zero] at e
  rw [e]
  simp only [Option.bind_eq_bind, Option.bind_some, zero_add]
  exact S.setG_conc a _ caches _ hA.G

end N2P2
