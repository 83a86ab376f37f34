import Verif.Spec.SymGrp
import Verif.Lemma.ModeFold

/-! The loops of the symmetry function groups add contributions for several members at once. -/

namespace N2P2

/-- A loop each step of which keeps an invariant. -/
theorem foldlM_range'_inv {σ : Type} (step : σ → ℕ → Option σ) (P : ℕ → σ → Prop) :
    ∀ (m i : ℕ) (s : σ), (∀ l, i ≤ l → l < i + m → ∀ s, P l s → ∃ s', step s l = some s' ∧
      P (l + 1) s') → P i s → ∃ s', (List.range' i m).foldlM step s = some s' ∧ P (i + m) s' := by
  intro m
  induction m with
  | zero => intro i s _ h; exact ⟨s, rfl, h⟩
  | succ m ih =>
    intro i s hs h
    obtain ⟨s1, e1, h1⟩ := hs i le_rfl (by omega) s h
    obtain ⟨s2, e2, h2⟩ := ih (i + 1) s1 (fun l hl hl' => hs l (by omega) (by omega)) h1
    refine ⟨s2, ?_, by rw [show i + (m + 1) = i + 1 + m by omega]; exact h2⟩
    rw [List.range'_succ, List.foldlM_cons, e1]
    exact e2

theorem foldlM_range_inv {σ : Type} (step : σ → ℕ → Option σ) (P : ℕ → σ → Prop) (m : ℕ) (s : σ)
    (hs : ∀ l, l < m → ∀ s, P l s → ∃ s', step s l = some s' ∧ P (l + 1) s') (h : P 0 s) :
    ∃ s', (List.range m).foldlM step s = some s' ∧ P m s' := by
  have := foldlM_range'_inv step P m 0 s (fun l _ hl => hs l (by omega)) h
  rw [List.range_eq_range']
  simpa using this

/-! ### Contributions for several functions -/

open Classical in
/-- Derivatives of the central atom after the contributions `X` of the functions `f 0`, ...,
`f (m - 1)`. -/
noncomputable def gDGdr (f : ℕ → SymFnc) (m : ℕ) (X : ℕ → Contrib) (l : List Vec3) : List Vec3 :=
  l.mapIdx fun i v => v + ∑ r ∈ Finset.range m, if (f r).index = i then (X r).2.1 else 0

open Classical in
/-- A neighbour after the contributions. -/
noncomputable def gN (f : ℕ → SymFnc) (m : ℕ) (X : ℕ → Contrib) (k : ℕ) (cache : List ℝ)
    (n : Neighbor) : Neighbor :=
  { n with
    cache := cache
    dGdr := n.dGdr.mapIdx fun i v =>
      v - ∑ r ∈ Finset.range m, if (f r).slotOf n.element = i then (X r).2.2 k else 0 }

/-- The atom after the contributions. -/
noncomputable def gAtom (f : ℕ → SymFnc) (m : ℕ) (a : Atom) (X : ℕ → Contrib)
    (caches : ℕ → List ℝ) : Atom :=
  { a with
    dGdr := gDGdr f m X a.dGdr
    neighbors := a.neighbors.mapIdx fun k n => gN f m X k (caches k) n }

/-- The values after the contributions. -/
def gRes (X : ℕ → Contrib) : Buf := fun l => (X l).1

theorem mapIdx_id' {α : Type} (l : List α) (g : ℕ → α → α) (h : ∀ i x, g i x = x) :
    l.mapIdx g = l := by
  refine List.ext_getElem? fun k => ?_
  rw [List.getElem?_mapIdx]
  cases l[k]? with
  | none => rfl
  | some x => simp [h]

theorem gAtom_zero (f : ℕ → SymFnc) (m : ℕ) (a : Atom) :
    gAtom f m a 0 (fun k => (a.neighbors[k]?.map (·.cache)).getD []) = a := by
  unfold gAtom gDGdr
  rw [mapIdx_id' _ _ (fun i x => by simp)]
  have : (a.neighbors.mapIdx fun k n =>
      gN f m 0 k ((a.neighbors[k]?.map (·.cache)).getD []) n) = a.neighbors := by
    refine List.ext_getElem? fun k => ?_
    rw [List.getElem?_mapIdx]
    cases h : a.neighbors[k]? with
    | none => rfl
    | some n =>
      simp only [Option.map_some, Option.getD_some, Option.some.injEq]
      unfold gN
      rw [mapIdx_id' _ _ (fun i x => by simp)]
  rw [this]

theorem gAtom_neighbor (f : ℕ → SymFnc) (m : ℕ) (a : Atom) (X : ℕ → Contrib)
    (caches : ℕ → List ℝ) (k : ℕ) {n : Neighbor} (h : a.neighbors[k]? = some n) :
    (gAtom f m a X caches).neighbors[k]? = some (gN f m X k (caches k) n) := by
  simp [gAtom, List.getElem?_mapIdx, h]

theorem gAtom_setNeighbor (f : ℕ → SymFnc) (m : ℕ) (a : Atom) (X : ℕ → Contrib)
    (caches : ℕ → List ℝ) (k : ℕ) {n : Neighbor} (h : a.neighbors[k]? = some n) (cache : List ℝ) :
    (gAtom f m a X caches).setNeighbor k (gN f m X k cache n) =
      gAtom f m a X (Function.update caches k cache) := by
  unfold gAtom Atom.setNeighbor
  congr 1
  refine List.ext_getElem? fun i => ?_
  rw [List.getElem?_set, List.getElem?_mapIdx, List.getElem?_mapIdx]
  by_cases hik : k = i
  · subst hik
    have : k < a.neighbors.length := (List.getElem?_eq_some_iff.1 h).1
    rw [if_pos rfl, if_pos (by simpa using this), h]
    simp
  · simp [hik, Function.update_of_ne (Ne.symm hik)]

theorem gAtom_congr {f : ℕ → SymFnc} {m : ℕ} {a : Atom} {X Y : ℕ → Contrib}
    {caches : ℕ → List ℝ} (h1 : ∀ r < m, (X r).2 = (Y r).2) :
    gAtom f m a X caches = gAtom f m a Y caches := by
  classical
  unfold gAtom gDGdr gN
  have e1 : (fun (i : ℕ) (v : Vec3) =>
      v + ∑ r ∈ Finset.range m, if (f r).index = i then (X r).2.1 else 0) =
      fun (i : ℕ) (v : Vec3) => v + ∑ r ∈ Finset.range m, if (f r).index = i then (Y r).2.1 else 0 := by
    funext i v
    congr 1
    refine Finset.sum_congr rfl fun r hr => ?_
    rw [h1 r (Finset.mem_range.1 hr)]
  have e2 : ∀ (e k : ℕ), (fun (i : ℕ) (v : Vec3) =>
      v - ∑ r ∈ Finset.range m, if (f r).slotOf e = i then (X r).2.2 k else 0) =
      fun (i : ℕ) (v : Vec3) =>
        v - ∑ r ∈ Finset.range m, if (f r).slotOf e = i then (Y r).2.2 k else 0 := by
    intro e k
    funext i v
    congr 1
    refine Finset.sum_congr rfl fun r hr => ?_
    rw [h1 r (Finset.mem_range.1 hr)]
  simp only [e1, e2]

theorem gAtom_addDGdr (f : ℕ → SymFnc) (m : ℕ) (a : Atom) (X : ℕ → Contrib)
    (caches : ℕ → List ℝ) {l : ℕ} (hl : l < m) (v : Vec3) (h : (f l).index < a.dGdr.length) :
    (gAtom f m a X caches).addDGdr (f l).index v =
      some (gAtom f m a (X + Pi.single l (0, v, 0)) caches) := by
  classical
  unfold gAtom Atom.addDGdr
  have h1 : (gDGdr f m X a.dGdr)[(f l).index]? = some (a.dGdr[(f l).index] +
      ∑ r ∈ Finset.range m, if (f r).index = (f l).index then (X r).2.1 else 0) := by
    simp [gDGdr, h]
  simp only [h1, Option.bind_eq_bind, Option.bind_some, Option.some.injEq]
  congr 1
  · refine List.ext_getElem? fun i => ?_
    rw [List.getElem?_set]
    have hX : ∀ r, (X + Pi.single l (((0 : ℝ), v, (0 : ℕ → Vec3)) : Contrib) : ℕ → Contrib) r =
        X r + (if r = l then (0, v, 0) else 0) := by
      intro r; simp [Pi.single_apply]
    have hsum : ∀ i, (∑ r ∈ Finset.range m, if (f r).index = i then
        ((X + Pi.single l (((0 : ℝ), v, (0 : ℕ → Vec3)) : Contrib) : ℕ → Contrib) r).2.1 else 0) =
        (∑ r ∈ Finset.range m, if (f r).index = i then (X r).2.1 else 0) +
          if (f l).index = i then v else 0 := by
      intro i
      have : (if (f l).index = i then v else 0) = ∑ r ∈ Finset.range m,
          if r = l then (if (f l).index = i then v else 0) else 0 := by
        rw [Finset.sum_ite_eq' (Finset.range m) l, if_pos (Finset.mem_range.2 hl)]
      rw [this, ← Finset.sum_add_distrib]
      refine Finset.sum_congr rfl fun r _ => ?_
      rw [hX]
      by_cases hr : r = l
      · subst hr
        by_cases hi : (f r).index = i <;> simp [hi]
      · by_cases hi : (f r).index = i <;> simp [hi, hr]
    unfold gDGdr
    rw [List.getElem?_mapIdx, List.getElem?_mapIdx]
    by_cases hi : (f l).index = i
    · subst hi
      simp only [hsum]
      simp [h, add_assoc]
    · rw [if_neg hi]
      simp only [hsum, hi, if_false, add_zero]
  · refine List.ext_getElem? fun i => ?_
    rw [List.getElem?_mapIdx, List.getElem?_mapIdx]
    cases a.neighbors[i]? with
    | none => rfl
    | some n =>
      simp only [Option.map_some, Option.some.injEq]
      unfold gN
      congr 1
      have : (fun (i' : ℕ) (w : Vec3) =>
          w - ∑ r ∈ Finset.range m, if (f r).slotOf n.element = i' then (X r).2.2 i else 0) =
          fun (i' : ℕ) (w : Vec3) =>
            w - ∑ r ∈ Finset.range m, if (f r).slotOf n.element = i' then
              ((X + Pi.single l (((0 : ℝ), v, (0 : ℕ → Vec3)) : Contrib) : ℕ → Contrib) r).2.2 i
              else 0 := by
        funext i' w
        congr 1
        refine Finset.sum_congr rfl fun r _ => ?_
        by_cases hr : r = l
        · subst hr; simp
        · simp [hr]
      rw [this]

theorem gAtom_subNeighborDGdr (f : ℕ → SymFnc) (m : ℕ) (a : Atom) (X : ℕ → Contrib)
    (caches : ℕ → List ℝ) {l : ℕ} (hl : l < m) (k : ℕ) (v : Vec3) {n : Neighbor}
    (h : a.neighbors[k]? = some n) (hs : (f l).slotOf n.element < n.dGdr.length) :
    (gAtom f m a X caches).subNeighborDGdr k ((f l).slotOf n.element) v =
      some (gAtom f m a (X + Pi.single l (0, 0, Pi.single k v)) caches) := by
  classical
  unfold Atom.subNeighborDGdr
  rw [gAtom_neighbor f m a X caches k h]
  have h1 : (gN f m X k (caches k) n).dGdr[(f l).slotOf n.element]? =
      some (n.dGdr[(f l).slotOf n.element] - ∑ r ∈ Finset.range m,
        if (f r).slotOf n.element = (f l).slotOf n.element then (X r).2.2 k else 0) := by
    simp [gN, hs]
  simp only [h1, Option.bind_eq_bind, Option.bind_some, Option.some.injEq]
  have hsum : ∀ e i q, (∑ r ∈ Finset.range m, if (f r).slotOf e = i then
      ((X + Pi.single l (((0 : ℝ), (0 : Vec3), (Pi.single k v : ℕ → Vec3)) : Contrib) :
        ℕ → Contrib) r).2.2 q else 0) =
      (∑ r ∈ Finset.range m, if (f r).slotOf e = i then (X r).2.2 q else 0) +
        if (f l).slotOf e = i ∧ q = k then v else 0 := by
    intro e i q
    have : (if (f l).slotOf e = i ∧ q = k then v else 0) = ∑ r ∈ Finset.range m,
        if r = l then (if (f l).slotOf e = i ∧ q = k then v else 0) else 0 := by
      rw [Finset.sum_ite_eq' (Finset.range m) l, if_pos (Finset.mem_range.2 hl)]
    rw [this, ← Finset.sum_add_distrib]
    refine Finset.sum_congr rfl fun r _ => ?_
    by_cases hr : r = l
    · subst hr
      by_cases hi : (f r).slotOf e = i
      · by_cases hq : q = k
        · subst hq; simp [hi]
        · simp [hi, hq]
      · simp [hi]
    · by_cases hi : (f r).slotOf e = i <;> simp [hi, hr]
  unfold gAtom Atom.setNeighbor
  congr 1
  · dsimp only
    unfold gDGdr
    congr 1
    funext i w
    congr 1
    refine Finset.sum_congr rfl fun r _ => ?_
    by_cases hr : r = l
    · subst hr; simp
    · simp [hr]
  · refine List.ext_getElem? fun i => ?_
    rw [List.getElem?_set, List.getElem?_mapIdx, List.getElem?_mapIdx]
    by_cases hik : k = i
    · subst hik
      have hk : k < a.neighbors.length := (List.getElem?_eq_some_iff.1 h).1
      simp only [if_true, List.length_mapIdx, hk, h, Option.map_some, Option.some.injEq]
      unfold gN
      congr 1
      refine List.ext_getElem? fun q => ?_
      rw [List.getElem?_set, List.getElem?_mapIdx, List.getElem?_mapIdx]
      by_cases hm : (f l).slotOf n.element = q
      · subst hm
        simp only [List.length_mapIdx, hs, if_true, List.getElem?_eq_getElem, Option.map_some,
          hsum, and_self, sub_sub]
      · rw [if_neg hm]
        simp only [hsum, hm, false_and, if_false, add_zero]
    · rw [if_neg hik]
      cases a.neighbors[i]? with
      | none => rfl
      | some n' =>
        simp only [Option.map_some, Option.some.injEq]
        unfold gN
        have hki : ¬ i = k := fun e => hik e.symm
        simp only [hsum, hki, and_false, if_false, add_zero]

theorem gRes_set (X : ℕ → Contrib) (l : ℕ) (v : ℝ) (w : Vec3 × (ℕ → Vec3)) :
    (gRes X).set l (gRes X l + v) = gRes (X + Pi.single l (v, w)) := by
  funext i
  rw [Buf.set_apply]
  unfold gRes
  by_cases hi : i = l
  · subst hi; simp
  · rw [if_neg hi]
    simp [hi]

theorem gAtom_value (f : ℕ → SymFnc) (m : ℕ) (a : Atom) (X : ℕ → Contrib)
    (caches : ℕ → List ℝ) (l : ℕ) (v : ℝ) :
    gAtom f m a (X + Pi.single l (v, 0)) caches = gAtom f m a X caches := by
  refine gAtom_congr fun r _ => ?_
  by_cases hr : r = l
  · subst hr; simp
  · simp [hr]

/-! ### Families -/

/-- The contributions `c 0`, ..., `c (m - 1)`. -/
noncomputable def mask (m : ℕ) (c : ℕ → Contrib) : ℕ → Contrib := fun l => if l < m then c l else 0

theorem mask_zero (c : ℕ → Contrib) : mask 0 c = 0 := by
  funext l; simp [mask]

theorem mask_succ (m : ℕ) (c : ℕ → Contrib) : mask (m + 1) c = mask m c + Pi.single m (c m) := by
  funext l
  unfold mask
  rw [Pi.add_apply]
  by_cases h : l = m
  · subst h; simp
  · rw [Pi.single_eq_of_ne h, add_zero]
    by_cases h' : l < m
    · rw [if_pos h', if_pos (by omega)]
    · rw [if_neg h', if_neg (by omega)]

/-- Saving the derivatives of a radial member. -/
theorem saveRadial_gAtom {f : ℕ → SymFnc} {m : ℕ} {a : Atom} (X : ℕ → Contrib)
    (caches : ℕ → List ℝ) {l : ℕ} (hl : l < m) {j : ℕ} {n n' : Neighbor}
    (hn : a.neighbors[j]? = some n) (hA : (f l).Allocated a true) (hd : n.d < (f l).rc)
    (hr : (f l).checkRelevantElement n.element) (he : n'.element = n.element)
    (hdr : n'.dr = n.dr) (M : GrpMember) (hM : M.sf = f l) (p v : ℝ) :
    SymGrp.saveRadial M j n' p (gAtom f m a X caches) =
      some (gAtom f m a (X + Pi.single l (v, p • n.dr, Pi.single j (p • n.dr))) caches) := by
  unfold SymGrp.saveRadial
  rw [hM, hdr, he, gAtom_addDGdr f m a X caches hl _ (hA.dGdr rfl)]
  simp only [Option.bind_eq_bind, Option.bind_some]
  obtain ⟨i, hi, hil⟩ := hA.slot rfl n (List.mem_of_getElem? hn) hd hr
  have hslot : (f l).slotOf n.element = i := by
    simp [SymFnc.slotOf, List.getD_eq_getElem?_getD, hi]
  rw [hi]
  simp only [Option.bind_some]
  rw [← hslot, gAtom_subNeighborDGdr f m a _ caches hl j _ hn (by rw [hslot]; exact hil)]
  refine congrArg some (gAtom_congr fun r _ => ?_)
  by_cases hr : r = l
  · subst hr; simp [add_assoc]
  · simp [hr]

/-- Saving the derivatives of an angular member. -/
theorem savePair_gAtom {f : ℕ → SymFnc} {m : ℕ} {a : Atom} (X : ℕ → Contrib)
    (caches : ℕ → List ℝ) {l : ℕ} (hl : l < m) {j k : ℕ} {nj nk nj' nk' : Neighbor}
    (hnj : a.neighbors[j]? = some nj) (hnk : a.neighbors[k]? = some nk)
    (hA : (f l).Allocated a true)
    (hdj : nj.d < (f l).rc) (hrj : (f l).checkRelevantElement nj.element)
    (hdk : nk.d < (f l).rc) (hrk : (f l).checkRelevantElement nk.element)
    (hej : nj'.element = nj.element) (hdrj : nj'.dr = nj.dr)
    (hek : nk'.element = nk.element) (hdrk : nk'.dr = nk.dr) (M : GrpMember) (hM : M.sf = f l)
    (p1 p2 p3 v : ℝ) :
    SymGrp.savePair M j k nj' nk' p1 p2 p3 (gAtom f m a X caches) =
      some (gAtom f m a (X + Pi.single l (v, p1 • nj.dr + p2 • nk.dr,
        Pi.single j (p1 • nj.dr + p3 • (nk.dr - nj.dr))
          + Pi.single k (p2 • nk.dr - p3 • (nk.dr - nj.dr)))) caches) := by
  unfold SymGrp.savePair
  rw [hM, hdrj, hej, hdrk, hek, gAtom_addDGdr f m a X caches hl _ (hA.dGdr rfl)]
  simp only [Option.bind_eq_bind, Option.bind_some]
  obtain ⟨i, hi, hil⟩ := hA.slot rfl nj (List.mem_of_getElem? hnj) hdj hrj
  obtain ⟨i', hi', hil'⟩ := hA.slot rfl nk (List.mem_of_getElem? hnk) hdk hrk
  have hslot : (f l).slotOf nj.element = i := by
    simp [SymFnc.slotOf, List.getD_eq_getElem?_getD, hi]
  have hslot' : (f l).slotOf nk.element = i' := by
    simp [SymFnc.slotOf, List.getD_eq_getElem?_getD, hi']
  rw [hi, hi']
  simp only [Option.bind_some]
  rw [← hslot, gAtom_subNeighborDGdr f m a _ caches hl j _ hnj (by rw [hslot]; exact hil)]
  simp only [Option.bind_some]
  rw [← hslot', gAtom_subNeighborDGdr f m a _ caches hl k _ hnk (by rw [hslot']; exact hil')]
  refine congrArg some (gAtom_congr fun r _ => ?_)
  by_cases hr : r = l
  · subst hr; simp [add_assoc]
  · simp [hr]

/-! ### Caches -/

theorem cached_gN {S : SymFnc} {L : CacheLayout} (hL : L.Disjoint) (hS : S.Slots L)
    {R : ℝ} {a : Atom} {caches : ℕ → List ℝ} (h : CachesOK L R a caches) {k : ℕ}
    {n : Neighbor} (hk : a.neighbors[k]? = some n) (hR : n.d < R)
    (hrel : S.checkRelevantElement n.element) {ci check : List ℕ}
    (hci : S.cacheIndices[n.element]? = some ci) (hcheck : check = [] ↔ ci = [])
    (f : ℕ → SymFnc) (m : ℕ) (X : ℕ → Contrib) :
    ∃ cache, cachedFdf S.cachedFunction check ci (gN f m X k (caches k) n) =
        some (S.cachedFunction n.d, gN f m X k cache n) ∧
      CachesOK L R a (Function.update caches k cache) := by
  have hn : (gN f m X k (caches k) n).CacheOK L := h k n hk hR
  have hupd : ∀ cache, ({ n with cache := cache } : Neighbor).CacheOK L →
      CachesOK L R a (Function.update caches k cache) := by
    intro cache hc i m hm hd
    by_cases hik : i = k
    · subst hik
      rw [hk] at hm
      cases hm
      simpa using hc
    · rw [Function.update_of_ne hik]
      exact h i m hm hd
  rcases hS n.element ci hrel hci with rfl | ⟨c, hc, rfl, hf⟩
  · rw [hcheck.2 rfl, cachedFdf_nil]
    exact ⟨caches k, rfl, hupd _ hn⟩
  · have hne : check ≠ [] := fun e => by simpa using hcheck.1 e
    obtain ⟨cache, e, hok⟩ := cachedFdf_slot hL hn (c := c) hc check hne
    rw [hf] at e
    exact ⟨cache, e, hupd cache hok⟩

/-! ### The result of all functions -/

theorem gAtom_succ (f : ℕ → SymFnc) (m : ℕ) (a : Atom) (X : ℕ → Contrib) (caches : ℕ → List ℝ) :
    gAtom f (m + 1) a X caches = ((f m).conc (gAtom f m a X caches) (X m) caches).2 := by
  classical
  unfold gAtom SymFnc.conc
  dsimp only
  congr 1
  · refine List.ext_getElem? fun i => ?_
    rw [List.getElem?_modify]
    unfold gDGdr
    rw [List.getElem?_mapIdx, List.getElem?_mapIdx]
    cases a.dGdr[i]? with
    | none => rfl
    | some v =>
      simp only [Option.map_some, Finset.sum_range_succ]
      by_cases hi : (f m).index = i
      · simp [hi, add_assoc]
      · simp [hi]
  · refine List.ext_getElem? fun k => ?_
    rw [List.getElem?_mapIdx, List.getElem?_mapIdx, List.getElem?_mapIdx]
    cases a.neighbors[k]? with
    | none => rfl
    | some n =>
      simp only [Option.map_some, Option.some.injEq]
      unfold gN SymFnc.concN
      dsimp only
      congr 1
      refine List.ext_getElem? fun i => ?_
      rw [List.getElem?_modify, List.getElem?_mapIdx, List.getElem?_mapIdx]
      cases n.dGdr[i]? with
      | none => rfl
      | some v =>
        simp only [Option.map_some, Finset.sum_range_succ]
        by_cases hi : (f m).slotOf n.element = i
        · simp [hi, sub_sub]
        · simp [hi]

theorem gAtom_bare (f : ℕ → SymFnc) (m : ℕ) (a : Atom) (X : ℕ → Contrib) (caches : ℕ → List ℝ) :
    (gAtom f m a X caches).bareNeighbors = a.bareNeighbors := by
  refine List.ext_getElem? fun k => ?_
  rw [Atom.bareNeighbors_getElem?, Atom.bareNeighbors_getElem?]
  simp only [gAtom, List.getElem?_mapIdx]
  cases a.neighbors[k]? <;> rfl

theorem gAtom_forget (f : ℕ → SymFnc) (m : ℕ) (a : Atom) (X : ℕ → Contrib) (caches : ℕ → List ℝ) :
    (gAtom f m a X caches).forgetCaches = gAtom f m a.forgetCaches X (fun _ => []) := by
  have : (gAtom f m a X caches).forgetCaches.neighbors =
      (gAtom f m a.forgetCaches X (fun _ => [])).neighbors := by
    refine List.ext_getElem? fun i => ?_
    rw [Atom.forget_getElem?]
    simp only [gAtom, List.getElem?_mapIdx, Atom.forget_getElem?]
    cases a.neighbors[i]? <;> rfl
  unfold Atom.forgetCaches at this ⊢
  simp only [gAtom] at this ⊢
  rw [this]

/-- The values of the functions, stored one after the other. -/
noncomputable def gG (f : ℕ → SymFnc) (env : List Site) (m : ℕ) (G : List ℝ) : List ℝ :=
  (List.range m).foldl (fun G l => G.set (f l).index ((f l).sc.scale ((f l).formula env))) G

theorem gG_succ (f : ℕ → SymFnc) (env : List Site) (m : ℕ) (G : List ℝ) :
    gG f env (m + 1) G =
      (gG f env m G).set (f m).index ((f m).sc.scale ((f m).formula env)) := by
  unfold gG
  rw [List.range_succ, List.foldl_append]
  rfl

theorem gG_length (f : ℕ → SymFnc) (env : List Site) (m : ℕ) (G : List ℝ) :
    (gG f env m G).length = G.length := by
  induction m with
  | zero => rfl
  | succ m ih => rw [gG_succ, List.length_set, ih]

/-- Contributions of all functions at once, or one after the other. -/
theorem pureAll_eq_gAtom {f : ℕ → SymFnc} {d : Bool} {b : Atom} (hb : b.forgetCaches = b) :
    ∀ m : ℕ, (∀ l < m, (f l).Valid) → pureAll d b ((List.range m).map f) =
      { gAtom f m b (fun l => (f l).total d b) (fun _ => []) with G := gG f b.env m b.G } := by
  intro m
  induction m with
  | zero =>
    intro _
    show b = _
    have h0 : gAtom f 0 b (fun l => (f l).total d b) (fun _ => []) =
        gAtom f 0 b 0 (fun k => (b.neighbors[k]?.map (·.cache)).getD []) := by
      have hc : ∀ k : ℕ, (b.neighbors[k]?.map (fun n : Neighbor => n.cache)).getD [] = [] := by
        intro k
        rw [← hb, Atom.forget_getElem?]
        cases b.neighbors[k]? <;> rfl
      simp only [hc]
      exact gAtom_congr fun r hr => absurd hr (Nat.not_lt_zero r)
    rw [h0, gAtom_zero]
    rfl
  | succ m ih =>
    intro hV
    have ih' := ih fun l hl => hV l (by omega)
    rw [List.range_succ, List.map_append, List.map_cons, List.map_nil, pureAll_append]
    unfold SymFnc.pure
    rw [Atom.env_congr (pureAll_bare d b _),
      SymFnc.total_congr (hV m (by omega)) d (pureAll_bare d b _), ih', gAtom_succ, gG_succ]
    rfl

end N2P2
