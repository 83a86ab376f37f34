import Verif.Lemma.SymGrpCompAng

/-! A group evaluates its members like one after the other. -/

namespace N2P2

/-- The last loop. -/
theorem SymGrp.assign_eq {g : SymGrp} {f : ℕ → SymFnc} (hF : g.Formed f) {env : List Site}
    {norm : GrpMember → Option ℝ} {res : Buf} {b : Atom}
    (hi : ∀ l < g.rows.length, (f l).index < b.G.length)
    (hn : ∀ l M, g.rows[l]? = some M → ∃ c, norm M = some c ∧ res l * c = (f l).formula env) :
    g.assign norm res b = some { b with G := gG f env g.rows.length b.G } := by
  unfold SymGrp.assign
  obtain ⟨s, e, h⟩ := foldlM_range_inv (fun (a : Atom) (l : ℕ) => do
      let m ← g.rows[l]?
      let c ← norm m
      a.setG m.sf.index (m.sf.sc.scale (res l * c)))
    (fun l s => s = { b with G := gG f env l b.G }) g.rows.length b
    (by
      rintro l hl s rfl
      obtain ⟨M, hM, hMf, -⟩ := hF.get hl
      obtain ⟨c, hc, hv⟩ := hn l M hM
      refine ⟨_, ?_, rfl⟩
      rw [hM]
      simp only [Option.bind_eq_bind, Option.bind_some]
      rw [hc]
      simp only [Option.bind_some]
      rw [hMf, hv]
      unfold Atom.setG
      have hlen : (f l).index < (gG f env l b.G).length := by rw [gG_length]; exact hi l hl
      simp only [List.getElem?_eq_getElem hlen, Option.bind_eq_bind, Option.bind_some]
      rw [gG_succ])
    rfl
  rw [e, h]

theorem SymFnc.pairTotal_one (S : SymFnc) (K : SymFnc.PairKernel)
    (T : Neighbor → Neighbor → Option SymFnc.PairTerm) (d : Bool) (a : Atom) (b : ℕ) :
    S.pairTotal K T d a (if b = 0 then 1 else b) = S.pairTotal K T d a b := by
  by_cases h : b = 0
  · subst h; rfl
  · rw [if_neg h]

theorem mask_sum (m b : ℕ) (c : ℕ → ℕ → Contrib) {l : ℕ} (hl : l < m) :
    (∑ j ∈ Finset.range b, mask m (c j)) l = ∑ j ∈ Finset.range b, c j l := by
  rw [Finset.sum_apply]
  refine Finset.sum_congr rfl fun j _ => ?_
  unfold mask
  rw [if_pos hl]

/-- The state at the end of a group, given the contributions. -/
noncomputable def SymGrp.done (g : SymGrp) (f : ℕ → SymFnc) (d : Bool) (a : Atom)
    (caches : ℕ → List ℝ) : Atom :=
  { gAtom f g.rows.length a (fun l => (f l).total d a) caches with
    G := gG f a.env g.rows.length a.G }

theorem SymGrp.finish_eq {g : SymGrp} {f : ℕ → SymFnc} {a : Atom} {d : Bool} {L : CacheLayout}
    {R : ℝ} (hF : g.Formed f) (hr : ∀ l < g.rows.length, (f l).GroupReady a d L R)
    {X : ℕ → Contrib} {s : Buf × Atom} (hs : GState f g.rows.length a L R X s)
    (hX : ∀ l < g.rows.length, X l = (f l).total d a) {norm : GrpMember → Option ℝ}
    (hn : ∀ l M, g.rows[l]? = some M → ∃ c, norm M = some c ∧
      ((f l).total d a).1 * c = (f l).formula a.env) :
    ∃ caches, CachesOK L R a caches ∧ g.assign norm s.1 s.2 = some (g.done f d a caches) := by
  obtain ⟨caches, hc, rfl⟩ := hs
  refine ⟨caches, hc, ?_⟩
  dsimp only
  rw [SymGrp.assign_eq (env := a.env) (b := gAtom f g.rows.length a X caches) hF
    (fun l hl => (hr l hl).allocated.G)]
  · unfold SymGrp.done
    rw [gAtom_congr fun r hr => by rw [hX r hr]]
    rfl
  · intro l M hM
    obtain ⟨c, hc, hv⟩ := hn l M hM
    refine ⟨c, hc, ?_⟩
    unfold gRes
    rw [hX l (List.getElem?_eq_some_iff.1 hM).1, hv]

/-- The bound of the group is a bound for the members. -/
theorem SymGrp.Formed.bound {g : SymGrp} {f : ℕ → SymFnc} (hF : g.Formed f) {l : ℕ}
    (hl : l < g.rows.length) (a : Atom) :
    g.bound a = a.numNeighbors ∨ g.bound a = a.getStoredMinNumNeighbors (f l).rc := by
  have hkl := hF.kind l hl
  unfold SymGrp.bound
  cases hk : g.kind with
  | ExpRad | ExpAngn =>
    right
    rw [hk] at hkl
    rw [(hF.cutoff l hl (by simp [SymFnc.IsExp, hkl])).1]
  | _ => left; rfl

theorem SymGrp.Formed.bound_le {g : SymGrp} {f : ℕ → SymFnc} {a : Atom} {d : Bool} {L : CacheLayout}
    {R : ℝ} (hF : g.Formed f) (hr : ∀ l < g.rows.length, (f l).GroupReady a d L R) :
    g.bound a ≤ a.neighbors.length :=
  ((f 0).bound_ok (hr 0 hF.pos).list (hF.bound hF.pos a)).1

theorem SymGrp.Formed.ang {g : SymGrp} {f : ℕ → SymFnc} (hF : g.Formed f) {l : ℕ}
    (hl : l < g.rows.length) :
    (g.kind = .ExpRad ∨ g.kind = .ExpRadWeighted ∨ g.kind = .CompRad ∨ g.kind = .CompRadWeighted) ↔
      ¬ (f l).IsAng := by
  have hkl := hF.kind l hl
  unfold SymFnc.IsAng
  rw [hkl]
  cases g.kind <;> simp

theorem SymGrp.radial_eq {g : SymGrp} {f : ℕ → SymFnc} {a : Atom} {d : Bool} {L : CacheLayout}
    {R : ℝ} (hF : g.Formed f) (hr : ∀ l < g.rows.length, (f l).GroupReady a d L R)
    (hk : g.kind = .ExpRad ∨ g.kind = .ExpRadWeighted ∨ g.kind = .CompRad ∨
      g.kind = .CompRadWeighted) {step : Buf × Atom → ℕ → Option (Buf × Atom)}
    (h : ∀ j < a.neighbors.length, ∀ X s, GState f g.rows.length a L R X s →
      ∃ s', step s j = some s' ∧ GState f g.rows.length a L R
        (X + mask g.rows.length fun l => (f l).rkernel.contrib d a j) s') :
    ∃ caches, CachesOK L R a caches ∧ ((List.range (g.bound a)).foldlM step (fun _ => 0, a)).bind
      (fun s => g.assign (fun _ => some 1) s.1 s.2) = some (g.done f d a caches) := by
  obtain ⟨s, e, hs⟩ := GState.loop step
    (fun j => mask g.rows.length fun l => (f l).rkernel.contrib d a j)
    (fun j hj X s hs => h j (hj.trans_le (hF.bound_le hr)) X s hs) 0 _
    (GState.init (hr 0 hF.pos).cache)
  rw [e, Option.bind_some]
  refine SymGrp.finish_eq hF hr hs (fun l hl => ?_) (fun l M hM => ⟨1, rfl, ?_⟩)
  · rw [zero_add, mask_sum _ _ _ hl]
    exact SymFnc.total_of_bound_rad d (hr l hl).list ((hF.ang hl).1 hk) (hF.bound hl a)
  · have hl := (List.getElem?_eq_some_iff.1 hM).1
    rw [mul_one]
    exact SymFnc.total_value_rad d (hr l hl).valid (hr l hl).list ((hF.ang hl).1 hk)

theorem gOuter_total {g : SymGrp} {f : ℕ → SymFnc} {a : Atom} {d : Bool} {L : CacheLayout}
    {R : ℝ} (hF : g.Formed f) (hr : ∀ l < g.rows.length, (f l).GroupReady a d L R) {l : ℕ}
    (hl : l < g.rows.length) (ha : (f l).IsAng) :
    ((0 : ℕ → Contrib) + ∑ j ∈ Finset.range ((if g.bound a = 0 then 1 else g.bound a) - 1),
      gOuter f g.rows.length d a (if g.bound a = 0 then 1 else g.bound a) j) l =
      (f l).total d a := by
  rw [zero_add]
  unfold gOuter
  rw [mask_sum _ _ _ hl, ← list_sum_range]
  show (f l).pairTotal (f l).pkernel (f l).terms d a _ = _
  rw [SymFnc.pairTotal_one, pairTotal_eq]
  exact SymFnc.total_of_bound_ang d (hr l hl).list ha (hF.bound hl a)

theorem SymFnc.pnorm_exp {S : SymFnc} (he : S.IsExp) (ha : S.IsAng) :
    S.pkernel.pnorm = 2 ^ (1 - S.zeta) := by
  unfold SymFnc.IsExp at he
  unfold SymFnc.IsAng at ha
  unfold SymFnc.pkernel
  cases hk : S.kind <;> simp [hk] at he ha ⊢ <;> rfl

theorem SymFnc.pnorm_comp {S : SymFnc} (he : ¬ S.IsExp) (ha : S.IsAng) : S.pkernel.pnorm = 1 := by
  unfold SymFnc.IsExp at he
  unfold SymFnc.IsAng at ha
  unfold SymFnc.pkernel
  cases hk : S.kind <;> simp [hk] at he ha ⊢ <;> rfl

theorem SymGrp.expAngCalculate_eq {g : SymGrp} {f : ℕ → SymFnc} {a : Atom} {d : Bool}
    {L : CacheLayout} {R : ℝ} (hk : g.IsExpAng) (hF : g.Formed f)
    (hr : ∀ l < g.rows.length, (f l).GroupReady a d L R)
    (hG : ∀ l < g.rows.length, (f l).Groupable d) :
    ∃ caches, CachesOK L R a caches ∧ g.expAngCalculate a d = some (g.done f d a caches) := by
  have hb := hF.bound_le hr
  unfold SymGrp.expAngCalculate
  dsimp only
  obtain ⟨s, e, hs⟩ := GState.loop
    (g.expAngOuterStep d (if g.bound a = 0 then 1 else g.bound a))
    (fun j => gOuter f g.rows.length d a (if g.bound a = 0 then 1 else g.bound a) j)
    (b := (if g.bound a = 0 then 1 else g.bound a) - 1)
    (fun j hj X s hs => by
      by_cases h0 : g.bound a = 0
      · rw [if_pos h0] at hj; omega
      · rw [if_neg h0] at hj ⊢
        exact SymGrp.expAngOuterStep_eq hk hF hr hG hb (by omega) X s hs) 0 _
    (GState.init (hr 0 hF.pos).cache)
  rw [e, Option.bind_eq_bind, Option.bind_some]
  refine SymGrp.finish_eq hF hr hs (fun l hl => ?_) (fun l M hM => ?_)
  · exact gOuter_total hF hr hl (hF.eang hl hk).2.1
  · have hl := (List.getElem?_eq_some_iff.1 hM).1
    obtain ⟨hexp, hang, -⟩ := hF.eang hl hk
    have hsf := (hG l hl).scaling hexp hang
    have hMs := (hF.row l M hM).2
    refine ⟨2 ^ (1 - (f l).zeta), ?_, ?_⟩
    · unfold fdiv
      rw [hMs, if_neg hsf, (hF.norm l M hM hexp hang).1, mul_div_cancel_right₀ _ hsf]
    · rw [← SymFnc.pnorm_exp hexp hang]
      exact SymFnc.total_value_ang d (hr l hl).valid (hr l hl).list (hr l hl).triplets hang

theorem SymGrp.compAngCalculate_eq {g : SymGrp} {f : ℕ → SymFnc} {a : Atom} {d : Bool}
    {L : CacheLayout} {R : ℝ} (hk : g.IsCompAng) (hF : g.Formed f)
    (hr : ∀ l < g.rows.length, (f l).GroupReady a d L R) :
    ∃ caches, CachesOK L R a caches ∧ g.compAngCalculate a d = some (g.done f d a caches) := by
  have hb := hF.bound_le hr
  unfold SymGrp.compAngCalculate
  dsimp only
  obtain ⟨s, e, hs⟩ := foldlM_range_inv
    (g.compAngOuterStep d (if g.bound a = 0 then 1 else g.bound a))
    (fun i s => GState f g.rows.length a L R (0 + ∑ j ∈ Finset.range i,
      gOuter f g.rows.length d a (if g.bound a = 0 then 1 else g.bound a) j) s.2)
    ((if g.bound a = 0 then 1 else g.bound a) - 1) (fun _ => (0, 0), fun _ => 0, a)
    (fun j hj s hs => by
      by_cases h0 : g.bound a = 0
      · rw [if_pos h0] at hj; omega
      · rw [if_neg h0] at hj hs ⊢
        obtain ⟨s', e, hs'⟩ := SymGrp.compAngOuterStep_eq (j := j) hk hF hr hb (by omega) _ s hs
        refine ⟨s', e, ?_⟩
        rw [Finset.sum_range_succ, ← add_assoc]
        exact hs')
    (by
      simp only [Finset.range_zero, Finset.sum_empty, add_zero]
      exact GState.init (hr 0 hF.pos).cache)
  rw [e, Option.bind_eq_bind, Option.bind_some]
  refine SymGrp.finish_eq hF hr hs (fun l hl => ?_) (fun l M hM => ⟨1, rfl, ?_⟩)
  · exact gOuter_total hF hr hl (hF.cang hl hk).2.1
  · have hl := (List.getElem?_eq_some_iff.1 hM).1
    obtain ⟨hexp, hang, -⟩ := hF.cang hl hk
    rw [← SymFnc.pnorm_comp hexp hang]
    exact SymFnc.total_value_ang d (hr l hl).valid (hr l hl).list (hr l hl).triplets hang

theorem SymGrp.calculate_eq {g : SymGrp} {f : ℕ → SymFnc} {a : Atom} {d : Bool}
    {L : CacheLayout} {R : ℝ} (hF : g.Formed f)
    (hr : ∀ l < g.rows.length, (f l).GroupReady a d L R)
    (hG : ∀ l < g.rows.length, (f l).Groupable d) :
    ∃ caches, CachesOK L R a caches ∧ g.calculate a d = some (g.done f d a caches) := by
  obtain ⟨M, hM, hMf, -⟩ := hF.get hF.pos
  unfold SymGrp.calculate
  cases hk : g.kind with
  | ExpRad =>
    have hc : g.cacheAtE1 = some () := by
      have h0 := hr 0 hF.pos
      have he := hF.elements 0 hF.pos
      have hk0 := hF.kind 0 hF.pos
      rw [hk] at he hk0
      dsimp only at he
      unfold SymGrp.cacheAtE1 SymGrp.firstCache
      rw [hM]
      simp only [Option.bind_eq_bind, Option.bind_some]
      rw [hMf, ← he]
      have hci : (f 0).cacheIndices[(f 0).e1]? =
        some ((f 0).cacheIndices[(f 0).e1]'h0.allocated.cache.1) := List.getElem?_eq_getElem _
      generalize (f 0).cacheIndices[(f 0).e1]'h0.allocated.cache.1 = ci at hci
      rw [hci]
      simp only [Option.bind_some]
      rcases h0.slots (f 0).e1 ci (by unfold SymFnc.checkRelevantElement; simp [hk0]) hci with
        rfl | ⟨c, -, rfl, -⟩ <;> rfl
    simp only [hc, Option.bind_eq_bind, Option.bind_some]
    exact SymGrp.radial_eq hF hr (Or.inl hk) fun j hj X s hs =>
      SymGrp.expRadStep_eq (Or.inl hk) hF hr hj X s hs
  | ExpRadWeighted =>
    simp only [hM, Option.bind_eq_bind, Option.bind_some]
    exact SymGrp.radial_eq hF hr (Or.inr (Or.inl hk)) fun j hj X s hs =>
      SymGrp.expRadStep_eq (Or.inr hk) hF hr hj X s hs
  | CompRad =>
    exact SymGrp.radial_eq hF hr (Or.inr (Or.inr (Or.inl hk))) fun j hj X s hs =>
      SymGrp.compRadStep_eq (Or.inl hk) hF hr hj X s hs
  | CompRadWeighted =>
    exact SymGrp.radial_eq hF hr (Or.inr (Or.inr (Or.inr hk))) fun j hj X s hs =>
      SymGrp.compRadStep_eq (Or.inr hk) hF hr hj X s hs
  | ExpAngn | ExpAngw | ExpAngnWeighted =>
    simp only [hM, Option.bind_eq_bind, Option.bind_some]
    exact SymGrp.expAngCalculate_eq (by simp [SymGrp.IsExpAng, hk]) hF hr hG
  | CompAngn | CompAngw | CompAngnWeighted | CompAngwWeighted =>
    exact SymGrp.compAngCalculate_eq (by simp [SymGrp.IsCompAng, hk]) hF hr

/-! ### The state left by a group -/

theorem SymGrp.done_mem {g : SymGrp} {f : ℕ → SymFnc} {d : Bool} {a : Atom} {caches : ℕ → List ℝ}
    {n' : Neighbor} (h : n' ∈ (g.done f d a caches).neighbors) :
    ∃ k n, a.neighbors[k]? = some n ∧
      n' = gN f g.rows.length (fun l => (f l).total d a) k (caches k) n := by
  obtain ⟨k, hk⟩ := List.mem_iff_getElem?.1 h
  simp only [SymGrp.done, gAtom, List.getElem?_mapIdx] at hk
  cases hn : a.neighbors[k]? with
  | none => rw [hn] at hk; cases hk
  | some n => rw [hn] at hk; exact ⟨k, n, hn, (Option.some.inj hk).symm⟩

theorem SymFnc.GroupReady.done {g : SymGrp} {f : ℕ → SymFnc} {T : SymFnc} {a : Atom} {d : Bool}
    {L : CacheLayout} {R : ℝ} (hT : T.GroupReady a d L R) {caches : ℕ → List ℝ}
    (hc : CachesOK L R a caches) : T.GroupReady (g.done f d a caches) d L R := by
  have hstored : (g.done f d a caches).getStoredMinNumNeighbors T.rc =
      a.getStoredMinNumNeighbors T.rc := rfl
  have hlen : (g.done f d a caches).neighbors.length = a.neighbors.length := by
    simp [SymGrp.done, gAtom]
  refine ⟨hT.valid, ⟨?_, ?_, ?_, ?_, ?_⟩, ⟨?_, ?_, ⟨hT.allocated.cache.1, ?_⟩, ?_⟩, ?_,
    hT.disjoint, hT.slots, hT.uniform, hT.le, ?_⟩
  · intro n' hn'
    obtain ⟨k, n, hn, rfl⟩ := SymGrp.done_mem hn'
    exact hT.list.d n (List.mem_of_getElem? hn)
  · intro n' hn'
    obtain ⟨k, n, hn, rfl⟩ := SymGrp.done_mem hn'
    exact hT.list.pos n (List.mem_of_getElem? hn)
  · rw [hlen]; exact hT.list.num
  · rw [hlen, hstored]; exact hT.list.stored_le
  · rw [hstored]
    intro n' hn'
    obtain ⟨k, hk⟩ := List.mem_iff_getElem?.1 hn'
    rw [List.getElem?_drop] at hk
    simp only [SymGrp.done, gAtom, List.getElem?_mapIdx] at hk
    cases hn : a.neighbors[a.getStoredMinNumNeighbors T.rc + k]? with
    | none => rw [hn] at hk; cases hk
    | some n =>
      rw [hn] at hk
      rw [← Option.some.inj hk]
      refine hT.list.stored n (List.mem_of_getElem? (i := k) ?_)
      rw [List.getElem?_drop, hn]
  · show T.index < (gG _ _ _ _).length
    rw [gG_length]; exact hT.allocated.G
  · intro hd
    simpa [SymGrp.done, gAtom, gDGdr] using hT.allocated.dGdr hd
  · intro n' hn'
    obtain ⟨k, n, hn, rfl⟩ := SymGrp.done_mem hn'
    exact hT.allocated.cache.2 n (List.mem_of_getElem? hn)
  · intro hd n' hn' hlt hrel
    obtain ⟨k, n, hn, rfl⟩ := SymGrp.done_mem hn'
    obtain ⟨i, h1, h2⟩ := hT.allocated.slot hd n (List.mem_of_getElem? hn) hlt hrel
    exact ⟨i, h1, by simpa [gN] using h2⟩
  · have : (g.done f d a caches).env = a.env :=
      Atom.env_congr (gAtom_bare f g.rows.length a (fun l => (f l).total d a) caches)
    rw [this]
    exact hT.triplets
  · intro n' hn' hlt
    obtain ⟨k, n, hn, rfl⟩ := SymGrp.done_mem hn'
    exact (hc k n hn hlt).dGdr _

theorem SymGrp.done_forget {g : SymGrp} {f : ℕ → SymFnc} {d : Bool} {a : Atom}
    {caches : ℕ → List ℝ} (hV : ∀ l < g.rows.length, (f l).Valid) :
    (g.done f d a caches).forgetCaches =
      pureAll d a.forgetCaches ((List.range g.rows.length).map f) := by
  have hb : a.forgetCaches.forgetCaches = a.forgetCaches := by
    simp [Atom.forgetCaches]
  rw [pureAll_eq_gAtom hb _ hV]
  have h1 := gAtom_forget f g.rows.length a (fun l => (f l).total d a) caches
  have h2 : gAtom f g.rows.length a.forgetCaches (fun l => (f l).total d a) (fun _ => []) =
      gAtom f g.rows.length a.forgetCaches (fun l => (f l).total d a.forgetCaches)
        (fun _ => []) :=
    gAtom_congr fun r hr => by rw [SymFnc.total_forget (hV r hr)]
  rw [h2] at h1
  rw [← h1, Atom.forget_env]
  rfl

/-- A group evaluates its members like one after the other, apart from the caches. -/
theorem SymGrp.Formed.calculate {g : SymGrp} {f : ℕ → SymFnc} {a : Atom} {d : Bool}
    {L : CacheLayout} {R : ℝ} (hF : g.Formed f)
    (hr : ∀ l < g.rows.length, (f l).GroupReady a d L R)
    (hG : ∀ l < g.rows.length, (f l).Groupable d) :
    ∃ a', g.calculate a d = some a' ∧
      a'.forgetCaches = pureAll d a.forgetCaches ((List.range g.rows.length).map f) ∧
      ∀ T : SymFnc, T.GroupReady a d L R → T.GroupReady a' d L R := by
  obtain ⟨caches, hc, e⟩ := SymGrp.calculate_eq hF hr hG
  exact ⟨_, e, SymGrp.done_forget fun l hl => (hr l hl).valid, fun T hT => hT.done hc⟩

end N2P2
