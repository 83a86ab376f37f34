import Verif.Lemma.SymFncInvariance

/-! The state after `calculate`, apart from the caches. -/

namespace N2P2

theorem Atom.forget_env (a : Atom) : a.forgetCaches.env = a.env := by
  simp [Atom.env, Atom.forgetCaches]

/-- A neighbour without its cache. -/
def Neighbor.forget (n : Neighbor) : Neighbor := { n with cache := [] }

theorem Atom.forget_getElem? (a : Atom) (k : ℕ) :
    a.forgetCaches.neighbors[k]? = (a.neighbors[k]?).map Neighbor.forget := by
  simp only [Atom.forgetCaches, List.getElem?_map]
  rfl

theorem Atom.forget_length (a : Atom) :
    a.forgetCaches.neighbors.length = a.neighbors.length := by
  simp [Atom.forgetCaches]

theorem SymFnc.terms_forget {S : SymFnc} (hV : S.Valid) (ha : S.IsAng) (n n' : Neighbor) :
    S.terms n.forget n'.forget = S.terms n n' := by
  have := (S.pkernel_local hV ha).body n [] n.dGdr n' [] n'.dGdr
  unfold SymFnc.terms
  have e : S.pkernel.body n.forget n'.forget (S.pkernel.fdf n.forget.d)
      (S.pkernel.fdf n'.forget.d) = some (S.terms n n') := this
  rw [e]
  rfl

theorem SymFnc.total_forget {S : SymFnc} (hV : S.Valid) (derivatives : Bool) (a : Atom) :
    S.total derivatives a.forgetCaches = S.total derivatives a := by
  classical
  unfold SymFnc.total
  rw [Atom.forget_length]
  by_cases ha : S.IsAng
  · rw [if_pos ha, if_pos ha]
    refine PS_congr fun j k _ _ => ?_
    unfold SymFnc.pairContrib
    rw [Atom.forget_getElem?, Atom.forget_getElem?]
    cases a.neighbors[j]? with
    | none => rfl
    | some nj =>
      cases a.neighbors[k]? with
      | none => rfl
      | some nk =>
        simp only [Option.map_some]
        have hsel : (S.pkernel.selJ nj.forget ∧ S.pkernel.selK nj.forget nk.forget) ↔
            (S.pkernel.selJ nj ∧ S.pkernel.selK nj nk) :=
          and_congr ((S.pkernel_local hV ha).selJ nj [] nj.dGdr)
            ((S.pkernel_local hV ha).selK nj [] nj.dGdr nk [] nk.dGdr)
        by_cases h : S.pkernel.selJ nj ∧ S.pkernel.selK nj nk
        · rw [if_pos h, if_pos (hsel.2 h), S.terms_forget hV ha]
          rfl
        · rw [if_neg h, if_neg (fun k => h (hsel.1 k))]
  · rw [if_neg ha, if_neg ha]
    refine Finset.sum_congr rfl fun j _ => ?_
    unfold RadialKernel.contrib
    rw [Atom.forget_getElem?]
    cases a.neighbors[j]? with
    | none => rfl
    | some n =>
      simp only [Option.map_some]
      have hsel : S.rkernel.sel n.forget ↔ S.rkernel.sel n := S.rkernel_local.sel n [] n.dGdr
      have ht := S.rkernel_local.term n [] n.dGdr (S.rkernel.fdf n.d)
      have hp := S.rkernel_local.p1 n [] n.dGdr (S.rkernel.fdf n.d)
      change (if S.rkernel.sel n.forget then (S.rkernel.term n.forget (S.rkernel.fdf n.d),
        if derivatives = true then (S.rkernel.p1 n.forget (S.rkernel.fdf n.d) • n.dr,
          (Pi.single j (S.rkernel.p1 n.forget (S.rkernel.fdf n.d) • n.dr) : ℕ → Vec3)) else 0)
        else 0) = _
      have hp' : S.rkernel.p1 n.forget (S.rkernel.fdf n.d) = S.rkernel.p1 n (S.rkernel.fdf n.d) := hp
      have ht' : S.rkernel.term n.forget (S.rkernel.fdf n.d) = S.rkernel.term n (S.rkernel.fdf n.d) := ht
      rw [hp', ht']
      by_cases h : S.rkernel.sel n
      · rw [if_pos h, if_pos (hsel.2 h)]
      · rw [if_neg h, if_neg (fun k => h (hsel.1 k))]

/-- What `calculate` does to an atom without caches. -/
noncomputable def SymFnc.pure (S : SymFnc) (derivatives : Bool) (a : Atom) : Atom :=
  S.finish a (S.total derivatives a) (fun _ => []) (S.formula a.env)

theorem SymFnc.finish_forget (S : SymFnc) (a : Atom) (x : Contrib) (caches : ℕ → List ℝ) (v : ℝ) :
    (S.finish a x caches v).forgetCaches = S.finish a.forgetCaches x (fun _ => []) v := by
  have : (S.finish a x caches v).forgetCaches.neighbors =
      (S.finish a.forgetCaches x (fun _ => []) v).neighbors := by
    refine List.ext_getElem? fun i => ?_
    rw [Atom.forget_getElem?]
    simp only [SymFnc.finish, SymFnc.conc, List.getElem?_mapIdx, Atom.forget_getElem?]
    cases a.neighbors[i]? <;> rfl
  unfold Atom.forgetCaches at this ⊢
  simp only [SymFnc.finish, SymFnc.conc] at this ⊢
  rw [this]

theorem SymFnc.finish_neighbor (S : SymFnc) (a : Atom) (x : Contrib) (caches : ℕ → List ℝ) (v : ℝ)
    (k : ℕ) : (S.finish a x caches v).neighbors[k]? =
      (a.neighbors[k]?).map (S.concN (x.2.2 k) (caches k)) := by
  simp only [SymFnc.finish, SymFnc.conc, List.getElem?_mapIdx]

theorem SymFnc.finish_env (S : SymFnc) (a : Atom) (x : Contrib) (caches : ℕ → List ℝ) (v : ℝ) :
    (S.finish a x caches v).env = a.env := by
  refine List.ext_getElem? fun i => ?_
  unfold Atom.env
  rw [List.getElem?_map, List.getElem?_map, S.finish_neighbor]
  cases a.neighbors[i]? <;> rfl

theorem SymFnc.finish_length (S : SymFnc) (a : Atom) (x : Contrib) (caches : ℕ → List ℝ) (v : ℝ) :
    (S.finish a x caches v).neighbors.length = a.neighbors.length := by
  simp [SymFnc.finish, SymFnc.conc]

theorem SymFnc.finish_mem (S : SymFnc) (a : Atom) (x : Contrib) (caches : ℕ → List ℝ) (v : ℝ)
    {n' : Neighbor} (h : n' ∈ (S.finish a x caches v).neighbors) :
    ∃ k n, a.neighbors[k]? = some n ∧ n' = S.concN (x.2.2 k) (caches k) n := by
  obtain ⟨k, hk⟩ := List.mem_iff_getElem?.1 h
  rw [S.finish_neighbor] at hk
  cases hn : a.neighbors[k]? with
  | none => rw [hn] at hk; cases hk
  | some n =>
    rw [hn] at hk
    exact ⟨k, n, hn, (Option.some.inj hk).symm⟩

theorem SymFnc.Ready.finish {S T : SymFnc} {a : Atom} {derivatives : Bool} {L : CacheLayout} {R : ℝ}
    (hT : T.Ready a derivatives L R) {x : Contrib} {caches : ℕ → List ℝ} {v : ℝ}
    (hc : CachesOK L R a caches) : T.Ready (S.finish a x caches v) derivatives L R := by
  have hstored : (S.finish a x caches v).getStoredMinNumNeighbors T.rc =
      a.getStoredMinNumNeighbors T.rc := rfl
  refine ⟨hT.valid, ⟨?_, ?_, ?_, ?_, ?_⟩, ⟨?_, ?_, ⟨hT.allocated.cache.1, ?_⟩, ?_⟩, ?_,
    hT.disjoint, hT.use, hT.le, ?_⟩
  · intro n' hn'
    obtain ⟨k, n, hn, rfl⟩ := S.finish_mem a x caches v hn'
    exact hT.list.d n (List.mem_of_getElem? hn)
  · intro n' hn'
    obtain ⟨k, n, hn, rfl⟩ := S.finish_mem a x caches v hn'
    exact hT.list.pos n (List.mem_of_getElem? hn)
  · rw [S.finish_length]; exact hT.list.num
  · rw [S.finish_length, hstored]; exact hT.list.stored_le
  · rw [hstored]
    intro n' hn'
    obtain ⟨k, hk⟩ := List.mem_iff_getElem?.1 hn'
    rw [List.getElem?_drop, S.finish_neighbor] at hk
    cases hn : a.neighbors[a.getStoredMinNumNeighbors T.rc + k]? with
    | none => rw [hn] at hk; cases hk
    | some n =>
      rw [hn] at hk
      rw [← Option.some.inj hk]
      refine hT.list.stored n (List.mem_of_getElem? (i := k) ?_)
      rw [List.getElem?_drop, hn]
  · simpa [SymFnc.finish] using hT.allocated.G
  · intro hd
    simpa [SymFnc.finish, SymFnc.conc] using hT.allocated.dGdr hd
  · intro n' hn'
    obtain ⟨k, n, hn, rfl⟩ := S.finish_mem a x caches v hn'
    exact hT.allocated.cache.2 n (List.mem_of_getElem? hn)
  · intro hd n' hn' hlt hrel
    obtain ⟨k, n, hn, rfl⟩ := S.finish_mem a x caches v hn'
    obtain ⟨i, h1, h2⟩ := hT.allocated.slot hd n (List.mem_of_getElem? hn) hlt hrel
    exact ⟨i, h1, by simpa [SymFnc.concN] using h2⟩
  · rw [S.finish_env]; exact hT.triplets
  · intro n' hn' hlt
    obtain ⟨k, n, hn, rfl⟩ := S.finish_mem a x caches v hn'
    exact (hc k n hn hlt).dGdr _

/-- `calculate` apart from the caches, and what it leaves for the next function. -/
theorem SymFnc.Ready.calculate {S : SymFnc} {a : Atom} {derivatives : Bool} {L : CacheLayout} {R : ℝ}
    (h : S.Ready a derivatives L R) : ∃ a', S.calculate a derivatives = some a' ∧
      a'.forgetCaches = S.pure derivatives a.forgetCaches ∧
      ∀ T : SymFnc, T.Ready a derivatives L R → T.Ready a' derivatives L R := by
  obtain ⟨caches, hc, e⟩ := SymFnc.calculate_eq h.valid h.list h.allocated h.triplets h.disjoint
    h.use h.le h.cache
  refine ⟨_, e, ?_, fun T hT => hT.finish hc⟩
  rw [S.finish_forget]
  unfold SymFnc.pure
  rw [S.total_forget h.valid, Atom.forget_env]

theorem SymFnc.pure_uncached (S : SymFnc) (derivatives : Bool) (a : Atom) :
    S.uncached.pure derivatives a = S.pure derivatives a := rfl

/-- Without caches no layout is needed. -/
theorem SymFnc.Ready.uncached {S : SymFnc} {a : Atom} {derivatives : Bool} {L : CacheLayout} {R : ℝ}
    (h : S.Ready a derivatives L R) : S.uncached.Ready a derivatives (fun _ => []) R := by
  have hlen : S.uncached.cacheIndices.length = S.cacheIndices.length := by simp [SymFnc.uncached]
  have hnil : ∀ (e : ℕ) ci, S.uncached.cacheIndices[e]? = some ci → ci = [] := by
    intro e ci hci
    simp only [SymFnc.uncached, List.getElem?_map] at hci
    cases hx : S.cacheIndices[e]? with
    | none => rw [hx] at hci; cases hci
    | some x => rw [hx] at hci; exact (Option.some.inj hci).symm
  refine ⟨⟨h.valid.rc_pos, h.valid.fc, h.valid.cr, h.valid.ca, h.valid.zeta, h.valid.pow⟩,
    h.list, ⟨h.allocated.G, h.allocated.dGdr, ?_, h.allocated.slot⟩,
    fun he ha => (h.triplets he ha).imp fun t => ⟨t.apart, t.collinear, t.ends⟩, ?_, ⟨?_, ?_⟩,
    h.le, ?_⟩
  · rw [hlen]; exact h.allocated.cache
  · intro e c hc; cases hc
  · intro e ci _ hci
    exact Or.inl (hnil e ci hci)
  · intro _ _ e e' ci ci' _ _ h1 h2
    rw [hnil _ _ h1, hnil _ _ h2]
  · intro n hn hlt c hc
    cases hc

/-! ### All functions of an element -/

theorem calculateAll_eq {Ss : List SymFnc} {a : Atom} {derivatives : Bool} {L : CacheLayout} {R : ℝ}
    (h : ∀ S ∈ Ss, S.Ready a derivatives L R) :
    ∃ a', calculateSymmetryFunctions Ss a derivatives = some a' ∧
      a'.forgetCaches = Ss.foldl (fun b S => S.pure derivatives b) a.forgetCaches ∧
      ∀ T : SymFnc, T.Ready a derivatives L R → T.Ready a' derivatives L R := by
  unfold calculateSymmetryFunctions
  induction Ss generalizing a with
  | nil => exact ⟨a, rfl, rfl, fun _ hT => hT⟩
  | cons S Ss ih =>
    obtain ⟨a1, e1, f1, k1⟩ := (h S List.mem_cons_self).calculate
    obtain ⟨a2, e2, f2, k2⟩ := ih (a := a1) fun T hT => k1 T (h T (List.mem_cons_of_mem _ hT))
    refine ⟨a2, ?_, ?_, fun T hT => k2 T (k1 T hT)⟩
    · rw [List.foldlM_cons, e1]
      exact e2
    · rw [f2, f1]
      rfl

/-! ### Near neighbours -/

/-- Subtracting the derivative from a neighbour. -/
def SymFnc.applyGrad (S : SymFnc) (q : Neighbor × Vec3) : Neighbor := S.concN q.2 [] q.1

theorem SymFnc.pure_neighbors (S : SymFnc) (a : Atom) :
    (S.pure true a).neighbors = (S.grads a.neighbors).map S.applyGrad := by
  refine List.ext_getElem? fun i => ?_
  unfold SymFnc.pure
  rw [S.finish_neighbor, List.getElem?_map]
  by_cases hi : i < a.neighbors.length
  · have h1 := S.total_grads a i hi
    have h2 : ((S.grads a.neighbors)[i]?).map Prod.fst = a.neighbors[i]? := by
      rw [← List.getElem?_map, S.grads_fst]
    have hg : i < (S.grads a.neighbors).length := by rw [S.grads_length]; exact hi
    rw [List.getElem?_eq_getElem hg, Option.map_some] at h1 h2
    rw [List.getElem?_eq_getElem hg, ← h2, Option.map_some, Option.map_some]
    unfold SymFnc.applyGrad
    rw [Option.some.inj h1]
  · rw [List.getElem?_eq_none (by omega), List.getElem?_eq_none (by rw [S.grads_length]; omega)]
    rfl

theorem SymFnc.grads_far (S : SymFnc) (l : List Neighbor) :
    ∀ q ∈ S.grads l, S.near q.1 = false → q.2 = 0 := by
  classical
  have hf : ∀ n : Neighbor, S.near n = false → S.rc ≤ n.d := by
    intro n hn
    simpa [SymFnc.near] using hn
  induction l with
  | nil => intro q hq; cases hq
  | cons n l ih =>
    intro q hq hnear
    unfold SymFnc.grads at hq
    by_cases ha : S.IsAng
    · rw [if_pos ha] at hq
      rcases List.mem_cons.1 hq with rfl | hq
      · refine List.sum_eq_zero fun c hc => ?_
        obtain ⟨m, -, rfl⟩ := List.mem_map.1 hc
        rw [(S.pairGrad_far ha (hf n hnear) m).1]
        rfl
      · obtain ⟨p, hp, rfl⟩ := List.mem_map.1 hq
        dsimp only at hnear ⊢
        rw [(S.pairGrad_far ha (hf _ hnear) n).2, ih p hp hnear]
        simp
    · rw [if_neg ha] at hq
      rcases List.mem_cons.1 hq with rfl | hq
      · unfold SymFnc.siteGrad
        rw [if_neg]
        intro h
        exact absurd (S.rkernel_sel ha _ h).1 (not_lt.2 (hf n hnear))
      · exact ih q hq hnear

theorem SymFnc.total_self (S : SymFnc) (a : Atom) :
    (S.total true a).2.1 = ((S.grads a.neighbors).map Prod.snd).sum := by
  have h := S.total_balanced true a
  unfold Contrib.Balanced at h
  rw [h, S.total_grads_map, vec_sum_getD, List.length_mapIdx]
  refine Finset.sum_congr rfl fun k hk => ?_
  have hk' : k < a.neighbors.length := Finset.mem_range.1 hk
  rw [List.getElem?_mapIdx, List.getElem?_eq_getElem hk']
  rfl

theorem SymFnc.total_self_filter (S : SymFnc) (a : Atom) :
    (S.total true a).2.1 = ((S.grads (a.neighbors.filter S.near)).map Prod.snd).sum := by
  rw [S.total_self, S.grads_filter, vec_sum_filter]
  intro q hq hnear
  exact S.grads_far _ q hq hnear

theorem SymFnc.pure_near (S : SymFnc) (a : Atom) :
    (S.pure true a).neighbors.filter S.near =
      (S.grads (a.neighbors.filter S.near)).map S.applyGrad := by
  rw [S.pure_neighbors, S.grads_filter, List.filter_map]
  rfl

end N2P2
