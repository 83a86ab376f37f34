import Verif.Lemma.SymFncState
import Verif.Lemma.SymFncMemory

/-! All symmetry functions of an atom, one after the other. -/

namespace N2P2

/-- A neighbour without cache and derivatives. -/
def Neighbor.bare (n : Neighbor) : Neighbor := { n with cache := [], dGdr := [] }

/-- The neighbours without caches and derivatives. -/
def Atom.bareNeighbors (a : Atom) : List Neighbor := a.neighbors.map Neighbor.bare

theorem SymFnc.total_neighbors (S : SymFnc) (d : Bool) (a b : Atom) (h : a.neighbors = b.neighbors) :
    S.total d a = S.total d b := by
  unfold SymFnc.total SymFnc.pairContrib RadialKernel.contrib
  rw [h]

theorem SymFnc.terms_bare {S : SymFnc} (hV : S.Valid) (ha : S.IsAng) (n n' : Neighbor) :
    S.terms n.bare n'.bare = S.terms n n' := by
  have := (S.pkernel_local hV ha).body n [] [] n' [] []
  unfold SymFnc.terms
  have e : S.pkernel.body n.bare n'.bare (S.pkernel.fdf n.bare.d)
      (S.pkernel.fdf n'.bare.d) = some (S.terms n n') := this
  rw [e]
  rfl

theorem SymFnc.total_bare {S : SymFnc} (hV : S.Valid) (d : Bool) (a : Atom) :
    S.total d { a with neighbors := a.bareNeighbors } = S.total d a := by
  classical
  have hlen : a.bareNeighbors.length = a.neighbors.length := by simp [Atom.bareNeighbors]
  have hget : ∀ k : ℕ, a.bareNeighbors[k]? = (a.neighbors[k]?).map Neighbor.bare := by
    intro k; simp [Atom.bareNeighbors]
  unfold SymFnc.total
  simp only [hlen]
  by_cases ha : S.IsAng
  · rw [if_pos ha, if_pos ha]
    refine PS_congr fun j k _ _ => ?_
    unfold SymFnc.pairContrib
    simp only [hget]
    cases a.neighbors[j]? with
    | none => rfl
    | some nj =>
      cases a.neighbors[k]? with
      | none => rfl
      | some nk =>
        simp only [Option.map_some]
        have hsel : (S.pkernel.selJ nj.bare ∧ S.pkernel.selK nj.bare nk.bare) ↔
            (S.pkernel.selJ nj ∧ S.pkernel.selK nj nk) :=
          and_congr ((S.pkernel_local hV ha).selJ nj [] [])
            ((S.pkernel_local hV ha).selK nj [] [] nk [] [])
        by_cases h : S.pkernel.selJ nj ∧ S.pkernel.selK nj nk
        · rw [if_pos h, if_pos (hsel.2 h), S.terms_bare hV ha]
          rfl
        · rw [if_neg h, if_neg (fun k => h (hsel.1 k))]
  · rw [if_neg ha, if_neg ha]
    refine Finset.sum_congr rfl fun j _ => ?_
    unfold RadialKernel.contrib
    simp only [hget]
    cases a.neighbors[j]? with
    | none => rfl
    | some n =>
      simp only [Option.map_some]
      have hsel : S.rkernel.sel n.bare ↔ S.rkernel.sel n := S.rkernel_local.sel n [] []
      have ht := S.rkernel_local.term n [] [] (S.rkernel.fdf n.d)
      have hp := S.rkernel_local.p1 n [] [] (S.rkernel.fdf n.d)
      change (if S.rkernel.sel n.bare then (S.rkernel.term n.bare (S.rkernel.fdf n.d),
        if d = true then (S.rkernel.p1 n.bare (S.rkernel.fdf n.d) • n.dr,
          (Pi.single j (S.rkernel.p1 n.bare (S.rkernel.fdf n.d) • n.dr) : ℕ → Vec3)) else 0)
        else 0) = _
      have hp' : S.rkernel.p1 n.bare (S.rkernel.fdf n.d) = S.rkernel.p1 n (S.rkernel.fdf n.d) := hp
      have ht' : S.rkernel.term n.bare (S.rkernel.fdf n.d) = S.rkernel.term n (S.rkernel.fdf n.d) := ht
      rw [hp', ht']
      by_cases h : S.rkernel.sel n
      · rw [if_pos h, if_pos (hsel.2 h)]
      · rw [if_neg h, if_neg (fun k => h (hsel.1 k))]

/-- The derivatives depend only on indices, elements and positions of the neighbours. -/
theorem SymFnc.total_congr {S : SymFnc} (hV : S.Valid) (d : Bool) {a b : Atom}
    (h : a.bareNeighbors = b.bareNeighbors) : S.total d a = S.total d b := by
  rw [← S.total_bare hV d a, ← S.total_bare hV d b]
  exact S.total_neighbors d _ _ h

theorem Atom.bareNeighbors_getElem? (a : Atom) (k : ℕ) :
    a.bareNeighbors[k]? = (a.neighbors[k]?).map Neighbor.bare := by
  simp [Atom.bareNeighbors]

theorem Atom.env_congr {a b : Atom} (h : a.bareNeighbors = b.bareNeighbors) : a.env = b.env := by
  have : ∀ a : Atom, a.env = a.bareNeighbors.map fun n => ⟨n.element, n.dr⟩ := by
    intro a
    simp only [Atom.env, Atom.bareNeighbors, List.map_map]
    rfl
  rw [this, this, h]

theorem Atom.length_congr {a b : Atom} (h : a.bareNeighbors = b.bareNeighbors) :
    a.neighbors.length = b.neighbors.length := by
  have := congrArg List.length h
  simpa [Atom.bareNeighbors] using this

theorem SymFnc.pure_bare (S : SymFnc) (d : Bool) (a : Atom) :
    (S.pure d a).bareNeighbors = a.bareNeighbors := by
  refine List.ext_getElem? fun k => ?_
  rw [Atom.bareNeighbors_getElem?, Atom.bareNeighbors_getElem?]
  unfold SymFnc.pure
  rw [S.finish_neighbor]
  cases a.neighbors[k]? <;> rfl

/-- The functions of a list applied to an atom. -/
noncomputable def pureAll (d : Bool) (b : Atom) (Ss : List SymFnc) : Atom :=
  Ss.foldl (fun b S => S.pure d b) b

theorem pureAll_append (d : Bool) (b : Atom) (Ss : List SymFnc) (S : SymFnc) :
    pureAll d b (Ss ++ [S]) = S.pure d (pureAll d b Ss) := by
  simp [pureAll]

theorem pureAll_bare (d : Bool) (b : Atom) (Ss : List SymFnc) :
    (pureAll d b Ss).bareNeighbors = b.bareNeighbors := by
  induction Ss using List.reverseRecOn with
  | nil => rfl
  | append_singleton Ss S ih => rw [pureAll_append, S.pure_bare, ih]

theorem pureAll_rest (d : Bool) (b : Atom) (Ss : List SymFnc) :
    pureAll d b Ss = { b with
      G := (pureAll d b Ss).G
      dGdr := (pureAll d b Ss).dGdr
      neighbors := (pureAll d b Ss).neighbors } := by
  induction Ss using List.reverseRecOn with
  | nil => rfl
  | append_singleton Ss S ih =>
    rw [pureAll_append]
    generalize pureAll d b Ss = c at ih ⊢
    rw [ih]
    rfl

theorem pureAll_G {d : Bool} {b : Atom} : ∀ {Ss : List SymFnc},
    (∀ (k : ℕ) (S : SymFnc), Ss[k]? = some S → S.index = k) → Ss.length ≤ b.G.length →
    (pureAll d b Ss).G = (Ss.map fun S => S.sc.scale (S.formula b.env)) ++ b.G.drop Ss.length := by
  intro Ss
  induction Ss using List.reverseRecOn with
  | nil => intro _ _; simp [pureAll]
  | append_singleton Ss S ih =>
    intro hidx hl
    rw [List.length_append, List.length_singleton] at hl
    have ih' := ih (fun k T hT => hidx k T (by
      rw [List.getElem?_append_left (List.getElem?_eq_some_iff.1 hT).1]; exact hT)) (by omega)
    have hS : S.index = Ss.length := hidx _ S (by simp)
    rw [pureAll_append]
    show (pureAll d b Ss).G.set S.index _ = _
    rw [ih', hS, Atom.env_congr (pureAll_bare d b Ss), List.set_append_right _ _ (by simp)]
    have : b.G.drop Ss.length = b.G[Ss.length] :: b.G.drop (Ss.length + 1) :=
      List.drop_eq_getElem_cons (by omega)
    rw [this]
    simp only [List.length_map, Nat.sub_self, List.set_cons_zero, List.map_append, List.map_cons,
      List.map_nil, List.length_append, List.length_singleton, List.append_assoc,
      List.singleton_append]

theorem pureAll_dGdr {b : Atom} : ∀ {Ss : List SymFnc}, (∀ S ∈ Ss, S.Valid) →
    (∀ (k : ℕ) (S : SymFnc), Ss[k]? = some S → S.index = k) → ∀ m, Ss.length ≤ m →
    b.dGdr = List.replicate m 0 → (pureAll true b Ss).dGdr =
      (Ss.map fun S => (S.total true b).2.1) ++ List.replicate (m - Ss.length) 0 := by
  intro Ss
  induction Ss using List.reverseRecOn with
  | nil => intro _ _ m _ h; simp [pureAll, h]
  | append_singleton Ss S ih =>
    intro hV hidx m hl hb
    rw [List.length_append, List.length_singleton] at hl
    have ih' := ih (fun S hS => hV S (by simp [hS])) (fun k T hT => hidx k T (by
      rw [List.getElem?_append_left (List.getElem?_eq_some_iff.1 hT).1]; exact hT)) m (by omega) hb
    have hS : S.index = Ss.length := hidx _ S (by simp)
    rw [pureAll_append]
    show (pureAll true b Ss).dGdr.modify S.index _ = _
    rw [ih', hS, SymFnc.total_congr (hV S (by simp)) true (pureAll_bare true b Ss)]
    have : m - Ss.length = m - (Ss.length + 1) + 1 := by omega
    rw [this, List.replicate_succ]
    apply List.ext_getElem?
    intro i
    rw [List.getElem?_modify]
    by_cases hi : i < Ss.length
    · rw [List.getElem?_append_left (by simpa using hi), List.getElem?_append_left (by simp; omega),
        List.map_append, List.getElem?_append_left (by simpa using hi)]
      simp [hi]
      intro h; omega
    · by_cases hi' : i = Ss.length
      · subst hi'
        rw [List.getElem?_append_right (by simp)]
        simp
      · obtain ⟨j, rfl⟩ : ∃ j, i = Ss.length + 1 + j := ⟨i - Ss.length - 1, by omega⟩
        rw [List.getElem?_append_right (by simp; omega), List.getElem?_append_right (by simp)]
        simp only [List.length_map, List.length_append, List.length_singleton]
        have : Ss.length + 1 + j - Ss.length = j + 1 := by omega
        rw [this, List.getElem?_cons_succ]
        have h2 : Ss.length + 1 + j - (Ss.length + 1) = j := by omega
        rw [h2]
        have h3 : ¬ Ss.length = Ss.length + 1 + j := by omega
        simp [h3]

/-- Derivatives with respect to neighbour `k` of the functions which need them. -/
noncomputable def neighborGrads (b : Atom) (Ss : List SymFnc) (e k : ℕ) : List Vec3 :=
  (Ss.filter fun S => S.checkRelevantElement e).map fun S => -(S.total true b).2.2 k

theorem memoryPosition_eq (Ss : List SymFnc) (k e : ℕ) :
    memoryPosition Ss k e = ((Ss.take k).filter fun S => S.checkRelevantElement e).length := by
  simp [memoryPosition, relevantIndices]

theorem pureAll_neighbor {b : Atom} {k : ℕ} {nb : Neighbor} (hnb : b.neighbors[k]? = some nb) :
    ∀ {Ss : List SymFnc}, (∀ S ∈ Ss, S.Valid) →
    (∀ (i : ℕ) (S : SymFnc), Ss[i]? = some S → S.checkRelevantElement nb.element →
      S.slotOf nb.element = memoryPosition Ss i nb.element) →
    ∀ m, (Ss.filter fun S => S.checkRelevantElement nb.element).length ≤ m →
    nb.dGdr = List.replicate m 0 → ∃ c, (pureAll true b Ss).neighbors[k]? = some { nb with
      cache := c
      dGdr := neighborGrads b Ss nb.element k ++ List.replicate
        (m - (Ss.filter fun S => S.checkRelevantElement nb.element).length) 0 } := by
  intro Ss
  induction Ss using List.reverseRecOn with
  | nil =>
    intro _ _ m _ h
    refine ⟨nb.cache, ?_⟩
    show b.neighbors[k]? = _
    rw [hnb]
    simp only [neighborGrads, List.filter_nil, List.map_nil, List.nil_append, List.length_nil,
      Nat.sub_zero, ← h]
  | append_singleton Ss S ih =>
    intro hV hslot m hm hd
    have hm' : (Ss.filter fun S => S.checkRelevantElement nb.element).length ≤ m := by
      rw [List.filter_append, List.length_append] at hm; omega
    obtain ⟨c, hc⟩ := ih (fun S hS => hV S (by simp [hS])) (fun i T hT hr => by
      have hi := (List.getElem?_eq_some_iff.1 hT).1
      have := hslot i T (by rw [List.getElem?_append_left hi]; exact hT) hr
      rw [this]
      unfold memoryPosition
      rw [List.take_append_of_le_length (by omega)]) m hm' hd
    refine ⟨[], ?_⟩
    rw [pureAll_append]
    unfold SymFnc.pure
    rw [S.finish_neighbor, hc, Option.map_some,
      SymFnc.total_congr (hV S (by simp)) true (pureAll_bare true b Ss)]
    unfold SymFnc.concN
    dsimp only
    refine congrArg some ?_
    have key : (neighborGrads b Ss nb.element k ++ List.replicate
        (m - (Ss.filter fun S : SymFnc => S.checkRelevantElement nb.element).length) 0).modify
          (S.slotOf nb.element) (· - (S.total true b).2.2 k) =
        neighborGrads b (Ss ++ [S]) nb.element k ++ List.replicate
          (m - ((Ss ++ [S]).filter fun S : SymFnc => S.checkRelevantElement nb.element).length) 0 := by
      by_cases hr : S.checkRelevantElement nb.element
      · have hs := hslot Ss.length S (by simp) hr
        rw [memoryPosition_eq, List.take_left' rfl] at hs
        rw [hs]
        rw [List.filter_append, List.length_append] at hm
        simp only [hr, List.filter_cons_of_pos, List.filter_nil, List.length_singleton] at hm
        unfold neighborGrads
        rw [List.filter_append, List.map_append, List.length_append]
        simp only [hr, List.filter_cons_of_pos, List.filter_nil, List.length_singleton,
          List.map_cons, List.map_nil]
        generalize (Ss.filter fun S => S.checkRelevantElement nb.element) = l at hm ⊢
        have : m - l.length = m - (l.length + 1) + 1 := by omega
        rw [this, List.replicate_succ]
        generalize m - (l.length + 1) = q
        have e : l.length = (l.map fun S => -(S.total true b).2.2 k).length := by simp
        rw [e]
        generalize (l.map fun S => -(S.total true b).2.2 k) = l'
        rw [List.modify_eq_take_cons_drop (by simp)]
        simp
      · have h0 : (S.total true b).2.2 k = 0 := S.total_irrelevant true b hnb (fun h => hr h.2)
        rw [h0, modify_sub_zero]
        unfold neighborGrads
        rw [List.filter_append]
        simp [hr]
    rw [key]

theorem pureAll_far {b : Atom} {k : ℕ} {nb : Neighbor} (hnb : b.neighbors[k]? = some nb) :
    ∀ {Ss : List SymFnc}, (∀ S ∈ Ss, S.Valid) → (∀ S ∈ Ss, S.rc ≤ nb.d) → ∀ d,
    ∃ c, (pureAll d b Ss).neighbors[k]? = some { nb with cache := c } := by
  intro Ss
  induction Ss using List.reverseRecOn with
  | nil => intro _ _ d; exact ⟨nb.cache, hnb⟩
  | append_singleton Ss S ih =>
    intro hV hfar d
    obtain ⟨c, hc⟩ := ih (fun S hS => hV S (by simp [hS])) (fun S hS => hfar S (by simp [hS])) d
    refine ⟨[], ?_⟩
    rw [pureAll_append]
    unfold SymFnc.pure
    rw [S.finish_neighbor, hc, Option.map_some,
      SymFnc.total_congr (hV S (by simp)) d (pureAll_bare d b Ss)]
    have h0 : (S.total d b).2.2 k = 0 := S.total_irrelevant d b hnb (fun h =>
      absurd h.1 (not_lt.2 (hfar S (by simp))))
    rw [h0]
    unfold SymFnc.concN
    rw [modify_sub_zero]

end N2P2
