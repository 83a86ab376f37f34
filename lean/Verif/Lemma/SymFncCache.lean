import Verif.Lemma.SymFncMemory

/-! Lemmas on the setup of the caches. -/

namespace N2P2

/-- Identifiers of a function for one element. -/
noncomputable def idsAt (E : SFEnv) (S : SymFnc) (e : ℕ) : List CacheId :=
  (S.getCacheIdentifiers E).filter fun i => i.element == e

theorem filter_both (e e' : ℕ) (s : Str) :
    (([⟨e', false, s⟩, ⟨e', true, s⟩] : List CacheId).filter fun i => i.element == e) =
      if e' = e then [⟨e, false, s⟩, ⟨e, true, s⟩] else [] := by
  by_cases h : e' = e
  · subst h; simp
  · simp [h]

theorem idsAt_eq (E : SFEnv) (S : SymFnc) {e : ℕ} (he : e < E.numElements) :
    idsAt E S e = if S.checkRelevantElement e then
      [⟨e, false, S.cacheText E⟩, ⟨e, true, S.cacheText E⟩] else [] := by
  have hall : ((List.range E.numElements).flatMap fun e' =>
      ([⟨e', false, S.cacheText E⟩, ⟨e', true, S.cacheText E⟩] : List CacheId)).filter
        (fun i => i.element == e) = [⟨e, false, S.cacheText E⟩, ⟨e, true, S.cacheText E⟩] := by
    have : ∀ n, ((List.range n).flatMap fun e' =>
      ([⟨e', false, S.cacheText E⟩, ⟨e', true, S.cacheText E⟩] : List CacheId)).filter
        (fun i => i.element == e) =
        if e < n then [⟨e, false, S.cacheText E⟩, ⟨e, true, S.cacheText E⟩] else [] := by
      intro n
      induction n with
      | zero => simp
      | succ n ih =>
        rw [List.range_succ, List.flatMap_append, List.filter_append, ih, List.flatMap_singleton,
          filter_both]
        by_cases h1 : e < n
        · rw [if_pos h1, if_neg (by omega), if_pos (by omega), List.append_nil]
        · by_cases h2 : n = e
          · subst h2; simp
          · rw [if_neg h1, if_neg h2, if_neg (by omega)]; rfl
    rw [this, if_pos he]
  unfold idsAt SymFnc.getCacheIdentifiers SymFnc.checkRelevantElement
  rcases hk : S.kind <;> simp only
  any_goals (rw [hall]; rfl)
  any_goals (
    rw [filter_both]
    by_cases h : S.e1 = e
    · simp [h]
    · rw [if_neg h, if_neg (by simpa using Ne.symm h)])
  all_goals (
    rw [List.filter_append, filter_both]
    by_cases h12 : S.e1 = S.e2
    · rw [if_neg (c := S.e1 ≠ S.e2) (by simpa using h12), List.filter_nil, List.append_nil]
      by_cases h : S.e1 = e
      · simp [h]
      · rw [if_neg h, if_neg (by rw [← h12]; simpa using Ne.symm h)]
    · rw [if_pos (c := S.e1 ≠ S.e2) h12, filter_both]
      by_cases h : S.e1 = e
      · have h' : ¬ S.e2 = e := fun h' => h12 (h.trans h'.symm)
        simp [h, h']
      · by_cases h' : S.e2 = e
        · simp [h, h']
        · rw [if_neg h, if_neg h', if_neg (by simpa using ⟨Ne.symm h, Ne.symm h'⟩)]; rfl)

/-! ### Collecting -/

/-- Functions which share a cache text. -/
abbrev CacheGroup := Str × List ℕ

/-- Enter function `i` in the group of its text. -/
def addGroup (k : Str) (i : ℕ) : List CacheGroup → List CacheGroup
  | [] => [(k, [i])]
  | g :: gs => if k = g.1 then (g.1, g.2 ++ [i]) :: gs else g :: addGroup k i gs

/-- The lists of the code for some groups: one for the value and one for the derivative. -/
def pairUp (e : ℕ) (gs : List CacheGroup) : List SFCacheList :=
  gs.flatMap fun g => [⟨e, ⟨e, false, g.1⟩, g.2⟩, ⟨e, ⟨e, true, g.1⟩, g.2⟩]

theorem pairUp_cons (e : ℕ) (g : CacheGroup) (gs : List CacheGroup) :
    pairUp e (g :: gs) = ⟨e, ⟨e, false, g.1⟩, g.2⟩ :: ⟨e, ⟨e, true, g.1⟩, g.2⟩ :: pairUp e gs := rfl

theorem enter_pairUp (e : ℕ) (k : Str) (i : ℕ) (gs : List CacheGroup) :
    enterCacheList ⟨e, true, k⟩ i (enterCacheList ⟨e, false, k⟩ i (pairUp e gs)) =
      pairUp e (addGroup k i gs) := by
  induction gs with
  | nil => simp [pairUp, enterCacheList, addGroup]
  | cons g gs ih =>
    rw [pairUp_cons]
    by_cases h : k = g.1
    · subst h
      simp [enterCacheList, addGroup, pairUp_cons]
    · simp only [enterCacheList, addGroup, CacheId.mk.injEq, h, and_false, if_false, reduceCtorEq,
        pairUp_cons, ih]

theorem removeSingle_pairUp (e : ℕ) (gs : List CacheGroup) :
    removeSingle (pairUp e gs) = pairUp e (gs.filter fun g => 1 < g.2.length) := by
  induction gs with
  | nil => rfl
  | cons g gs ih =>
    rw [pairUp_cons]
    unfold removeSingle at ih ⊢
    by_cases h : 1 < g.2.length
    · simp [h, ih, pairUp_cons]
    · simp [h, ih]

theorem length_pairUp (e : ℕ) (gs : List CacheGroup) : (pairUp e gs).length = 2 * gs.length := by
  induction gs with
  | nil => rfl
  | cons g gs ih => rw [pairUp_cons]; simp [ih]; ring

theorem collectIds_eq (index : ℕ) : ∀ (ids : List CacheId) (lists res : List (List SFCacheList)),
    ids.foldlM (collectId index) lists = some res →
    res.length = lists.length ∧ (∀ id ∈ ids, id.element < lists.length) ∧
    ∀ e, res[e]? = lists[e]?.map fun l =>
      (ids.filter fun i => i.element == e).foldl (fun l id => enterCacheList id index l) l
  | [], lists, res, h => by
    simp at h; subst h
    refine ⟨rfl, by simp, fun e => ?_⟩
    simp
  | id :: ids, lists, res, h => by
    rw [List.foldlM_cons] at h
    obtain ⟨l1, h1, h⟩ := Option.bind_eq_some_iff.1 h
    obtain ⟨a1, a2, a3⟩ := collectIds_eq index ids l1 res h
    unfold collectId at h1
    obtain ⟨l, h2, h3⟩ := Option.bind_eq_some_iff.1 h1
    cases h3
    obtain ⟨hlt, hl⟩ := List.getElem?_eq_some_iff.1 h2
    simp only [List.length_set] at a1 a2
    refine ⟨a1, ?_, fun e => ?_⟩
    · intro id' h'
      rcases List.mem_cons.1 h' with rfl | h'
      · exact hlt
      · exact a2 _ h'
    · rw [a3 e, List.getElem?_set]
      by_cases he : id.element = e
      · subst he
        rw [if_pos rfl, if_pos hlt, h2]
        simp
      · rw [if_neg he]
        have : (id.element == e) = false := by simpa using he
        simp [this]

/-- Groups of the functions relevant for an element. -/
noncomputable def groupsOf (E : SFEnv) (e : ℕ) (Ss : List SymFnc) : List CacheGroup :=
  (Ss.filter fun S => S.checkRelevantElement e).foldl
    (fun gs S => addGroup (S.cacheText E) S.index gs) []

theorem collect_eq (E : SFEnv) : ∀ (Ss : List SymFnc) (G : ℕ → List CacheGroup)
    (lists res : List (List SFCacheList)), lists.length = E.numElements →
    (∀ e, e < E.numElements → lists[e]? = some (pairUp e (G e))) →
    Ss.foldlM (fun lists S => (S.getCacheIdentifiers E).foldlM (collectId S.index) lists) lists =
      some res → res.length = E.numElements ∧
    (∀ S ∈ Ss, ∀ id ∈ S.getCacheIdentifiers E, id.element < E.numElements) ∧
    ∀ e, e < E.numElements → res[e]? = some (pairUp e
      ((Ss.filter fun S => S.checkRelevantElement e).foldl
        (fun gs S => addGroup (S.cacheText E) S.index gs) (G e)))
  | [], G, lists, res, hl, hG, h => by
    simp at h; subst h
    exact ⟨hl, by simp, by simpa using hG⟩
  | S :: Ss, G, lists, res, hl, hG, h => by
    rw [List.foldlM_cons] at h
    obtain ⟨l1, h1, h⟩ := Option.bind_eq_some_iff.1 h
    obtain ⟨a1, a2, a3⟩ := collectIds_eq _ _ _ _ h1
    obtain ⟨b1, b2, b3⟩ := collect_eq E Ss (fun e => if S.checkRelevantElement e then
      addGroup (S.cacheText E) S.index (G e) else G e) l1 res (by rw [a1, hl]) (by
        intro e he
        rw [a3 e, hG e he]
        have := idsAt_eq E S he
        unfold idsAt at this
        rw [this]
        by_cases hr : S.checkRelevantElement e = true
        · simp only [hr, if_true, Option.map_some, List.foldl_cons, List.foldl_nil, enter_pairUp]
        · simp [hr]) h
    refine ⟨b1, ?_, fun e he => ?_⟩
    · intro T hT id hid
      rcases List.mem_cons.1 hT with rfl | hT
      · rw [← hl]; exact a2 id hid
      · exact b2 T hT id hid
    · rw [b3 e he]
      by_cases hr : S.checkRelevantElement e = true
      · simp [hr]
      · simp [hr]

theorem collectCacheLists_eq {E : SFEnv} {Ss : List SymFnc} {res : List (List SFCacheList)}
    (h : collectCacheLists E Ss = some res) :
    (∀ S ∈ Ss, ∀ id ∈ S.getCacheIdentifiers E, id.element < E.numElements) ∧
    res = (List.range E.numElements).map fun e => pairUp e (groupsOf E e Ss) := by
  obtain ⟨a1, a2, a3⟩ := collect_eq E Ss (fun _ => []) _ res (by simp) (by
    intro e he
    simp [he, pairUp]) h
  refine ⟨a2, ?_⟩
  apply List.ext_getElem?
  intro e
  by_cases he : e < E.numElements
  · rw [a3 e he]; simp [he, groupsOf]
  · rw [List.getElem?_eq_none (by omega), List.getElem?_eq_none (by simp; omega)]

/-! ### Properties of the groups -/

/-- Every function of a list is in the group of its text, once, and the groups contain nothing
else. -/
structure GroupsOK (E : SFEnv) (Ss : List SymFnc) (gs : List CacheGroup) : Prop where
  keys : (gs.map Prod.fst).Nodup
  nodup : ∀ g ∈ gs, g.2.Nodup
  sound : ∀ g ∈ gs, ∀ i ∈ g.2, ∃ S ∈ Ss, S.index = i ∧ S.cacheText E = g.1
  complete : ∀ S ∈ Ss, ∃ g ∈ gs, g.1 = S.cacheText E ∧ S.index ∈ g.2

theorem addGroup_keys (k : Str) (i : ℕ) (gs : List CacheGroup) :
    (addGroup k i gs).map Prod.fst = if k ∈ gs.map Prod.fst then gs.map Prod.fst
      else gs.map Prod.fst ++ [k] := by
  induction gs with
  | nil => simp [addGroup]
  | cons g gs ih =>
    unfold addGroup
    by_cases h : k = g.1
    · simp [h]
    · rw [if_neg h, List.map_cons, ih]
      by_cases h' : k ∈ gs.map Prod.fst
      · rw [if_pos h', if_pos (by rw [List.map_cons]; exact List.mem_cons_of_mem _ h')]; rfl
      · rw [if_neg h', if_neg (by rw [List.map_cons, List.mem_cons]; push Not; exact ⟨h, h'⟩)]; rfl

theorem mem_addGroup {k : Str} {i : ℕ} {gs : List CacheGroup} {g : CacheGroup}
    (h : g ∈ addGroup k i gs) : g ∈ gs ∨ g = (k, [i]) ∨ ∃ g' ∈ gs, g'.1 = k ∧ g = (k, g'.2 ++ [i]) := by
  induction gs with
  | nil => simp [addGroup] at h; exact Or.inr (Or.inl h)
  | cons g' gs ih =>
    unfold addGroup at h
    split at h
    · rename_i hk
      rcases List.mem_cons.1 h with rfl | h
      · exact Or.inr (Or.inr ⟨g', by simp, hk.symm, by rw [hk]⟩)
      · exact Or.inl (List.mem_cons_of_mem _ h)
    · rcases List.mem_cons.1 h with rfl | h
      · exact Or.inl (by simp)
      · rcases ih h with h | h | ⟨g', h1, h2⟩
        · exact Or.inl (List.mem_cons_of_mem _ h)
        · exact Or.inr (Or.inl h)
        · exact Or.inr (Or.inr ⟨g', List.mem_cons_of_mem _ h1, h2⟩)

theorem addGroup_new (k : Str) (i : ℕ) (gs : List CacheGroup) :
    ∃ g ∈ addGroup k i gs, g.1 = k ∧ i ∈ g.2 := by
  induction gs with
  | nil => exact ⟨_, List.mem_cons_self .., rfl, by simp⟩
  | cons g gs ih =>
    unfold addGroup
    split
    · rename_i h; exact ⟨_, List.mem_cons_self .., h.symm, by simp⟩
    · obtain ⟨g', h1, h2⟩ := ih
      exact ⟨g', List.mem_cons_of_mem _ h1, h2⟩

theorem addGroup_old (k : Str) (i : ℕ) {gs : List CacheGroup} {g : CacheGroup} (h : g ∈ gs) :
    ∃ g' ∈ addGroup k i gs, g'.1 = g.1 ∧ ∀ j ∈ g.2, j ∈ g'.2 := by
  induction gs with
  | nil => cases h
  | cons g0 gs ih =>
    unfold addGroup
    split
    · rcases List.mem_cons.1 h with rfl | h
      · exact ⟨_, List.mem_cons_self .., rfl, fun j hj => by simp [hj]⟩
      · exact ⟨g, List.mem_cons_of_mem _ h, rfl, fun j hj => hj⟩
    · rcases List.mem_cons.1 h with rfl | h
      · exact ⟨_, List.mem_cons_self .., rfl, fun j hj => hj⟩
      · obtain ⟨g', h1, h2⟩ := ih h
        exact ⟨g', List.mem_cons_of_mem _ h1, h2⟩

theorem groupsOK_add {E : SFEnv} {Ss : List SymFnc} {gs : List CacheGroup} (h : GroupsOK E Ss gs)
    {S : SymFnc} (hS : ∀ T ∈ Ss, T.index ≠ S.index) :
    GroupsOK E (Ss ++ [S]) (addGroup (S.cacheText E) S.index gs) := by
  have hnew : ∀ g ∈ gs, S.index ∉ g.2 := by
    intro g hg hi
    obtain ⟨T, hT, e, -⟩ := h.sound g hg _ hi
    exact hS T hT e
  constructor
  · rw [addGroup_keys]
    split
    · exact h.keys
    · rename_i hk
      rw [List.nodup_append]
      refine ⟨h.keys, by simp, ?_⟩
      intro a ha b hb
      simp only [List.mem_singleton] at hb
      subst hb
      exact fun e => hk (e ▸ ha)
  · intro g hg
    rcases mem_addGroup hg with hg | rfl | ⟨g', hg', -, rfl⟩
    · exact h.nodup g hg
    · simp
    · rw [List.nodup_append]
      refine ⟨h.nodup g' hg', by simp, ?_⟩
      intro a ha b hb
      simp only [List.mem_singleton] at hb
      subst hb
      exact fun e => hnew g' hg' (e ▸ ha)
  · intro g hg i hi
    rcases mem_addGroup hg with hg | rfl | ⟨g', hg', e', rfl⟩
    · obtain ⟨T, hT, h1⟩ := h.sound g hg i hi
      exact ⟨T, by simp [hT], h1⟩
    · simp only [List.mem_singleton] at hi
      exact ⟨S, by simp, hi.symm, rfl⟩
    · rcases List.mem_append.1 hi with hi | hi
      · obtain ⟨T, hT, h1, h2⟩ := h.sound g' hg' i hi
        exact ⟨T, by simp [hT], h1, h2.trans e'⟩
      · simp only [List.mem_singleton] at hi
        exact ⟨S, by simp, hi.symm, rfl⟩
  · intro T hT
    rcases List.mem_append.1 hT with hT | hT
    · obtain ⟨g, hg, h1, h2⟩ := h.complete T hT
      obtain ⟨g', hg', h3, h4⟩ := addGroup_old (S.cacheText E) S.index hg
      exact ⟨g', hg', h3.trans h1, h4 _ h2⟩
    · simp only [List.mem_singleton] at hT
      subst hT
      exact addGroup_new _ _ _

theorem groupsOK_fold {E : SFEnv} : ∀ (Ss Ts : List SymFnc) (gs : List CacheGroup),
    GroupsOK E Ts gs → ((Ts ++ Ss).map SymFnc.index).Nodup →
    GroupsOK E (Ts ++ Ss) (Ss.foldl (fun gs S => addGroup (S.cacheText E) S.index gs) gs)
  | [], Ts, gs, h, _ => by simpa using h
  | S :: Ss, Ts, gs, h, hn => by
    rw [List.foldl_cons]
    have := groupsOK_fold Ss (Ts ++ [S]) (addGroup (S.cacheText E) S.index gs)
      (groupsOK_add h (S := S) (by
        intro T hT e
        rw [List.map_append, List.nodup_append] at hn
        exact hn.2.2 _ (List.mem_map_of_mem hT) _ (by simp) e)) (by simpa using hn)
    simpa using this

theorem groupsOf_ok {E : SFEnv} {Ss : List SymFnc} (h : (Ss.map SymFnc.index).Nodup) (e : ℕ) :
    GroupsOK E (Ss.filter fun S => S.checkRelevantElement e) (groupsOf E e Ss) := by
  have := groupsOK_fold (E := E) (Ss.filter fun S => S.checkRelevantElement e) [] []
    ⟨by simp, by simp, by simp, by simp⟩
    (by simpa using h.sublist (List.filter_sublist.map _))
  simpa [groupsOf] using this

/-! ### Assigning -/

/-- Functions with the given cache indices. -/
def withCaches (n : ℕ) (Ss : List SymFnc) (D : ℕ → ℕ → List ℕ) : List SymFnc :=
  Ss.mapIdx fun k S => { S with cacheIndices := (List.range n).map (D k) }

/-- One assignment: a list of the code, its position, and the function. -/
abbrev CacheStep := SFCacheList × ℕ × ℕ

/-- Effect of an assignment. -/
def stepD (D : ℕ → ℕ → List ℕ) (s : CacheStep) : ℕ → ℕ → List ℕ :=
  fun k e => if k = s.2.2 ∧ e = s.1.element then D k e ++ [s.2.1] else D k e

/-- The assignments for one function and element. -/
def stepsAt (l : List CacheStep) (k e : ℕ) : List CacheStep :=
  l.filter fun s => decide (s.2.2 = k ∧ s.1.element = e)

theorem setCacheIndex_withCaches {E : SFEnv} {Ss : List SymFnc} {D : ℕ → ℕ → List ℕ}
    {c : SFCacheList} {j k : ℕ} {S : SymFnc} (hS : Ss[k]? = some S)
    (hids : ∀ id ∈ S.getCacheIdentifiers E, id.element < E.numElements)
    (hc : c.element < E.numElements)
    (hid : (idsAt E S c.element)[(D k c.element).length]? = some c.identifier) :
    setCacheIndex E c j (withCaches E.numElements Ss D) k =
      some (withCaches E.numElements Ss (stepD D (c, j, k))) := by
  have h1 : (withCaches E.numElements Ss D)[k]? =
      some { S with cacheIndices := (List.range E.numElements).map (D k) } := by
    simp [withCaches, hS]
  have hk : k < Ss.length := (List.getElem?_eq_some_iff.1 hS).1
  unfold setCacheIndex
  rw [h1]
  show Option.bind (SymFnc.addCacheIndex E
    { S with cacheIndices := (List.range E.numElements).map (D k) } c.element j c.identifier) _ = _
  have h2 : SymFnc.addCacheIndex E { S with cacheIndices := (List.range E.numElements).map (D k) }
      c.element j c.identifier = some { S with cacheIndices :=
        ((List.range E.numElements).map (D k)).set c.element (D k c.element ++ [j]) } := by
    unfold SymFnc.addCacheIndex
    have hn : ¬ ((S.getCacheIdentifiers E).any (fun i => decide (E.numElements ≤ i.element)) = true
        ∨ E.numElements ≤ c.element) := by
      rintro (h | h)
      · obtain ⟨id, hid, h⟩ := List.any_eq_true.1 h
        have := hids id hid
        simp at h
        omega
      · omega
    refine (if_neg (c := ((S.getCacheIdentifiers E).any
      (fun i => decide (E.numElements ≤ i.element)) = true ∨ E.numElements ≤ c.element)) hn).trans ?_
    have h3 : ((List.range E.numElements).map (D k))[c.element]? = some (D k c.element) := by
      simp [hc]
    rw [h3]
    show Option.bind ((idsAt E S c.element)[(D k c.element).length]?) _ = _
    rw [hid]
    show (if c.identifier ≠ c.identifier then none else _) = _
    simp
  rw [h2]
  show some ((withCaches E.numElements Ss D).set k _) = _
  congr 1
  apply List.ext_getElem?
  intro k'
  rw [List.getElem?_set]
  by_cases hkk : k = k'
  · subst hkk
    rw [if_pos rfl, if_pos (by simpa [withCaches] using hk)]
    simp only [withCaches, List.getElem?_mapIdx, hS, Option.map_some]
    congr 2
    apply List.ext_getElem (by simp)
    intro e h3 h4
    simp only [List.getElem_set, List.getElem_map, List.getElem_range, stepD, true_and]
    by_cases he : c.element = e
    · subst he; simp
    · rw [if_neg he, if_neg (Ne.symm he)]
  · rw [if_neg hkk]
    simp only [withCaches, List.getElem?_mapIdx]
    congr 1
    funext S
    congr 2
    funext e
    simp only [stepD]
    rw [if_neg (fun h => hkk h.1.symm)]

theorem steps_withCaches {E : SFEnv} {Ss : List SymFnc}
    (hids : ∀ S ∈ Ss, ∀ id ∈ S.getCacheIdentifiers E, id.element < E.numElements) :
    ∀ (l : List CacheStep) (D : ℕ → ℕ → List ℕ),
    (∀ s ∈ l, s.1.element < E.numElements ∧ s.2.2 < Ss.length) →
    (∀ k S e, Ss[k]? = some S → e < E.numElements →
      (stepsAt l k e).map (fun s => s.1.identifier) <+: (idsAt E S e).drop (D k e).length) →
    l.foldlM (fun Ss s => setCacheIndex E s.1 s.2.1 Ss s.2.2) (withCaches E.numElements Ss D) =
      some (withCaches E.numElements Ss fun k e => D k e ++ (stepsAt l k e).map fun s => s.2.1)
  | [], D, _, _ => by simp [stepsAt]
  | s :: l, D, h1, h2 => by
    obtain ⟨he, hk⟩ := h1 s (List.mem_cons_self ..)
    have hS : Ss[s.2.2]? = some Ss[s.2.2] := List.getElem?_eq_getElem hk
    have hp := h2 s.2.2 _ s.1.element hS he
    have hat : stepsAt (s :: l) s.2.2 s.1.element = s :: stepsAt l s.2.2 s.1.element := by
      simp [stepsAt]
    rw [hat] at hp
    have hid : (idsAt E Ss[s.2.2] s.1.element)[(D s.2.2 s.1.element).length]? =
        some s.1.identifier := by
      obtain ⟨t, ht⟩ := hp
      have : ((idsAt E Ss[s.2.2] s.1.element).drop (D s.2.2 s.1.element).length)[0]? =
          some s.1.identifier := by rw [← ht]; rfl
      simpa using this
    rw [List.foldlM_cons, setCacheIndex_withCaches hS (hids _ (List.getElem_mem hk)) he hid]
    show l.foldlM _ _ = _
    rw [steps_withCaches hids l (stepD D s) (fun s hs => h1 s (List.mem_cons_of_mem _ hs)) ?_]
    · congr 2
      funext k e
      by_cases hke : s.2.2 = k ∧ s.1.element = e
      · obtain ⟨rfl, rfl⟩ := hke
        rw [hat]
        simp [stepD]
      · have : stepsAt (s :: l) k e = stepsAt l k e := by
          unfold stepsAt
          rw [List.filter_cons_of_neg (by simpa using hke)]
        rw [this]
        simp only [stepD]
        rw [if_neg (fun h => hke ⟨h.1.symm, h.2.symm⟩)]
    · intro k S e hS' he'
      have hp' := h2 k S e hS' he'
      by_cases hke : s.2.2 = k ∧ s.1.element = e
      · obtain ⟨rfl, rfl⟩ := hke
        rw [hat] at hp'
        obtain ⟨t, ht⟩ := hp'
        refine ⟨t, ?_⟩
        simp only [stepD, and_self, if_true, List.length_append, List.length_singleton]
        rw [← List.drop_drop, ← ht]
        simp
      · have : stepsAt (s :: l) k e = stepsAt l k e := by
          unfold stepsAt
          rw [List.filter_cons_of_neg (by simpa using hke)]
        rw [this] at hp'
        simp only [stepD]
        rw [if_neg (fun h => hke ⟨h.1.symm, h.2.symm⟩)]
        exact hp'

theorem foldlM_flatMap' {α β γ : Type} (f : γ → β → Option γ) (g : α → List β) :
    ∀ (l : List α) (s : γ), (l.flatMap g).foldlM f s = l.foldlM (fun s a => (g a).foldlM f s) s
  | [], s => rfl
  | a :: l, s => by
    rw [List.flatMap_cons, List.foldlM_append, List.foldlM_cons]
    congr 1
    funext s
    exact foldlM_flatMap' f g l s

/-- The assignments for one element. -/
def stepsOf (cs : List (SFCacheList × ℕ)) : List CacheStep :=
  cs.flatMap fun cj => cj.1.indices.map fun k => (cj.1, cj.2, k)

theorem setCacheIndices_steps (E : SFEnv) (lists : List (List SFCacheList)) (Ss : List SymFnc) :
    setCacheIndices E lists Ss =
      (lists.flatMap fun cs => stepsOf cs.zipIdx).foldlM
        (fun Ss s => setCacheIndex E s.1 s.2.1 Ss s.2.2) Ss := by
  unfold setCacheIndices
  rw [foldlM_flatMap']
  congr 1
  funext Ss cs
  unfold stepsOf
  rw [foldlM_flatMap']
  congr 1
  funext Ss cj
  rw [List.foldlM_map]

theorem filter_eq_of_nodup {l : List ℕ} (h : l.Nodup) (k : ℕ) :
    l.filter (fun i => decide (i = k)) = if k ∈ l then [k] else [] := by
  induction l with
  | nil => simp
  | cons a l ih =>
    rw [List.nodup_cons] at h
    by_cases hk : a = k
    · subst hk
      simp only [List.filter_cons, decide_true, if_true, List.mem_cons, true_or]
      rw [ih h.2, if_neg h.1]
    · simp only [List.filter_cons, hk, decide_false, List.mem_cons]
      rw [ih h.2]
      by_cases hm : k ∈ l
      · simp [hm]
      · simp [hm, Ne.symm hk]

theorem stepsAt_append (l l' : List CacheStep) (k e : ℕ) :
    stepsAt (l ++ l') k e = stepsAt l k e ++ stepsAt l' k e := List.filter_append ..

theorem stepsAt_entry {e : ℕ} {id : CacheId} {is : List ℕ} (hn : is.Nodup) (j k e' : ℕ) :
    stepsAt (is.map fun k => ((⟨e, id, is⟩ : SFCacheList), j, k)) k e' =
      if e = e' ∧ k ∈ is then [(⟨e, id, is⟩, j, k)] else [] := by
  unfold stepsAt
  rw [List.filter_map]
  by_cases he : e = e'
  · subst he
    have := filter_eq_of_nodup hn k
    simp only [Function.comp_def, and_true, true_and]
    rw [this]
    by_cases hk : k ∈ is <;> simp [hk]
  · simp [Function.comp_def, he]

theorem stepsAt_pairUp {e : ℕ} (k e' : ℕ) : ∀ (gs : List CacheGroup) (p : ℕ),
    (∀ g ∈ gs, g.2.Nodup) →
    stepsAt (stepsOf ((pairUp e gs).zipIdx p)) k e' = if e = e' then
      gs.zipIdx.flatMap (fun gp => if k ∈ gp.1.2 then
        [((⟨e, ⟨e, false, gp.1.1⟩, gp.1.2⟩ : SFCacheList), p + 2 * gp.2, k),
          ((⟨e, ⟨e, true, gp.1.1⟩, gp.1.2⟩ : SFCacheList), p + 2 * gp.2 + 1, k)] else [])
      else []
  | [], p, _ => by simp [pairUp, stepsOf, stepsAt]
  | g :: gs, p, h => by
    have hn := h g (List.mem_cons_self ..)
    rw [pairUp_cons, List.zipIdx_cons, List.zipIdx_cons]
    unfold stepsOf
    rw [List.flatMap_cons, List.flatMap_cons, stepsAt_append, stepsAt_append,
      stepsAt_entry hn, stepsAt_entry hn]
    have ih := stepsAt_pairUp (e := e) k e' gs (p + 1 + 1) fun g hg => h g (List.mem_cons_of_mem _ hg)
    unfold stepsOf at ih
    rw [ih]
    by_cases he : e = e'
    · subst he
      simp only [true_and, if_true]
      rw [List.zipIdx_cons, List.flatMap_cons, List.zipIdx_succ, List.flatMap_map]
      have e1 : ∀ q : ℕ, p + 1 + 1 + 2 * q = p + 2 * (q + 1) := fun q => by ring
      simp only [e1]
      by_cases hk : k ∈ g.2 <;> simp [hk]
    · simp [he]

theorem collectIds_some (index : ℕ) : ∀ (ids : List CacheId) (lists : List (List SFCacheList)),
    (∀ id ∈ ids, id.element < lists.length) → ∃ res, ids.foldlM (collectId index) lists = some res
  | [], lists, _ => ⟨lists, rfl⟩
  | id :: ids, lists, h => by
    have h1 := h id (List.mem_cons_self ..)
    rw [List.foldlM_cons]
    unfold collectId
    rw [List.getElem?_eq_getElem h1]
    exact collectIds_some index ids _ fun i hi => by
      rw [List.length_set]; exact h i (List.mem_cons_of_mem _ hi)

theorem collectCacheLists_some {E : SFEnv} : ∀ (Ss : List SymFnc) (lists : List (List SFCacheList)),
    lists.length = E.numElements →
    (∀ S ∈ Ss, ∀ id ∈ S.getCacheIdentifiers E, id.element < E.numElements) →
    ∃ res, Ss.foldlM (fun lists S => (S.getCacheIdentifiers E).foldlM (collectId S.index) lists)
      lists = some res
  | [], lists, _, _ => ⟨lists, rfl⟩
  | S :: Ss, lists, hl, h => by
    obtain ⟨res, hr⟩ := collectIds_some S.index (S.getCacheIdentifiers E) lists (by
      rw [hl]; exact h S (List.mem_cons_self ..))
    rw [List.foldlM_cons, hr]
    exact collectCacheLists_some Ss res (by rw [(collectIds_eq _ _ _ _ hr).1, hl])
      fun T hT => h T (List.mem_cons_of_mem _ hT)

theorem flatMap_unique {α β : Type} (P : α → Prop) [DecidablePred P] (F : α → ℕ → List β) :
    ∀ (l : List α) (n : ℕ), l.Pairwise (fun a b => ¬ (P a ∧ P b)) →
    ((∀ a ∈ l, ¬ P a) ∧ (l.zipIdx n).flatMap (fun gp => if P gp.1 then F gp.1 gp.2 else []) = []) ∨
    ∃ p a, l[p]? = some a ∧ P a ∧
      (l.zipIdx n).flatMap (fun gp => if P gp.1 then F gp.1 gp.2 else []) = F a (n + p)
  | [], n, _ => by left; simp
  | a :: l, n, h => by
    rw [List.pairwise_cons] at h
    rw [List.zipIdx_cons, List.flatMap_cons]
    by_cases hP : P a
    · right
      refine ⟨0, a, rfl, hP, ?_⟩
      simp only [hP, if_true, Nat.add_zero]
      have : (l.zipIdx (n + 1)).flatMap (fun gp => if P gp.1 then F gp.1 gp.2 else []) = [] := by
        rw [List.flatMap_eq_nil_iff]
        rintro ⟨b, q⟩ hb
        rw [if_neg]
        have hb' : b ∈ l := (List.mem_zipIdx hb).2.2 ▸ List.getElem_mem _
        exact fun hPb => h.1 b hb' ⟨hP, hPb⟩
      rw [this, List.append_nil]
    · simp only [hP, if_false, List.nil_append]
      rcases flatMap_unique P F l (n + 1) h.2 with ⟨h1, h2⟩ | ⟨p, b, h1, h2, h3⟩
      · left
        exact ⟨fun b hb => by rcases List.mem_cons.1 hb with rfl | hb; exacts [hP, h1 b hb], h2⟩
      · right
        exact ⟨p + 1, b, by simpa using h1, h2, by rw [h3]; congr 1; ring⟩

theorem stepsAt_range (F : ℕ → List CacheStep) (k e : ℕ)
    (hF : ∀ e' s, s ∈ F e' → s.1.element = e') : ∀ n,
    stepsAt ((List.range n).flatMap F) k e = if e < n then stepsAt (F e) k e else []
  | 0 => by simp [stepsAt]
  | n + 1 => by
    rw [List.range_succ, List.flatMap_append, stepsAt_append, stepsAt_range F k e hF n,
      List.flatMap_singleton]
    by_cases h1 : e < n
    · rw [if_pos h1, if_pos (by omega)]
      have : stepsAt (F n) k e = [] := by
        unfold stepsAt
        rw [List.filter_eq_nil_iff]
        intro s hs
        have := hF n s hs
        simp only [decide_eq_true_eq, not_and]
        intro _; omega
      rw [this, List.append_nil]
    · by_cases h2 : e = n
      · subst h2
        simp
      · rw [if_neg h1, if_neg (by omega), List.nil_append]
        unfold stepsAt
        rw [List.filter_eq_nil_iff]
        intro s hs
        have := hF n s hs
        simp only [decide_eq_true_eq, not_and]
        intro _; omega

/-- The groups which get a cache. -/
noncomputable def cacheGroups (E : SFEnv) (Ss : List SymFnc) (e : ℕ) : List CacheGroup :=
  (groupsOf E e Ss).filter fun g => 1 < g.2.length

/-- What the setup of the caches does. -/
theorem setupCache_spec {E : SFEnv} {Ss : List SymFnc}
    (hidx : ∀ (k : ℕ) (S : SymFnc), Ss[k]? = some S → S.index = k)
    (hcache : ∀ S ∈ Ss, S.cacheIndices = List.replicate E.numElements [])
    (hids : ∀ S ∈ Ss, ∀ id ∈ S.getCacheIdentifiers E, id.element < E.numElements) :
    ∃ D : ℕ → ℕ → List ℕ,
      setupSymmetryFunctionCache E Ss = some (withCaches E.numElements Ss D,
        (List.range E.numElements).map fun e => 2 * (cacheGroups E Ss e).length) ∧
      ∀ (k : ℕ) (S : SymFnc) (e : ℕ), Ss[k]? = some S → e < E.numElements →
        (D k e = [] ∧ ∀ g ∈ cacheGroups E Ss e, k ∉ g.2) ∨
        ∃ p g, (cacheGroups E Ss e)[p]? = some g ∧ k ∈ g.2 ∧ g.1 = S.cacheText E ∧
          S.checkRelevantElement e ∧ D k e = [2 * p, 2 * p + 1] := by
  have hnd : (Ss.map SymFnc.index).Nodup := by
    have : Ss.map SymFnc.index = List.range Ss.length := by
      apply List.ext_getElem (by simp)
      intro i h1 h2
      simp only [List.getElem_map, List.getElem_range]
      exact hidx i _ (List.getElem?_eq_getElem (by simpa using h1))
    rw [this]; exact List.nodup_range
  have hG := fun e => groupsOf_ok (E := E) hnd e
  obtain ⟨res, hres⟩ := collectCacheLists_some Ss (List.replicate E.numElements []) (by simp) hids
  have hres' : collectCacheLists E Ss = some res := hres
  obtain ⟨-, rfl⟩ := collectCacheLists_eq hres'
  have hW : withCaches E.numElements Ss (fun _ _ => []) = Ss := by
    apply List.ext_getElem?
    intro k
    simp only [withCaches, List.getElem?_mapIdx]
    match hk : Ss[k]? with
    | none => rfl
    | some S =>
      have := hcache S (List.mem_of_getElem? hk)
      have h2 : (List.range E.numElements).map (fun _ => ([] : List ℕ)) = S.cacheIndices := by
        rw [this]; apply List.ext_getElem (by simp); intro i h1 h2; simp
      simp only [Option.map_some, h2]
  let F : ℕ → List CacheStep := fun e => stepsOf (pairUp e (cacheGroups E Ss e)).zipIdx
  let steps : List CacheStep := (List.range E.numElements).flatMap F
  have hFe : ∀ e s, s ∈ F e → s.1.element = e ∧ ∃ g ∈ cacheGroups E Ss e, s.2.2 ∈ g.2 := by
    intro e s hs
    obtain ⟨⟨c, j⟩, hc, hs⟩ := List.mem_flatMap.1 hs
    have hc' : c ∈ pairUp e (cacheGroups E Ss e) :=
      (List.mem_zipIdx hc).2.2 ▸ List.getElem_mem _
    obtain ⟨k, hk, rfl⟩ := List.mem_map.1 hs
    obtain ⟨g, hg, hcg⟩ := List.mem_flatMap.1 hc'
    simp only [List.mem_cons, List.not_mem_nil, or_false] at hcg
    rcases hcg with rfl | rfl
    · exact ⟨rfl, g, hg, hk⟩
    · exact ⟨rfl, g, hg, hk⟩
  have hsub : ∀ e, ∀ g ∈ cacheGroups E Ss e, g ∈ groupsOf E e Ss := fun e g hg =>
    (List.mem_filter.1 hg).1
  have hmem : ∀ e, ∀ g ∈ cacheGroups E Ss e, ∀ k ∈ g.2, ∃ S, Ss[k]? = some S ∧
      S.checkRelevantElement e ∧ S.cacheText E = g.1 := by
    intro e g hg k hk
    obtain ⟨S, hS, h1, h2⟩ := (hG e).sound g (hsub e g hg) k hk
    obtain ⟨h3, h4⟩ := List.mem_filter.1 hS
    obtain ⟨i, hi⟩ := List.getElem?_of_mem h3
    have := hidx i S hi
    rw [h1] at this
    subst this
    exact ⟨S, hi, h4, h2⟩
  have hat : ∀ k e, e < E.numElements → stepsAt steps k e =
      (cacheGroups E Ss e).zipIdx.flatMap (fun gp => if k ∈ gp.1.2 then
        [((⟨e, ⟨e, false, gp.1.1⟩, gp.1.2⟩ : SFCacheList), 2 * gp.2, k),
          ((⟨e, ⟨e, true, gp.1.1⟩, gp.1.2⟩ : SFCacheList), 2 * gp.2 + 1, k)] else []) := by
    intro k e he
    rw [stepsAt_range F k e (fun e' s hs => (hFe e' s hs).1), if_pos he]
    rw [stepsAt_pairUp k e (cacheGroups E Ss e) 0 fun g hg => (hG e).nodup g (hsub e g hg),
      if_pos rfl]
    simp only [Nat.zero_add]
  have hpw : ∀ k S e, Ss[k]? = some S → (cacheGroups E Ss e).Pairwise
      (fun a b => ¬ (k ∈ a.2 ∧ k ∈ b.2)) := by
    intro k S e hS
    have h1 : ((cacheGroups E Ss e).map Prod.fst).Nodup :=
      (hG e).keys.sublist (List.filter_sublist.map _)
    have h2 : (cacheGroups E Ss e).Pairwise (fun a b => a.1 ≠ b.1) := by
      rwa [List.Nodup, List.pairwise_map] at h1
    refine h2.imp_of_mem fun {a b} ha hb hab hk => hab ?_
    obtain ⟨S1, e1, -, t1⟩ := hmem e a ha k hk.1
    obtain ⟨S2, e2, -, t2⟩ := hmem e b hb k hk.2
    rw [e1] at e2
    cases e2
    rw [← t1, t2]
  have hcase : ∀ k S e, Ss[k]? = some S → e < E.numElements →
      (stepsAt steps k e = [] ∧ ∀ g ∈ cacheGroups E Ss e, k ∉ g.2) ∨
      ∃ p g, (cacheGroups E Ss e)[p]? = some g ∧ k ∈ g.2 ∧ stepsAt steps k e =
        [((⟨e, ⟨e, false, g.1⟩, g.2⟩ : SFCacheList), 2 * p, k),
          ((⟨e, ⟨e, true, g.1⟩, g.2⟩ : SFCacheList), 2 * p + 1, k)] := by
    intro k S e hS he
    rw [hat k e he]
    rcases flatMap_unique (fun g : CacheGroup => k ∈ g.2) (fun g p =>
      [((⟨e, ⟨e, false, g.1⟩, g.2⟩ : SFCacheList), 2 * p, k),
        ((⟨e, ⟨e, true, g.1⟩, g.2⟩ : SFCacheList), 2 * p + 1, k)]) (cacheGroups E Ss e) 0
      (hpw k S e hS) with ⟨h1, h2⟩ | ⟨p, g, h1, h2, h3⟩
    · exact Or.inl ⟨h2, h1⟩
    · refine Or.inr ⟨p, g, h1, h2, ?_⟩
      rw [h3]; simp only [Nat.zero_add]
  refine ⟨fun k e => (stepsAt steps k e).map fun s => s.2.1, ?_, ?_⟩
  · have hlists : ((List.range E.numElements).map fun e => pairUp e (groupsOf E e Ss)).map
        removeSingle = (List.range E.numElements).map fun e => pairUp e (cacheGroups E Ss e) := by
      rw [List.map_map]
      exact List.map_congr_left fun e _ => removeSingle_pairUp e _
    unfold setupSymmetryFunctionCache
    rw [hres']
    show Option.bind (setCacheIndices E (((List.range E.numElements).map
      fun e => pairUp e (groupsOf E e Ss)).map removeSingle) Ss) _ = _
    rw [hlists, setCacheIndices_steps, List.flatMap_map]
    have := steps_withCaches (E := E) (Ss := Ss) hids steps (fun _ _ => []) (by
      intro s hs
      obtain ⟨e, he, hs⟩ := List.mem_flatMap.1 hs
      obtain ⟨h1, g, hg, h2⟩ := hFe e s hs
      obtain ⟨S, hS, -, -⟩ := hmem e g hg _ h2
      exact ⟨by rw [h1]; exact List.mem_range.1 he, (List.getElem?_eq_some_iff.1 hS).1⟩) (by
      intro k S e hS he
      rcases hcase k S e hS he with ⟨h1, -⟩ | ⟨p, g, h1, h2, h3⟩
      · rw [h1]; exact List.nil_prefix
      · rw [h3]
        obtain ⟨S', e1, r1, t1⟩ := hmem e g (List.mem_of_getElem? h1) k h2
        rw [hS] at e1
        cases e1
        rw [idsAt_eq E S he, if_pos r1, t1]
        exact List.prefix_rfl)
    rw [hW] at this
    show Option.bind (steps.foldlM _ Ss) _ = _
    rw [this]
    simp only [List.nil_append, Option.bind_some, Option.some.injEq, Prod.mk.injEq, true_and,
      List.map_map]
    exact List.map_congr_left fun e _ => length_pairUp e _
  · intro k S e hS he
    rcases hcase k S e hS he with ⟨h1, h2⟩ | ⟨p, g, h1, h2, h3⟩
    · left
      exact ⟨by simp only [h1, List.map_nil], h2⟩
    · right
      obtain ⟨S', e1, r1, t1⟩ := hmem e g (List.mem_of_getElem? h1) k h2
      rw [hS] at e1
      cases e1
      exact ⟨p, g, h1, h2, t1.symm, r1, by simp only [h3]; rfl⟩

/-! ### Meaning of the texts -/

theorem cacheText_exp {E : SFEnv} {S : SymFnc} (h : S.IsExp) : S.cacheText E =
    S.subtype ++ " alpha = ".toList ++ E.fmt S.cutoffAlpha ++ " rc = ".toList ++
      E.fmt (S.rc / S.convLength) := by
  unfold SymFnc.cacheText
  rcases h with h | h | h | h | h <;> rw [h] <;> simp

theorem cacheText_comp {E : SFEnv} {S : SymFnc} (h : ¬ S.IsExp) : S.cacheText E =
    S.subtype ++ " rl = ".toList ++ E.fmt (S.rl / S.convLength) ++ " rc = ".toList ++
      E.fmt (S.rc / S.convLength) := by
  unfold SymFnc.IsExp at h
  unfold SymFnc.cacheText
  rcases hk : S.kind <;> simp [hk] at h <;> simp

theorem cacheText_inj {E : SFEnv} {Ss : List SymFnc} (hE : E.Prints Ss) {c α : ℝ} {t : CutoffType}
    (hc : c ≠ 0) {S T : SymFnc} (hS : S ∈ Ss) (hT : T ∈ Ss) (cS : S.Consistent E c t α)
    (cT : T.Consistent E c t α) (h : S.cacheText E = T.cacheText E) :
    S.cachedFunction = T.cachedFunction := by
  have hrc : ∀ x y : ℝ, x / S.convLength = y / T.convLength → x = y := by
    intro x y h
    rw [cS.conv, cT.conv] at h
    exact (div_left_inj' hc).1 h
  by_cases h1 : S.IsExp <;> by_cases h2 : T.IsExp
  · rw [cacheText_exp h1, cacheText_exp h2] at h
    obtain ⟨-, a⟩ := List.append_inj' h (by rw [hE.length, hE.length])
    have e := hrc _ _ (hE.rc S hS T hT a)
    have f1 := cS.fc h1
    have f2 := cT.fc h2
    have key : ∀ U : SymFnc, U.IsExp → U.cachedFunction = U.fc.fdf := by
      intro U hU
      unfold SymFnc.cachedFunction
      rcases hU with h | h | h | h | h <;> rw [h]
    rw [key S h1, key T h2, f1, f2, e]
  · exfalso
    rw [cacheText_exp h1, cacheText_comp h2] at h
    obtain ⟨a, -⟩ := List.append_inj' h (by rw [hE.length, hE.length])
    obtain ⟨a, -⟩ := List.append_inj' a rfl
    obtain ⟨a, -⟩ := List.append_inj' a (by rw [hE.length, hE.length])
    have := congrArg (fun l : Str => l.reverse[3]?) a
    simp at this
  · exfalso
    rw [cacheText_comp h1, cacheText_exp h2] at h
    obtain ⟨a, -⟩ := List.append_inj' h (by rw [hE.length, hE.length])
    obtain ⟨a, -⟩ := List.append_inj' a rfl
    obtain ⟨a, -⟩ := List.append_inj' a (by rw [hE.length, hE.length])
    have := congrArg (fun l : Str => l.reverse[3]?) a
    simp at this
  · rw [cacheText_comp h1, cacheText_comp h2] at h
    obtain ⟨a, b⟩ := List.append_inj' h (by rw [hE.length, hE.length])
    have e := hrc _ _ (hE.rc S hS T hT b)
    obtain ⟨a, -⟩ := List.append_inj' a rfl
    obtain ⟨a, b⟩ := List.append_inj' a (by rw [hE.length, hE.length])
    have e' := hrc _ _ (hE.rl S hS T hT b)
    obtain ⟨a, -⟩ := List.append_inj' a rfl
    obtain ⟨-, core, k1, k2⟩ := cS.cr h1
    obtain ⟨-, core', l1, l2⟩ := cT.cr h2
    rw [a, l1] at k1
    cases k1
    have key : ∀ U : SymFnc, ¬ U.IsExp → U.cachedFunction = U.cr.fdf := by
      intro U hU
      unfold SymFnc.IsExp at hU
      unfold SymFnc.cachedFunction
      rcases hk : U.kind <;> simp [hk] at hU <;> rfl
    rw [key S h1, key T h2, k2, l2, e, e']

/-- The slots of an element. -/
noncomputable def layoutOf (E : SFEnv) (Ss : List SymFnc) : CacheLayout := fun e =>
  (cacheGroups E Ss e).zipIdx.map fun gp => ⟨2 * gp.2, 2 * gp.2 + 1,
    match gp.1.2.head?.bind fun k => Ss[k]? with
    | some S => S.cachedFunction
    | none => fun _ => (0, 0)⟩

theorem mem_layoutOf {E : SFEnv} {Ss : List SymFnc} {e : ℕ} {c : CacheSlot}
    (h : c ∈ layoutOf E Ss e) : ∃ p g, (cacheGroups E Ss e)[p]? = some g ∧
      c = ⟨2 * p, 2 * p + 1, match g.2.head?.bind fun k => Ss[k]? with
        | some S => S.cachedFunction
        | none => fun _ => (0, 0)⟩ := by
  obtain ⟨⟨g, p⟩, h1, rfl⟩ := List.mem_map.1 h
  obtain ⟨h2, h3, h4⟩ := List.mem_zipIdx h1
  simp only [Nat.sub_zero] at h4
  exact ⟨p, g, by rw [h4]; exact List.getElem?_eq_getElem _, rfl⟩

theorem layoutOf_disjoint (E : SFEnv) (Ss : List SymFnc) : (layoutOf E Ss).Disjoint := by
  intro e c hc
  obtain ⟨p, g, h1, rfl⟩ := mem_layoutOf hc
  refine ⟨by simp, fun c' hc' => ?_⟩
  obtain ⟨p', g', h1', rfl⟩ := mem_layoutOf hc'
  by_cases hp : p = p'
  · subst hp
    rw [h1] at h1'
    cases h1'
    exact Or.inl rfl
  · right
    simp only
    omega

theorem layoutOf_lt {E : SFEnv} {Ss : List SymFnc} {e : ℕ} {c : CacheSlot}
    (h : c ∈ layoutOf E Ss e) : c.val < 2 * (cacheGroups E Ss e).length ∧
      c.der < 2 * (cacheGroups E Ss e).length := by
  obtain ⟨p, g, h1, rfl⟩ := mem_layoutOf h
  have := (List.getElem?_eq_some_iff.1 h1).1
  simp only
  omega

theorem exists_ne_of_one_lt {l : List ℕ} (hn : l.Nodup) (h : 1 < l.length) (k : ℕ) :
    ∃ k' ∈ l, k' ≠ k := by
  match l, h with
  | a :: b :: l, _ =>
    by_cases ha : a = k
    · refine ⟨b, by simp, ?_⟩
      rintro rfl
      rw [List.nodup_cons] at hn
      exact hn.1 (by simp [ha])
    · exact ⟨a, by simp, ha⟩

theorem one_lt_of_two_mem {l : List ℕ} {k k' : ℕ} (h : k ∈ l) (h' : k' ∈ l) (hne : k ≠ k') :
    1 < l.length := by
  match l with
  | [] => cases h
  | [a] => simp at h h'; omega
  | a :: b :: l => simp

/-- The caches after the setup are used consistently. -/
theorem setupCache_slots {E : SFEnv} {Ss Ts : List SymFnc} {sizes : List ℕ}
    (hidx : ∀ (k : ℕ) (S : SymFnc), Ss[k]? = some S → S.index = k)
    (hcache : ∀ S ∈ Ss, S.cacheIndices = List.replicate E.numElements [])
    (hids : ∀ S ∈ Ss, ∀ id ∈ S.getCacheIdentifiers E, id.element < E.numElements)
    (hfun : ∀ S ∈ Ss, ∀ T ∈ Ss, S.cacheText E = T.cacheText E →
      S.cachedFunction = T.cachedFunction)
    (h : setupSymmetryFunctionCache E Ss = some (Ts, sizes)) :
    List.Forall₂ (fun S T : SymFnc => ∃ C : List (List ℕ), C.length = E.numElements ∧
      T = { S with cacheIndices := C }) Ss Ts ∧
    sizes.length = E.numElements ∧
    (∀ (k : ℕ) (S T : SymFnc) (e : ℕ) (ci : List ℕ), Ss[k]? = some S → Ts[k]? = some T →
      S.checkRelevantElement e → T.cacheIndices[e]? = some ci →
      (ci = [] ↔ ¬ S.SharesCache E Ss e)) ∧
    ∃ L : CacheLayout, L.Disjoint ∧
      (∀ T ∈ Ts, ∀ e ci, T.checkRelevantElement e → T.cacheIndices[e]? = some ci →
        ci = [] ∨ ∃ c ∈ L e, ci = [c.val, c.der] ∧ c.fdf = T.cachedFunction) ∧
      ∀ e n, sizes[e]? = some n → ∀ c ∈ L e, c.val < n ∧ c.der < n := by
  obtain ⟨D, h1, h2⟩ := setupCache_spec hidx hcache hids
  rw [h] at h1
  simp only [Option.some.injEq, Prod.mk.injEq] at h1
  obtain ⟨rfl, rfl⟩ := h1
  have hnd : (Ss.map SymFnc.index).Nodup := by
    have : Ss.map SymFnc.index = List.range Ss.length := by
      apply List.ext_getElem (by simp)
      intro i h1 h2
      simp only [List.getElem_map, List.getElem_range]
      exact hidx i _ (List.getElem?_eq_getElem (by simpa using h1))
    rw [this]; exact List.nodup_range
  have hG := fun e => groupsOf_ok (E := E) hnd e
  have hget : ∀ k e ci, ((List.range E.numElements).map (D k))[e]? = some ci →
      e < E.numElements ∧ ci = D k e := by
    intro k e ci hci
    have he : e < E.numElements := by
      have := (List.getElem?_eq_some_iff.1 hci).1
      simpa using this
    simp [he] at hci
    exact ⟨he, hci.symm⟩
  have hshare : ∀ (k : ℕ) (S : SymFnc) (e : ℕ), Ss[k]? = some S → e < E.numElements →
      S.checkRelevantElement e → (D k e = [] ↔ ¬ S.SharesCache E Ss e) := by
    intro k S e hS he hr
    have hSm := List.mem_of_getElem? hS
    have hSi := hidx k S hS
    rcases h2 k S e hS he with ⟨a1, a2⟩ | ⟨p, g, b1, b2, b3, b4, b5⟩
    · refine ⟨fun _ hsh => ?_, fun _ => a1⟩
      obtain ⟨-, T, hT, hne, hTr, htx⟩ := hsh
      obtain ⟨g, hg, hg1, hg2⟩ := (hG e).complete S (List.mem_filter.2 ⟨hSm, hr⟩)
      obtain ⟨g', hg', hg1', hg2'⟩ := (hG e).complete T (List.mem_filter.2 ⟨hT, hTr⟩)
      have : g = g' := List.inj_on_of_nodup_map (hG e).keys hg hg' (by rw [hg1, hg1', htx])
      subst this
      refine a2 g (List.mem_filter.2 ⟨hg, ?_⟩) (hSi ▸ hg2)
      simpa using one_lt_of_two_mem hg2 hg2' (Ne.symm hne)
    · refine ⟨fun hD => ?_, fun hsh => ?_⟩
      · rw [b5] at hD; cases hD
      · exfalso
        refine hsh ⟨hr, ?_⟩
        obtain ⟨hg, hlen⟩ := List.mem_filter.1 (List.mem_of_getElem? b1)
        obtain ⟨k', hk', hne⟩ := exists_ne_of_one_lt ((hG e).nodup g hg) (by simpa using hlen) k
        obtain ⟨T, hT, hTi, hTx⟩ := (hG e).sound g hg k' hk'
        obtain ⟨hT1, hT2⟩ := List.mem_filter.1 hT
        exact ⟨T, hT1, by rw [hTi, hSi]; exact hne, hT2, by rw [hTx, b3]⟩
  refine ⟨?_, by simp, ?_, layoutOf E Ss, layoutOf_disjoint E Ss, ?_, ?_⟩
  · refine List.forall₂_iff_get.2 ⟨by simp [withCaches], fun i h1 h2 => ?_⟩
    refine ⟨(List.range E.numElements).map (D i), by simp, ?_⟩
    simp [withCaches]
  · intro k S T e ci hS hT hr hci
    simp only [withCaches, List.getElem?_mapIdx, hS, Option.map_some, Option.some.injEq] at hT
    subst hT
    obtain ⟨he, rfl⟩ := hget k e ci hci
    exact hshare k S e hS he hr
  · intro T hT
    obtain ⟨k, hk⟩ := List.getElem?_of_mem hT
    simp only [withCaches, List.getElem?_mapIdx] at hk
    match hS : Ss[k]? with
    | none => rw [hS] at hk; cases hk
    | some S =>
      rw [hS] at hk
      simp only [Option.map_some, Option.some.injEq] at hk
      subst hk
      intro e ci hr hci
      obtain ⟨he, rfl⟩ := hget k e ci hci
      rcases h2 k S e hS he with ⟨a1, a2⟩ | ⟨p, g, b1, b2, b3, b4, b5⟩
      · exact Or.inl a1
      · right
        refine ⟨⟨2 * p, 2 * p + 1, match g.2.head?.bind fun k => Ss[k]? with
          | some S => S.cachedFunction
          | none => fun _ => (0, 0)⟩, ?_, b5, ?_⟩
        · refine List.mem_map.2 ⟨(g, p), ?_, rfl⟩
          rw [List.mem_zipIdx_iff_getElem?]
          exact b1
        · have hg := (List.mem_filter.1 (List.mem_of_getElem? b1)).1
          match hh : g.2.head? with
          | none =>
            rw [List.head?_eq_none_iff] at hh
            rw [hh] at b2; cases b2
          | some k' =>
            have hk' : k' ∈ g.2 := List.mem_of_mem_head? hh
            obtain ⟨T, hT, hTi, hTx⟩ := (hG e).sound g hg k' hk'
            obtain ⟨hT1, hT2⟩ := List.mem_filter.1 hT
            obtain ⟨i, hi⟩ := List.getElem?_of_mem hT1
            have := hidx i T hi
            rw [hTi] at this
            subst this
            simp only [Option.bind_some, hi]
            have := hfun T hT1 S (List.mem_of_getElem? hS) (by rw [hTx, b3])
            rw [this]; rfl
  · intro e n hn c hc
    have he : e < E.numElements := by
      have := (List.getElem?_eq_some_iff.1 hn).1
      simpa using this
    simp [he] at hn
    rw [← hn]
    exact layoutOf_lt hc

/-- The caches after the setup are used consistently. -/
theorem setupCache_use {E : SFEnv} {Ss Ts : List SymFnc} {sizes : List ℕ}
    (hidx : ∀ (k : ℕ) (S : SymFnc), Ss[k]? = some S → S.index = k)
    (hcache : ∀ S ∈ Ss, S.cacheIndices = List.replicate E.numElements [])
    (hids : ∀ S ∈ Ss, ∀ id ∈ S.getCacheIdentifiers E, id.element < E.numElements)
    (hfun : ∀ S ∈ Ss, ∀ T ∈ Ss, S.cacheText E = T.cacheText E →
      S.cachedFunction = T.cachedFunction)
    (huni : ∀ S ∈ Ss, S.IsExp → S.IsAng → ∀ e e', e < E.numElements → e' < E.numElements →
      S.checkRelevantElement e → S.checkRelevantElement e' →
      (S.SharesCache E Ss e ↔ S.SharesCache E Ss e'))
    (h : setupSymmetryFunctionCache E Ss = some (Ts, sizes)) :
    ∃ L : CacheLayout, L.Disjoint ∧ (∀ T ∈ Ts, T.CacheUse L) ∧
      ∀ e n, sizes[e]? = some n → ∀ c ∈ L e, c.val < n ∧ c.der < n := by
  obtain ⟨h1, h2, h3, L, h4, h5, h6⟩ := setupCache_slots hidx hcache hids hfun h
  refine ⟨L, h4, fun T hT => ⟨h5 T hT, ?_⟩, h6⟩
  intro hx ha e e' ci ci' hr hr' hci hci'
  obtain ⟨k, hk⟩ := List.getElem?_of_mem hT
  have hkT := (List.getElem?_eq_some_iff.1 hk).1
  have hkS : k < Ss.length := by rw [h1.length_eq]; exact hkT
  obtain ⟨C, hC, e0⟩ := (List.forall₂_iff_get.1 h1).2 k hkS hkT
  simp only [List.get_eq_getElem] at e0
  have hS : Ss[k]? = some Ss[k] := List.getElem?_eq_getElem hkS
  rw [List.getElem?_eq_getElem hkT, Option.some.injEq] at hk
  rw [hk] at e0
  have hx' : Ss[k].IsExp := by rw [e0] at hx; exact hx
  have ha' : Ss[k].IsAng := by rw [e0] at ha; exact ha
  have hr1 : Ss[k].checkRelevantElement e := by rw [e0] at hr; exact hr
  have hr1' : Ss[k].checkRelevantElement e' := by rw [e0] at hr'; exact hr'
  have hlt : ∀ e ci, T.cacheIndices[e]? = some ci → e < E.numElements := by
    intro e ci h
    have := (List.getElem?_eq_some_iff.1 h).1
    rw [e0] at this
    rw [← hC]; exact this
  have hk' : Ts[k]? = some T := by rw [List.getElem?_eq_getElem hkT, hk]
  rw [h3 k _ T e ci hS hk' hr1 hci, h3 k _ T e' ci' hS hk' hr1' hci',
    huni _ (List.getElem_mem hkS) hx' ha' e e' (hlt e ci hci) (hlt e' ci' hci') hr1 hr1']

end N2P2
