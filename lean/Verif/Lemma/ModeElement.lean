import Verif.Lemma.SymFncMemory
import Verif.Lemma.SymFncCache
import Verif.Lemma.SymFncUnits
import Verif.Model.Mode

/-! The symmetry functions of an element after the setup. -/

namespace N2P2

/-- Parameters shared by the functions of an element, and objects computed from the parameters of a
function. -/
structure SymFnc.GroupData (c : ℝ) (t : CutoffType) (α : ℝ) (S : SymFnc) : Prop where
  type : S.sc.type = S.kind.number
  conv : S.convLength = c
  cutoff : S.IsExp → S.cutoffType = t ∧ S.cutoffAlpha = α ∧ S.fc = mkCutoff t S.rc α ∧ 0 ≤ α ∧ α < 1
  cr : ¬ S.IsExp → ∃ core : CoreType × Bool, SymFnc.compactCore S.subtype = some core ∧
    S.cr = mkCompact ⟨core.1, core.2⟩ S.rl S.rc
  radians : ¬ S.IsExp → S.IsAng → S.angleLeftRadians = S.angleLeft * Real.pi / 180 ∧
    S.angleRightRadians = S.angleRight * Real.pi / 180

/-- What the evaluation needs from an element. -/
structure ElementData.OK (n : ℕ) (e : ElementData) : Prop where
  index : ∀ (k : ℕ) (S : SymFnc), e.symmetryFunctions[k]? = some S → S.index = k
  valid : ∀ S ∈ e.symmetryFunctions, S.Valid
  scaled : ∀ S ∈ e.symmetryFunctions, S.Scaled
  table : e.symmetryFunctionTable = (List.range n).map (relevantIndices e.symmetryFunctions)
  position : ∀ (k : ℕ) (S : SymFnc) (e' : ℕ), e.symmetryFunctions[k]? = some S → e' < n →
    S.checkRelevantElement e' →
    S.indexPerElement[e']? = some (memoryPosition e.symmetryFunctions k e')
  cacheLength : ∀ S ∈ e.symmetryFunctions, S.cacheIndices.length = n
  e1 : ∀ S ∈ e.symmetryFunctions, S.e1 < n
  caches : ∃ L : CacheLayout, L.Disjoint ∧ (∀ S ∈ e.symmetryFunctions, S.CacheUse L) ∧
    ∀ e' m, e.cacheSizes[e']? = some m → ∀ c ∈ L e', c.val < m ∧ c.der < m
  sizes : e.cacheSizes.length = n
  group : ∃ c t α, ∀ S ∈ e.symmetryFunctions, S.GroupData c t α

/-- `T` with other tables and another scaling. -/
structure SymFnc.SameCore (T S : SymFnc) : Prop where
  core : S = { T with
    indexPerElement := S.indexPerElement
    cacheIndices := S.cacheIndices
    sc := S.sc }
  index : S.sc.index = T.sc.index
  ec : S.sc.ec = T.sc.ec
  type : S.sc.type = T.sc.type

namespace SymFnc.SameCore

variable {T S : SymFnc} (h : SymFnc.SameCore T S)
include h

theorem relevant (e : ℕ) : S.checkRelevantElement e = T.checkRelevantElement e := by
  rw [h.core]; rfl

theorem text (E : SFEnv) : S.cacheText E = T.cacheText E := by
  rw [h.core]; rfl

theorem isExp : S.IsExp ↔ T.IsExp := by
  rw [h.core]; exact Iff.rfl

theorem isAng : S.IsAng ↔ T.IsAng := by
  rw [h.core]; exact Iff.rfl

theorem rc : S.rc = T.rc := by rw [h.core]
theorem rl : S.rl = T.rl := by rw [h.core]
theorem conv : S.convLength = T.convLength := by rw [h.core]
theorem e1 : S.e1 = T.e1 := by rw [h.core]

theorem valid (hT : T.Valid) : S.Valid := by
  rw [h.core]
  exact ⟨hT.rc_pos, hT.fc, hT.cr, hT.ca, hT.zeta, hT.pow⟩

theorem groupData {c α : ℝ} {t : CutoffType} (hT : T.GroupData c t α) : S.GroupData c t α := by
  have h1 := h.type
  have h2 := h.core
  generalize S.indexPerElement = x at h2
  generalize S.cacheIndices = y at h2
  generalize S.sc = z at h1 h2
  subst h2
  exact ⟨h1.trans hT.type, hT.conv, hT.cutoff, hT.cr, hT.radians⟩

theorem sensible (hS : S.Sensible) : T.Sensible := by
  rw [h.core] at hS
  exact hS

theorem trans {U : SymFnc} (h' : SymFnc.SameCore S U) : SymFnc.SameCore T U :=
  ⟨by rw [h'.core, h.core], h'.index.trans h.index, h'.ec.trans h.ec, h'.type.trans h.type⟩

end SymFnc.SameCore

theorem sameCore_relevantIndices {Ts Ss : List SymFnc} (h : List.Forall₂ SymFnc.SameCore Ts Ss)
    (e : ℕ) : relevantIndices Ss e = relevantIndices Ts e := by
  unfold relevantIndices
  induction h with
  | nil => rfl
  | cons h1 _ ih =>
    rw [List.filter_cons, List.filter_cons, h1.relevant]
    split
    · rw [List.map_cons, List.map_cons, ih]
      congr 1
      exact h1.index
    · exact ih

theorem forall2_take {α β : Type} {R : α → β → Prop} {l : List α} {m : List β}
    (h : List.Forall₂ R l m) (k : ℕ) : List.Forall₂ R (l.take k) (m.take k) := by
  induction h generalizing k with
  | nil => simp
  | cons h1 _ ih =>
    cases k with
    | zero => simp
    | succ k => simpa using ⟨h1, ih k⟩

theorem forall2_getElem? {α β : Type} {R : α → β → Prop} {l : List α} {m : List β}
    (h : List.Forall₂ R l m) {k : ℕ} {b : β} (hb : m[k]? = some b) :
    ∃ a, l[k]? = some a ∧ R a b := by
  induction h generalizing k with
  | nil => simp at hb
  | cons h1 _ ih =>
    cases k with
    | zero => simp at hb; subst hb; exact ⟨_, rfl, h1⟩
    | succ k => exact ih (by simpa using hb)

theorem forall2_getElem?' {α β : Type} {R : α → β → Prop} {l : List α} {m : List β}
    (h : List.Forall₂ R l m) {k : ℕ} {a : α} (hb : l[k]? = some a) :
    ∃ b, m[k]? = some b ∧ R a b := by
  induction h generalizing k with
  | nil => simp at hb
  | cons h1 _ ih =>
    cases k with
    | zero => simp at hb; subst hb; exact ⟨_, rfl, h1⟩
    | succ k => exact ih (by simpa using hb)

theorem sameCore_shares {E : SFEnv} {Ts Ss : List SymFnc} (h : List.Forall₂ SymFnc.SameCore Ts Ss)
    {T S : SymFnc} (hTS : SymFnc.SameCore T S) (e : ℕ) :
    T.SharesCache E Ts e ↔ S.SharesCache E Ss e := by
  unfold SymFnc.SharesCache
  rw [hTS.relevant, hTS.text]
  refine and_congr_right fun _ => ⟨?_, ?_⟩
  · rintro ⟨U, hU, h1, h2, h3⟩
    obtain ⟨k, hk⟩ := List.getElem?_of_mem hU
    obtain ⟨V, hV, hUV⟩ := forall2_getElem?' h hk
    refine ⟨V, List.mem_of_getElem? hV, ?_, ?_, ?_⟩
    · show V.sc.index ≠ S.sc.index
      rw [hUV.index, hTS.index]; exact h1
    · rw [hUV.relevant]; exact h2
    · rw [hUV.text]; exact h3
  · rintro ⟨V, hV, h1, h2, h3⟩
    obtain ⟨k, hk⟩ := List.getElem?_of_mem hV
    obtain ⟨U, hU, hUV⟩ := forall2_getElem? h hk
    refine ⟨U, List.mem_of_getElem? hU, ?_, ?_, ?_⟩
    · intro h4
      apply h1
      show V.sc.index = S.sc.index
      rw [hUV.index, hTS.index]; exact h4
    · rw [hUV.relevant] at h2; exact h2
    · rw [hUV.text] at h3; exact h3

theorem setScaling_forall2 {sc : ScalingSetup} {Us Ss : List SymFnc}
    (h : setScaling sc Us = some Ss) :
    List.Forall₂ (fun U S => ∃ s l, S = { U with sc := s } ∧
      setScalingType U.sc sc.args.1 l sc.args.2.1 sc.args.2.2 = some s) Us Ss := by
  unfold setScaling at h
  have key : ∀ (Us Ss : List SymFnc) (i : ℕ), (Us.zipIdx i).mapM (fun p => do
      let l ← sc.line p.2 p.1
      let s ← setScalingType p.1.sc sc.args.1 l sc.args.2.1 sc.args.2.2
      some { p.1 with sc := s }) = some Ss →
      List.Forall₂ (fun U S => ∃ s l, S = { U with sc := s } ∧
        setScalingType U.sc sc.args.1 l sc.args.2.1 sc.args.2.2 = some s) Us Ss := by
    intro Us
    induction Us with
    | nil => intro Ss i h; simp at h; subst h; exact .nil
    | cons U Us ih =>
      intro Ss i h
      rw [List.zipIdx_cons, List.mapM_cons] at h
      obtain ⟨S, h1, h⟩ := Option.bind_eq_some_iff.1 h
      obtain ⟨Ss', h2, h⟩ := Option.bind_eq_some_iff.1 h
      obtain ⟨l, -, h1⟩ := Option.bind_eq_some_iff.1 h1
      obtain ⟨s, h3, h1⟩ := Option.bind_eq_some_iff.1 h1
      cases h
      cases h1
      exact .cons ⟨s, l, rfl, h3⟩ (ih _ _ h2)
  exact key _ _ _ h

theorem setScalingType_index {old s : SymFncScaling} {t : ScalingType} {l : StatisticsLine}
    {x y : ℝ} (h : setScalingType old t l x y = some s) : s.index = old.index ∧ s.ec = old.ec ∧
    s.type = old.type := by
  unfold setScalingType at h
  split at h
  · cases h
  · cases h; exact ⟨rfl, rfl, rfl⟩

/-- An element which has been set up is ready for the evaluation. -/
theorem SetupElement.ok {E : SFEnv} (hE : E.OK) {lines : List (List Str)} {conv : Option ℝ}
    (hconv : conv.getD 1 ≠ 0) {t : CutoffType} {α : ℝ} {sc : ScalingSetup} {e : ElementData}
    (h : SetupElement E lines conv t α sc e) (hp : E.Prints e.symmetryFunctions)
    (hs : ∀ S ∈ e.symmetryFunctions, S.Sensible) (hu : UniformCaches E e.symmetryFunctions) :
    e.OK E.numElements := by
  obtain ⟨Ts, Us, h1, h2, h3, h4⟩ := h
  obtain ⟨ls, -, -, h5⟩ := setupSymmetryFunctions_iff h1
  have hcons : ∀ (i : ℕ) (T : SymFnc), Ts[i]? = some T → SymFnc.Consistent E (conv.getD 1) t α T ∧
      (T.IsExp → 0 ≤ α ∧ α < 1) ∧ T.index = i := by
    intro i T hT
    obtain ⟨tok, -, h6⟩ := h5 i T hT
    exact h6.consistent
  have hlen : ∀ S ∈ Ts, S.indexPerElement.length = E.numElements := by
    intro S hS
    obtain ⟨i, hi⟩ := List.getElem?_of_mem hS
    rw [(hcons i S hi).1.index, List.length_replicate]
  rw [setupMemory_eq hlen] at h2 h3
  simp only at h2 h3
  set Vs := Ts.mapIdx fun k S => ({ S with
    indexPerElement := S.indexPerElement.mapIdx fun e x =>
      if S.checkRelevantElement e then memoryPosition Ts k e else x } : SymFnc) with hVs
  have hV : ∀ (k : ℕ) (V : SymFnc), Vs[k]? = some V → ∃ T, Ts[k]? = some T ∧
      V = { T with indexPerElement := T.indexPerElement.mapIdx fun e x =>
        if T.checkRelevantElement e then memoryPosition Ts k e else x } := by
    intro k V hV
    rw [hVs, List.getElem?_mapIdx] at hV
    obtain ⟨T, hT, hV⟩ := Option.map_eq_some_iff.1 hV
    exact ⟨T, hT, hV.symm⟩
  have hTV : List.Forall₂ SymFnc.SameCore Ts Vs := by
    rw [List.forall₂_iff_get]
    refine ⟨by simp [hVs], fun i hi hi' => ?_⟩
    obtain ⟨T, hT, e⟩ := hV i _ (List.getElem?_eq_getElem hi')
    have hT' : Ts[i] = T := Option.some.inj ((List.getElem?_eq_getElem hi).symm.trans hT)
    simp only [List.get_eq_getElem]
    rw [e, hT']
    exact ⟨rfl, rfl, rfl, rfl⟩
  have hVidx : ∀ (k : ℕ) (S : SymFnc), Vs[k]? = some S → S.index = k := by
    intro k S hS
    obtain ⟨T, hT, rfl⟩ := hV k S hS
    exact (hcons k T hT).2.2
  have hVcache : ∀ S ∈ Vs, S.cacheIndices = List.replicate E.numElements [] := by
    intro S hS
    obtain ⟨k, hk⟩ := List.getElem?_of_mem hS
    obtain ⟨T, hT, rfl⟩ := hV k S hk
    exact (hcons k T hT).1.cache
  have he : ∀ (T : SymFnc), T ∈ Ts → T.e1 < E.numElements ∧
      ∀ id ∈ T.getCacheIdentifiers E, id.element < E.numElements := by
    intro T hT
    obtain ⟨i, hi⟩ := List.getElem?_of_mem hT
    have c := (hcons i T hi).1
    have hb : ∀ x, x < E.numElements → ∀ id ∈ ([⟨x, false, T.cacheText E⟩, ⟨x, true, T.cacheText E⟩] :
        List CacheId), id.element < E.numElements := by
      intro x hx id hid
      simp only [List.mem_cons, List.not_mem_nil, or_false] at hid
      rcases hid with rfl | rfl <;> exact hx
    have hall : ∀ id ∈ (List.range E.numElements).flatMap (fun e' =>
      ([⟨e', false, T.cacheText E⟩, ⟨e', true, T.cacheText E⟩] : List CacheId)),
        id.element < E.numElements := by
      intro id hid
      obtain ⟨x, hx, hid⟩ := List.mem_flatMap.1 hid
      exact hb x (List.mem_range.1 hx) id hid
    have key : ∀ k, T.kind = k → T.e1 < E.numElements ∧
        ∀ id ∈ T.getCacheIdentifiers E, id.element < E.numElements := by
      intro k hk
      unfold SymFnc.getCacheIdentifiers
      cases k <;> simp only [hk]
      case ExpRad | CompRad =>
        obtain ⟨s, hs⟩ := c.elements.1 (by simp [hk])
        exact ⟨hE.lt _ _ hs, hb _ (hE.lt _ _ hs)⟩
      case ExpAngn | ExpAngw | CompAngn | CompAngw =>
        obtain ⟨⟨s, hs⟩, s', hs'⟩ := c.elements.2 (by simp [hk])
        refine ⟨hE.lt _ _ hs, fun id hid => ?_⟩
        rw [List.mem_append] at hid
        rcases hid with hid | hid
        · exact hb _ (hE.lt _ _ hs) id hid
        · split at hid
          · exact hb _ (hE.lt _ _ hs') id hid
          · cases hid
      all_goals
        exact ⟨by rw [c.other (by simp [hk])]; exact hE.pos, hall⟩
    exact key _ rfl
  have hVids : ∀ S ∈ Vs, ∀ id ∈ S.getCacheIdentifiers E, id.element < E.numElements := by
    intro S hS
    obtain ⟨k, hk⟩ := List.getElem?_of_mem hS
    obtain ⟨T, hT, rfl⟩ := hV k S hk
    exact (he T (List.mem_of_getElem? hT)).2
  have hUS := setScaling_forall2 h4
  -- caches, structure of the result
  obtain ⟨D, hD, -⟩ := setupCache_spec hVidx hVcache hVids
  have hVU : List.Forall₂ (fun S T : SymFnc => ∃ C : List (List ℕ), C.length = E.numElements ∧
      T = { S with cacheIndices := C }) Vs Us := by
    rw [h3] at hD
    simp only [Option.some.injEq, Prod.mk.injEq] at hD
    rw [hD.1, List.forall₂_iff_get]
    refine ⟨by simp [withCaches], fun i hi hi' => ⟨(List.range E.numElements).map (D i), by simp, ?_⟩⟩
    simp [withCaches]
  have hVUc : List.Forall₂ SymFnc.SameCore Vs Us := hVU.imp fun V U ⟨C, _, e⟩ => by
    rw [e]; exact ⟨rfl, rfl, rfl, rfl⟩
  have hUSc : List.Forall₂ SymFnc.SameCore Us e.symmetryFunctions := hUS.imp fun U S ⟨s, l, e, hs⟩ => by
    obtain ⟨a, b, c⟩ := setScalingType_index hs
    rw [e]; exact ⟨rfl, a, b, c⟩
  have hcomp : ∀ {A B C : List SymFnc}, List.Forall₂ SymFnc.SameCore A B →
      List.Forall₂ SymFnc.SameCore B C → List.Forall₂ SymFnc.SameCore A C := by
    intro A B C h1
    induction h1 generalizing C with
    | nil => intro h2; exact h2
    | cons h3 _ ih =>
      intro h2
      cases h2 with
      | cons h4 h5 => exact .cons (h3.trans h4) (ih h5)
  have hVS := hcomp hVUc hUSc
  have hTS := hcomp hTV hVS
  have hfun : ∀ S ∈ Vs, ∀ T ∈ Vs, S.cacheText E = T.cacheText E →
      S.cachedFunction = T.cachedFunction := by
    have hpT : E.Prints Ts := by
      refine ⟨hp.length, ?_, ?_⟩
      all_goals
        intro S hS T hT h
        obtain ⟨i, hi⟩ := List.getElem?_of_mem hS
        obtain ⟨j, hj⟩ := List.getElem?_of_mem hT
        obtain ⟨S', hi', hSS⟩ := forall2_getElem?' hTS hi
        obtain ⟨T', hj', hTT⟩ := forall2_getElem?' hTS hj
      · have := hp.rc S' (List.mem_of_getElem? hi') T' (List.mem_of_getElem? hj')
        rw [hSS.rc, hTT.rc, hSS.conv, hTT.conv] at this
        exact this h
      · have := hp.rl S' (List.mem_of_getElem? hi') T' (List.mem_of_getElem? hj')
        rw [hSS.rl, hTT.rl, hSS.conv, hTT.conv] at this
        exact this h
    intro S hS T hT h
    obtain ⟨i, hi⟩ := List.getElem?_of_mem hS
    obtain ⟨j, hj⟩ := List.getElem?_of_mem hT
    obtain ⟨S', hS', rfl⟩ := hV i S hi
    obtain ⟨T', hT', rfl⟩ := hV j T hj
    have := cacheText_inj (S := S') (T := T') hpT hconv (List.mem_of_getElem? hS')
      (List.mem_of_getElem? hT') (hcons i S' hS').1 (hcons j T' hT').1 h
    exact this
  obtain ⟨L, hL1, hL2, hL3⟩ := setupCache_use hVidx hVcache hVids hfun (by
    intro S hS hx ha e' e'' he' he'' hr hr'
    obtain ⟨i, hi⟩ := List.getElem?_of_mem hS
    obtain ⟨S', hi', hSS⟩ := forall2_getElem?' hVS hi
    rw [sameCore_shares hVS hSS, sameCore_shares hVS hSS]
    exact hu S' (List.mem_of_getElem? hi') (hSS.isExp.2 hx) (hSS.isAng.2 ha) e' e'' he' he''
      (by rw [hSS.relevant]; exact hr) (by rw [hSS.relevant]; exact hr')) h3
  have hpre : ∀ (k : ℕ) (S : SymFnc), e.symmetryFunctions[k]? = some S → ∃ V U s l, Vs[k]? = some V ∧
      U ∈ Us ∧ S = { U with sc := s } ∧ (∃ C : List (List ℕ), C.length = E.numElements ∧
      U = { V with cacheIndices := C }) ∧
      setScalingType U.sc sc.args.1 l sc.args.2.1 sc.args.2.2 = some s := by
    intro k S hS
    obtain ⟨U, hU, s, l, e1, e2⟩ := forall2_getElem? hUS hS
    obtain ⟨V, hV', C, e3⟩ := forall2_getElem? hVU hU
    exact ⟨V, U, s, l, hV', List.mem_of_getElem? hU, e1, ⟨C, e3⟩, e2⟩
  refine ⟨?_, ?_, ?_, ?_, ?_, ?_, ?_, ⟨L, hL1, ?_, hL3⟩, ?_, conv.getD 1, t, α, ?_⟩
  · intro k S hS
    obtain ⟨T, hT, c⟩ := forall2_getElem? hTS hS
    show S.sc.index = k
    rw [c.index]; exact (hcons k T hT).2.2
  · intro S hS
    obtain ⟨i, hi⟩ := List.getElem?_of_mem hS
    obtain ⟨T, hT, c⟩ := forall2_getElem? hTS hi
    obtain ⟨k1, k2, -⟩ := hcons i T hT
    have k3 := c.sensible (hs S hS)
    exact c.valid (k1.valid k2 k3.1 k3.2)
  · intro S hS
    obtain ⟨i, hi⟩ := List.getElem?_of_mem hS
    obtain ⟨V, U, s, l, -, -, rfl, -, hsc⟩ := hpre i S hi
    exact ⟨_, _, _, _, _, hsc⟩
  · rw [h2]
    refine List.map_congr_left fun x _ => (sameCore_relevantIndices hTS x).symm
  · intro k S e' hS he' hr
    obtain ⟨V, U, s, l, hVk, -, rfl, ⟨C, -, rfl⟩, -⟩ := hpre k S hS
    obtain ⟨T, hT, rfl⟩ := hV k V hVk
    have hr' : T.checkRelevantElement e' = true := hr
    show (T.indexPerElement.mapIdx _)[e']? = _
    rw [List.getElem?_mapIdx, (hcons k T hT).1.index, List.getElem?_replicate, if_pos he']
    simp only [Option.map_some, hr', if_true]
    unfold memoryPosition
    rw [sameCore_relevantIndices (forall2_take hTS k)]
  · intro S hS
    obtain ⟨i, hi⟩ := List.getElem?_of_mem hS
    obtain ⟨V, U, s, l, -, -, rfl, ⟨C, hC, rfl⟩, -⟩ := hpre i S hi
    exact hC
  · intro S hS
    obtain ⟨i, hi⟩ := List.getElem?_of_mem hS
    obtain ⟨T, hT, c⟩ := forall2_getElem? hTS hi
    rw [c.e1]
    exact (he T (List.mem_of_getElem? hT)).1
  · intro S hS
    obtain ⟨i, hi⟩ := List.getElem?_of_mem hS
    obtain ⟨V, U, s, l, -, hU, rfl, -, -⟩ := hpre i S hi
    exact ⟨(hL2 U hU).slots, (hL2 U hU).uniform⟩
  · rw [h3] at hD
    simp only [Option.some.injEq, Prod.mk.injEq] at hD
    rw [hD.2]; simp
  · intro S hS
    obtain ⟨i, hi⟩ := List.getElem?_of_mem hS
    obtain ⟨T, hT, c⟩ := forall2_getElem? hTS hi
    obtain ⟨k1, k2, -⟩ := hcons i T hT
    exact c.groupData ⟨k1.type, k1.conv, fun hx => ⟨k1.cutoffType hx, k1.cutoffAlpha hx, k1.fc hx,
      (k2 hx).1, (k2 hx).2⟩, fun hx => (k1.cr hx).2, k1.radians⟩

end N2P2
