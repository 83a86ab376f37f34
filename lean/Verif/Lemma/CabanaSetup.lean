import Verif.Spec.Cabana
import Verif.Lemma.SymFncOrder
import Verif.Lemma.LengthUnit
import Verif.Lemma.SymFncUnits

/-! Lemmas on the setup of the CabanaMD interface: its rows are the symmetry functions of libnnp and
get the same order. -/

namespace N2P2

/-- The row of a symmetry function. -/
def SymFnc.row (S : SymFnc) : CabanaRow :=
  ⟨S.sc.ec, S.sc.type, S.e1, if S.kind = .ExpRad then 100000 else S.e2, S.eta, S.lambda, S.zeta,
    S.rc, S.rs⟩

/-- The types the interface knows. -/
def SymFnc.Known (S : SymFnc) : Prop := S.kind = .ExpRad ∨ S.kind = .ExpAngn

/-! ### Elements -/

theorem cabanaElement_aux (s : Str) : ∀ (l : List Str) (n k d : ℕ), l[k]? = some s →
    (∀ i : ℕ, l[i]? = some s → i = k) →
    (l.zipIdx n).foldl (fun el p => if p.1 = s then p.2 else el) d = n + k := by
  have none : ∀ (l : List Str) (n d : ℕ), (∀ i : ℕ, l[i]? ≠ some s) →
      (l.zipIdx n).foldl (fun el p => if p.1 = s then p.2 else el) d = d := by
    intro l
    induction l with
    | nil => intros; rfl
    | cons a l ih =>
      intro n d h
      rw [List.zipIdx_cons, List.foldl_cons]
      have ha : a ≠ s := fun e => h 0 (by simp [e])
      simp only [if_neg ha]
      exact ih _ _ fun i hi => h (i + 1) (by simpa using hi)
  intro l
  induction l with
  | nil => intro n k d h; simp at h
  | cons a l ih =>
    intro n k d h hu
    rw [List.zipIdx_cons, List.foldl_cons]
    cases k with
    | zero =>
      have ha : a = s := by simpa using h
      simp only [if_pos ha]
      rw [none]
      · rfl
      · intro i hi
        have := hu (i + 1) (by simpa using hi)
        omega
    | succ k =>
      rw [ih (n + 1) k _ (by simpa using h)]
      · omega
      · intro i hi
        have := hu (i + 1) (by simpa using hi)
        omega

theorem cabanaElement_eq {E : SFEnv} {names : List Str} (hN : E.Names names) {s : Str} {k : ℕ}
    (h : E.element s = some k) (d : ℕ) : cabanaElement names s d = k := by
  unfold cabanaElement
  rw [cabanaElement_aux s names 0 k d ((hN s k).1 h)]
  · omega
  · intro i hi
    have := (hN s i).2 hi
    rw [h] at this
    exact (Option.some.inj this).symm

/-! ### Rows -/

theorem SFEnv.elem_cases {E : SFEnv} {tok : List Str} {k e : ℕ} (h : E.elem tok k = some e) :
    ∃ s, tok[k]? = some s ∧ E.element s = some e := by
  unfold SFEnv.elem at h
  obtain ⟨s, h1, h2⟩ := Option.bind_eq_some_iff.1 h
  exact ⟨s, h1, h2⟩

/-- The row of a function as read, before the length unit is changed. -/
theorem FromLine.row_one {E : SFEnv} {names : List Str} (hN : E.Names names) {tok : List Str}
    {S : SymFnc} (h : SymFnc.FromLine E tok S) (hk : KnownLine E tok) (c : ℝ)
    (rows : List CabanaRow) :
    cabanaAddRow E names c rows tok = some (rows ++ [{ S.row with
      eta := S.eta / (c * c), rc := S.rc * c, rs := S.rs * c }]) ∧ S.Known ∧
      ∃ s0, tok[0]? = some s0 ∧ E.element s0 = some S.sc.ec := by
  obtain ⟨ty, kind, h1, h2, h3⟩ := h
  obtain ⟨ty', h1', hk⟩ := hk
  rw [h1] at h1'
  cases h1'
  have hnum := ofNumber_number h2
  unfold SymFnc.setParameters at h3
  rw [h1] at h3
  replace h3 : (if E.atoi ty ≠ (SymFnc.create E kind).sc.type then none else _) = some S := h3
  split at h3
  · cases h3
  obtain ⟨ec, hec, h3⟩ := Option.bind_eq_some_iff.1 h3
  obtain ⟨s0, g0, g0'⟩ := SFEnv.elem_cases hec
  cases kind <;> first | (exfalso; simp only [SFKind.number] at hnum; omega) | skip
  · obtain ⟨e1, he1, h3⟩ := Option.bind_eq_some_iff.1 h3
    obtain ⟨eta, k1, h3⟩ := Option.bind_eq_some_iff.1 h3
    obtain ⟨rs, k2, h3⟩ := Option.bind_eq_some_iff.1 h3
    obtain ⟨rc, k3, h3⟩ := Option.bind_eq_some_iff.1 h3
    obtain ⟨-, rfl⟩ := resetCutoff_eq h3
    obtain ⟨s1, g1, g1'⟩ := SFEnv.elem_cases he1
    refine ⟨?_, Or.inl rfl, s0, g0, g0'⟩
    have h2' : E.atoi ty = 2 := hnum
    unfold cabanaAddRow cabanaRadialLine
    simp only [h1, h2', g0, g1, k1, k2, k3, Option.bind_eq_bind, Option.bind_some, if_true,
      cabanaElement_eq hN g0', cabanaElement_eq hN g1', Option.map_some]
    rfl
  · obtain ⟨e1, he1, h3⟩ := Option.bind_eq_some_iff.1 h3
    obtain ⟨e2, he2, h3⟩ := Option.bind_eq_some_iff.1 h3
    obtain ⟨eta, k1, h3⟩ := Option.bind_eq_some_iff.1 h3
    obtain ⟨lambda, k2, h3⟩ := Option.bind_eq_some_iff.1 h3
    obtain ⟨zeta, k3, h3⟩ := Option.bind_eq_some_iff.1 h3
    obtain ⟨rc, k4, h3⟩ := Option.bind_eq_some_iff.1 h3
    obtain ⟨U, h4, h3⟩ := Option.bind_eq_some_iff.1 h3
    obtain ⟨-, rfl⟩ := resetCutoff_eq h4
    obtain ⟨hz, b, hb, rfl⟩ := setZetaInt_eq h3
    obtain ⟨s1, g1, g1'⟩ := SFEnv.elem_cases he1
    obtain ⟨s2, g2, g2'⟩ := SFEnv.elem_cases he2
    have h2' : E.atoi ty = 3 := hnum
    clear h4 h3 hb hz
    unfold cabanaAddRow cabanaAngularLine SymFnc.orderElements
    simp only [h1, h2', g0, g1, g2, k1, k2, k3, k4, Option.bind_eq_bind, Option.bind_some,
      cabanaElement_eq hN g0', cabanaElement_eq hN g1', cabanaElement_eq hN g2', Option.map_some,
      if_true]
    cases hn : E.num tok 8 <;> by_cases hlt : e2 < e1 <;>
      simp [SymFnc.row, hlt, SymFnc.create, SymFnc.setEc, SymFnc.Known, SFKind.number, g0, g0']

theorem FromLine.row {E : SFEnv} {names : List Str} (hN : E.Names names) {tok : List Str}
    {S U : SymFnc} {conv : Option ℝ} (h : SymFnc.FromLine E tok S) (hk : KnownLine E tok)
    (hU : (match conv with
      | some c => S.changeLengthUnit c
      | none => some S) = some U) (rows : List CabanaRow) :
    cabanaAddRow E names (conv.getD 1) rows tok = some (rows ++ [U.row]) ∧ U.Known ∧
      ∃ s0, tok[0]? = some s0 ∧ E.element s0 = some U.sc.ec := by
  obtain ⟨h1, h2, h3⟩ := FromLine.row_one hN h hk (conv.getD 1) rows
  have hexp : S.IsExp := by
    rcases h2 with hk | hk <;> simp [SymFnc.IsExp, hk]
  rw [h1]
  cases conv with
  | none =>
    cases hU
    refine ⟨?_, h2, h3⟩
    simp [SymFnc.row]
  | some c =>
    obtain ⟨-, rfl⟩ := changeLengthUnit_exp hexp hU
    exact ⟨rfl, h2, h3⟩

/-! ### The functions of an element -/

theorem SymFnc.Known.isExp {S : SymFnc} (h : S.Known) : S.IsExp := by
  rcases h with h | h <;> simp [SymFnc.IsExp, h]

/-- The functions of an element in the order of the lines (`Us`), sorted (`l`) and finished
(`Ts`). -/
theorem SetupSymmetryFunctions.rows {E : SFEnv} {names : List Str} (hN : E.Names names)
    {lines : List (List Str)} {conv : Option ℝ} {t : CutoffType} {α : ℝ} {Ts : List SymFnc}
    (h : SetupSymmetryFunctions E lines conv t α Ts) (hk : ∀ tok ∈ lines, KnownLine E tok) :
    ∃ Us l, List.Forall₂ (fun tok U => ∀ rows,
        cabanaAddRow E names (conv.getD 1) rows tok = some (rows ++ [SymFnc.row U])) lines Us ∧
      (∀ U ∈ Us, U.Consistent E (conv.getD 1) .HARD 0 ∧ U.sc.index = 0 ∧ U.Known) ∧
      l.Perm Us ∧ l.Pairwise (fun S T => ¬ T.lt S) ∧
      List.Forall₂ (fun U T => SymFnc.row T = U.row ∧ T.kind = U.kind) l Ts := by
  obtain ⟨Ss, Us, Vs, h1, h2, ⟨l, hl, hs, rfl⟩, h4⟩ := h
  obtain ⟨_, e, hadd⟩ := addSymmetryFunction_forall2 h1
  simp only [List.nil_append] at e
  subst e
  have h12 : List.Forall₂ (fun tok U => ∃ S, SymFnc.FromLine E tok S ∧
      (match conv with
        | some c => S.changeLengthUnit c
        | none => some S) = some U) lines Us := by
    cases conv with
    | none =>
      cases h2
      exact hadd.imp fun a b hab => ⟨b, hab, rfl⟩
    | some c =>
      have := mapM_forall2 h2
      clear h2 h4 hl h1 hk
      induction hadd generalizing Us with
      | nil => cases this; exact .nil
      | cons ha _ ih =>
        cases this with
        | cons hb hc => exact .cons ⟨_, ha, hb⟩ (ih _ hc)
  have hU : ∀ U ∈ Us, U.Consistent E (conv.getD 1) .HARD 0 ∧ U.sc.index = 0 ∧ U.Known := by
    intro U hU
    obtain ⟨i, hi, rfl⟩ := List.getElem_of_mem hU
    obtain ⟨S, a1, a2⟩ := (List.forall₂_iff_get.1 h12).2 i (by rw [h12.length_eq]; exact hi) hi
    have htok := List.get_mem lines ⟨i, by rw [h12.length_eq]; exact hi⟩
    generalize lines.get ⟨i, _⟩ = tok at a1 htok
    have a3 := (FromLine.row hN a1 (hk tok htok) a2 []).2.1
    obtain ⟨a4, a5⟩ := FromLine.consistent' a1
    refine ⟨?_, ?_, a3⟩
    · cases conv with
      | none => cases a2; exact a4
      | some c => exact a4.change a2
    · cases conv with
      | none => cases a2; exact a5
      | some c =>
        have hx : S.IsExp := (FromLine.row_one hN a1 (hk tok htok) 1 []).2.1.isExp
        have := (changeLengthUnit_exp hx a2).2
        exact (congrArg (fun U : SymFnc => U.sc.index) this).trans a5
  refine ⟨Us, l, ?_, hU, hl, hs, ?_⟩
  · rw [List.forall₂_iff_get]
    refine ⟨h12.length_eq, fun i hi hi' rows => ?_⟩
    obtain ⟨S, a1, a2⟩ := (List.forall₂_iff_get.1 h12).2 i hi hi'
    exact (FromLine.row hN a1 (hk _ (List.get_mem _ _)) a2 rows).1
  · have h6 := mapM_forall2 h4
    rw [List.forall₂_iff_get] at h6 ⊢
    obtain ⟨h6, h7⟩ := h6
    rw [List.length_mapIdx] at h6
    refine ⟨h6, fun i hi hi' => ?_⟩
    have h8 := h7 i (by rw [List.length_mapIdx]; exact hi) hi'
    simp only [List.get_eq_getElem, List.getElem_mapIdx] at h8 ⊢
    have hx : (l[i].setIndex i).IsExp := (hU _ (hl.mem_iff.1 (List.getElem_mem hi))).2.2.isExp
    obtain ⟨-, h9⟩ := setCutoffFunction_exp hx h8
    rw [h9]
    exact ⟨rfl, rfl⟩

/-! ### Order -/

theorem cabanaCompare_weak : WeakOn (fun _ => True) fun a b => cabanaCompare b a := by
  unfold cabanaCompare
  exact .step' (fun r : CabanaRow => r.ec) (.step' (fun r : CabanaRow => r.type)
    (.step' (fun r : CabanaRow => r.rc) (.step' (fun r : CabanaRow => r.eta)
    (.step' (fun r : CabanaRow => r.rs) (.step' (fun r : CabanaRow => r.zeta)
    (.step' (fun r : CabanaRow => r.lambda) (.step' (fun r : CabanaRow => r.e1)
    (.step' (fun r : CabanaRow => r.e2) (weakOn_false _)))))))))

theorem cabanaInsert_perm (rows : ℕ → CabanaRow) (i : ℕ) : ∀ l : List ℕ,
    (cabanaInsert rows i l).Perm (i :: l)
  | [] => .refl _
  | k :: l => by
    unfold cabanaInsert
    split
    · exact ((cabanaInsert_perm rows i l).cons k).trans (.swap _ _ _)
    · exact .refl _

/-- Later entries do not come after earlier ones. -/
theorem cabanaInsert_sorted (rows : ℕ → CabanaRow) (i : ℕ) : ∀ l : List ℕ,
    l.Pairwise (fun a b => ¬ cabanaCompare (rows b) (rows a)) →
    (cabanaInsert rows i l).Pairwise fun a b => ¬ cabanaCompare (rows b) (rows a)
  | [], _ => by unfold cabanaInsert; simp
  | k :: l, h => by
    rw [List.pairwise_cons] at h
    unfold cabanaInsert
    split
    · rename_i hc
      rw [List.pairwise_cons]
      refine ⟨fun x hx => ?_, cabanaInsert_sorted rows i l h.2⟩
      rcases List.mem_cons.1 ((cabanaInsert_perm rows i l).mem_iff.1 hx) with rfl | hx
      · exact cabanaCompare_weak.asymm (rows x) (rows k) trivial trivial hc
      · exact h.1 x hx
    · rename_i hc
      rw [List.pairwise_cons, List.pairwise_cons]
      refine ⟨fun x hx => ?_, h⟩
      rcases List.mem_cons.1 hx with rfl | hx
      · exact hc
      · exact cabanaCompare_weak.neg (rows i) (rows k) (rows x) trivial trivial trivial hc (h.1 x hx)

theorem cabanaSort_spec (rows : ℕ → CabanaRow) (n : ℕ) : (cabanaSort rows n).Perm (List.range n) ∧
    (cabanaSort rows n).Pairwise fun a b => ¬ cabanaCompare (rows a) (rows b) := by
  have key : ∀ (l done : List ℕ), done.Pairwise (fun a b => ¬ cabanaCompare (rows b) (rows a)) →
      (l.foldl (fun done i => cabanaInsert rows i done) done).Perm (l ++ done) ∧
      (l.foldl (fun done i => cabanaInsert rows i done) done).Pairwise
        fun a b => ¬ cabanaCompare (rows b) (rows a) := by
    intro l
    induction l with
    | nil => intro done h; exact ⟨.refl _, h⟩
    | cons i l ih =>
      intro done h
      obtain ⟨h1, h2⟩ := ih _ (cabanaInsert_sorted rows i done h)
      refine ⟨h1.trans ?_, h2⟩
      exact ((cabanaInsert_perm rows i done).append_left l).trans List.perm_middle
  obtain ⟨h1, h2⟩ := key (List.range n) [] .nil
  unfold cabanaSort
  rw [List.append_nil] at h1
  exact ⟨(List.reverse_perm _).trans h1, List.pairwise_reverse.2 h2⟩

theorem lexStep_same {β : Type} [LinearOrder β] (a : β) (p : Prop) :
    SymFnc.lexStep a a p ↔ p := by
  simp [SymFnc.lexStep]

theorem lexStep_congr {β : Type} [LinearOrder β] {a b : β} {p q : Prop} (h : a = b → (p ↔ q)) :
    SymFnc.lexStep a b p ↔ SymFnc.lexStep a b q := by
  unfold SymFnc.lexStep
  constructor <;> rintro (h1 | ⟨h1, h2⟩)
  · exact Or.inl h1
  · by_cases h3 : a < b
    · exact Or.inl h3
    · exact Or.inr ⟨h1, (h (le_antisymm (not_lt.1 h1) (not_lt.1 h3))).1 h2⟩
  · exact Or.inl h1
  · by_cases h3 : a < b
    · exact Or.inl h3
    · exact Or.inr ⟨h1, (h (le_antisymm (not_lt.1 h1) (not_lt.1 h3))).2 h2⟩

theorem cabanaCompare_row {E : SFEnv} {c : ℝ} {S T : SymFnc} (hS : S.Consistent E c .HARD 0)
    (hT : T.Consistent E c .HARD 0) (kS : S.Known) (kT : T.Known) :
    cabanaCompare T.row S.row ↔ S.lt T := by
  have xS := kS.isExp
  have xT := kT.isExp
  unfold cabanaCompare SymFnc.lt SymFnc.row
  refine lexStep_congr fun _ => lexStep_congr fun hty => ?_
  have hk : S.kind = T.kind := number_injective (by rw [← hS.type, ← hT.type]; exact hty)
  simp only [hS.cutoffType xS, hT.cutoffType xT, hS.cutoffAlpha xS, hT.cutoffAlpha xT]
  rcases kS with k | k
  · have aS : ¬ S.IsAng := fun h => h.1 k
    have aT : ¬ T.IsAng := fun h => h.1 (hk ▸ k)
    have uS := hS.unusedRad aS
    have uT := hT.unusedRad aT
    simp only [k, ← hk, uS.1, uS.2.1, uT.1, uT.2.1, lexStep_same, if_true]
  · simp only [k, ← hk, lexStep_same]
    simp

/-- The order of the interface is that of libnnp. -/
theorem cabanaSort_functions {E : SFEnv} {c : ℝ} {Us l : List SymFnc}
    (h : ∀ U ∈ Us, U.Consistent E c .HARD 0 ∧ U.sc.index = 0 ∧ U.Known) (hl : l.Perm Us)
    (hs : l.Pairwise fun S T => ¬ T.lt S) (rows : ℕ → CabanaRow)
    (hr : ∀ k U, Us[k]? = some U → rows k = U.row) :
    (cabanaSort rows Us.length).map (fun k => Us[k]?) = l.map some := by
  obtain ⟨h1, h2⟩ := cabanaSort_spec rows Us.length
  generalize cabanaSort rows Us.length = order at h1 h2
  cases Us with
  | nil =>
    have : l = [] := hl.eq_nil
    subst this
    have : order = [] := by simpa using h1
    subst this
    rfl
  | cons d Us' =>
  generalize hd : d :: Us' = Us at *
  have hf : (List.range Us.length).map (fun k => Us[k]?.getD d) = Us := by
    apply List.ext_getElem
    · simp
    · intro i h1 h2
      simp [h2]
  have hmem : ∀ k ∈ order, k < Us.length := fun k hk => List.mem_range.1 (h1.mem_iff.1 hk)
  have hget : ∀ k ∈ order, Us[k]? = some (Us[k]?.getD d) := by
    intro k hk
    rw [List.getElem?_eq_getElem (hmem k hk)]
    rfl
  have hp : (order.map fun k => Us[k]?.getD d).Perm Us := by
    have := h1.map fun k => Us[k]?.getD d
    rwa [hf] at this
  have hs' : (order.map fun k => Us[k]?.getD d).Pairwise fun S T => ¬ T.lt S := by
    rw [List.pairwise_map]
    refine h2.imp_of_mem fun {a b} ha hb hab => ?_
    have ga := hget a ha
    have gb := hget b hb
    obtain ⟨c1, -, k1⟩ := h _ (List.mem_of_getElem? ga)
    obtain ⟨c2, -, k2⟩ := h _ (List.mem_of_getElem? gb)
    rw [hr a _ ga, hr b _ gb, cabanaCompare_row c2 c1 k2 k1] at hab
    exact hab
  have he : l = order.map fun k => Us[k]?.getD d :=
    sorted_unique (fun U hU => ⟨(h U hU).1, (h U hU).2.1⟩) hl hp hs hs'
  rw [he, List.map_map]
  exact List.map_congr_left hget

/-! ### Ranks -/

theorem cabanaRank_aux : ∀ (order : List ℕ) (n : ℕ) (r : ℕ → ℕ), order.Nodup →
    (∀ i k, order[i]? = some k →
      (order.zipIdx n).foldl (fun r p => Function.update r p.1 p.2) r k = n + i) ∧
    ∀ k, k ∉ order → (order.zipIdx n).foldl (fun r p => Function.update r p.1 p.2) r k = r k
  | [], n, r, _ => ⟨fun i k h => by simp at h, fun k _ => rfl⟩
  | a :: order, n, r, h => by
    rw [List.nodup_cons] at h
    obtain ⟨h1, h2⟩ := cabanaRank_aux order (n + 1) (Function.update r a n) h.2
    rw [List.zipIdx_cons, List.foldl_cons]
    refine ⟨fun i k hk => ?_, fun k hk => ?_⟩
    · cases i with
      | zero =>
        have : a = k := by simpa using hk
        subst this
        rw [h2 a h.1, Function.update_self]
        rfl
      | succ i =>
        rw [h1 i k (by simpa using hk)]
        omega
    · rw [List.mem_cons, not_or] at hk
      rw [h2 k hk.2, Function.update_of_ne hk.1]

theorem cabanaRank_eq {order : List ℕ} (h : order.Nodup) {i k : ℕ} (hk : order[i]? = some k) :
    cabanaRank order k = i := by
  unfold cabanaRank
  rw [(cabanaRank_aux order 0 _ h).1 i k hk]
  omega

/-! ### Scaling -/

theorem cabanaSetScaling_aux (t : ScalingType) (Smin Smax : ℝ) (lines : List StatisticsLine) :
    ∀ (order : List ℕ) (n : ℕ) (sc : ℕ → CabanaScaling), order.Nodup →
      n + order.length ≤ lines.length →
      ∃ sc', (order.zipIdx n).foldlM (fun sc p => do
          let l ← lines[p.2]?
          some (Function.update sc p.1 (cabanaScaling t l Smin Smax))) sc = some sc' ∧
        (∀ (i k : ℕ) (l : StatisticsLine), order[i]? = some k → lines[n + i]? = some l →
          sc' k = cabanaScaling t l Smin Smax) ∧ ∀ k, k ∉ order → sc' k = sc k
  | [], n, sc, _, _ => ⟨sc, rfl, fun i k l h => by simp at h, fun _ _ => rfl⟩
  | a :: order, n, sc, h, hl => by
    rw [List.nodup_cons] at h
    rw [List.length_cons] at hl
    have hn : n < lines.length := by omega
    obtain ⟨sc', h1, h2, h3⟩ := cabanaSetScaling_aux t Smin Smax lines order (n + 1)
      (Function.update sc a (cabanaScaling t lines[n] Smin Smax)) h.2 (by omega)
    refine ⟨sc', ?_, fun i k l hk hl' => ?_, fun k hk => ?_⟩
    · rw [List.zipIdx_cons, List.foldlM_cons]
      simp only [List.getElem?_eq_getElem hn, Option.bind_eq_bind, Option.bind_some]
      exact h1
    · cases i with
      | zero =>
        have : a = k := by simpa using hk
        subst this
        rw [Nat.add_zero, List.getElem?_eq_getElem hn] at hl'
        cases hl'
        rw [h3 a h.1, Function.update_self]
      | succ i =>
        exact h2 i k l (by simpa using hk) (by rw [← hl']; congr 1; omega)
    · rw [List.mem_cons, not_or] at hk
      rw [h3 k hk.2, Function.update_of_ne hk.1]

/-! ### Groups -/

theorem cabanaEnter_perm (rows : ℕ → CabanaRow) (k : ℕ) : ∀ gs : List (List ℕ),
    (cabanaEnter rows k gs).flatten.Perm (k :: gs.flatten)
  | [] => .refl _
  | g :: gs => by
    unfold cabanaEnter
    split
    · simp only [List.flatten_cons, List.append_assoc, List.singleton_append]
      exact List.perm_middle
    · simp only [List.flatten_cons]
      exact ((cabanaEnter_perm rows k gs).append_left g).trans List.perm_middle

theorem cabanaEnter_same (rows : ℕ → CabanaRow) (k : ℕ) : ∀ gs : List (List ℕ),
    (∀ g ∈ gs, g ≠ [] ∧ ∀ m ∈ g, (rows m).SameGroup (rows (g.headD 0))) →
    ∀ g ∈ cabanaEnter rows k gs, g ≠ [] ∧ ∀ m ∈ g, (rows m).SameGroup (rows (g.headD 0))
  | [], _ => by
    intro g hg
    unfold cabanaEnter at hg
    rw [List.mem_singleton] at hg
    subst hg
    refine ⟨by simp, fun m hm => ?_⟩
    rw [List.mem_singleton] at hm
    subst hm
    exact ⟨rfl, rfl, rfl, rfl⟩
  | g0 :: gs, h => by
    intro g hg
    unfold cabanaEnter at hg
    split at hg
    · rename_i hc
      rcases List.mem_cons.1 hg with rfl | hg
      · obtain ⟨h1, h2⟩ := h g0 (List.mem_cons_self ..)
        have hh : (g0 ++ [k]).headD 0 = g0.headD 0 := by
          cases g0 with
          | nil => exact absurd rfl h1
          | cons a g0 => rfl
        refine ⟨by simp, fun m hm => ?_⟩
        rw [hh]
        rcases List.mem_append.1 hm with hm | hm
        · exact h2 m hm
        · rw [List.mem_singleton] at hm
          subst hm
          exact hc
      · exact h g (List.mem_cons_of_mem _ hg)
    · rcases List.mem_cons.1 hg with rfl | hg
      · exact h _ (List.mem_cons_self ..)
      · exact cabanaEnter_same rows k gs (fun g hg => h g (List.mem_cons_of_mem _ hg)) g hg

theorem cabanaGroups_spec (rows : ℕ → CabanaRow) (order : List ℕ) :
    (cabanaGroups rows order).flatten.Perm order ∧ ∀ g ∈ cabanaGroups rows order,
      g ≠ [] ∧ ∀ m ∈ g, (rows m).SameGroup (rows (g.headD 0)) := by
  have key : ∀ (order : List ℕ) (gs : List (List ℕ)),
      (∀ g ∈ gs, g ≠ [] ∧ ∀ m ∈ g, (rows m).SameGroup (rows (g.headD 0))) →
      (order.foldl (fun gs k => cabanaEnter rows k gs) gs).flatten.Perm (order ++ gs.flatten) ∧
      ∀ g ∈ order.foldl (fun gs k => cabanaEnter rows k gs) gs,
        g ≠ [] ∧ ∀ m ∈ g, (rows m).SameGroup (rows (g.headD 0)) := by
    intro order
    induction order with
    | nil => intro gs h; exact ⟨.refl _, h⟩
    | cons k order ih =>
      intro gs h
      obtain ⟨h1, h2⟩ := ih _ (cabanaEnter_same rows k gs h)
      refine ⟨h1.trans ?_, h2⟩
      exact ((cabanaEnter_perm rows k gs).append_left order).trans List.perm_middle
  obtain ⟨h1, h2⟩ := key order [] (by simp)
  exact ⟨by simpa [cabanaGroups] using h1, h2⟩

/-! ### Tables -/

/-- The views of an element hold the functions `Fs`: there is a row for each function, which stores
its results at the index of the function. -/
structure CabanaTable.Holds (t : CutoffType) (α : ℝ) (T : CabanaTable) (Fs : List SymFnc) :
    Prop where
  num : T.num = Fs.length
  groups : ∀ g ∈ T.groups, g ≠ [] ∧ ∀ m ∈ g, (T.rows m).SameGroup (T.rows (g.headD 0)) ∧
    (T.rows m).type = (T.rows (g.headD 0)).type
  order : ∃ order : List ℕ, order.Nodup ∧ order.length = Fs.length ∧
    T.groups.flatten.Perm order ∧ ∀ k S, Fs[k]? = some S → ∃ m, order[k]? = some m ∧
      T.rank m = k ∧ T.rows m = S.row ∧ S.Known ∧ (∀ x, (T.scaling m).scale x = S.sc.scale x) ∧
      (T.scaling m).factor = S.sc.scalingFactor
  functions : ∀ S ∈ Fs, S.sc.type = S.kind.number ∧ S.fc = mkCutoff t S.rc α ∧
    (S.Sensible → S.Valid)
  affine : ∀ S ∈ Fs, ∀ x y, S.sc.scale x - S.sc.scale y = S.sc.scalingFactor * (x - y)

/-- Setup of one element. -/
theorem cabanaTable_holds {E : SFEnv} {names : List Str} (hN : E.Names names)
    (hlen : names.length ≤ 100000) {lines : List (List Str)} {conv : Option ℝ} {t : CutoffType}
    {α : ℝ} {st : ScalingType} {share : List StatisticsLine} {Smin Smax : ℝ} {e : ElementData}
    (h : SetupElement E lines conv t α (.lines st share Smin Smax) e)
    (hk : ∀ tok ∈ lines, KnownLine E tok) (hshare : share.length = e.symmetryFunctions.length) :
    ∃ rows : List CabanaRow, List.Forall₂ (fun tok r => ∀ rows,
        cabanaAddRow E names (conv.getD 1) rows tok = some (rows ++ [r])) lines rows ∧
      ∀ rest, ∃ T, cabanaTable st Smin Smax (share ++ rest) rows = some (T, rest) ∧
        T.Holds t α e.symmetryFunctions := by
  obtain ⟨Ts, h1, h2, h3⟩ := h.functions
  obtain ⟨Us, l, a1, a2, a3, a4, a5⟩ := h1.rows hN hk
  refine ⟨Us.map SymFnc.row, ?_, fun rest => ?_⟩
  · rw [List.forall₂_map_right_iff]
    exact a1
  have hUT : Us.length = e.symmetryFunctions.length := by
    rw [h2, ← a5.length_eq, a3.length_eq]
  set view : ℕ → CabanaRow := fun k => ((Us.map SymFnc.row)[k]?).getD .zero with hview
  have hv : ∀ k U, Us[k]? = some U → view k = U.row := by
    intro k U hU
    simp [hview, hU]
  have hsort := cabanaSort_functions a2 a3 a4 view hv
  obtain ⟨hp, -⟩ := cabanaSort_spec view Us.length
  obtain ⟨sc, c1, c2, -⟩ := cabanaSetScaling_aux st Smin Smax (share ++ rest)
    (cabanaSort view Us.length) 0 (fun _ => .zero) (hp.nodup_iff.2 List.nodup_range)
    (by rw [hp.length_eq, List.length_range, List.length_append]; omega)
  obtain ⟨g1, g2⟩ := cabanaGroups_spec view (cabanaSort view Us.length)
  refine ⟨⟨view, Us.length, cabanaRank (cabanaSort view Us.length),
    cabanaGroups view (cabanaSort view Us.length), sc⟩, ?_, ?_⟩
  · unfold cabanaTable cabanaSetScaling
    simp only [List.length_map]
    rw [← hview, c1, List.drop_left' (by omega)]
    rfl
  have hmem : ∀ m ∈ cabanaSort view Us.length, ∃ U, Us[m]? = some U := fun m hm =>
    ⟨_, List.getElem?_eq_getElem (List.mem_range.1 (hp.mem_iff.1 hm))⟩
  have hlt : ∀ s k, E.element s = some k → k < 100000 := by
    intro s k hs
    obtain ⟨hk, -⟩ := List.getElem?_eq_some_iff.1 ((hN s k).1 hs)
    omega
  refine ⟨hUT, fun g hg => ⟨(g2 g hg).1, fun m hm => ?_⟩,
    ⟨cabanaSort view Us.length,
    hp.nodup_iff.2 List.nodup_range, by rw [hp.length_eq, List.length_range, hUT], g1,
    fun k S hS => ?_⟩, fun S hS => ?_, fun S hS => ?_⟩
  · have hs := (g2 g hg).2 m hm
    refine ⟨hs, ?_⟩
    have hh : g.headD 0 ∈ g := by
      cases g with
      | nil => exact absurd rfl (g2 _ hg).1
      | cons a g => exact List.mem_cons_self ..
    have hin : ∀ x ∈ g, ∃ U, Us[x]? = some U := fun x hx =>
      hmem x (g1.mem_iff.1 (List.mem_flatten.2 ⟨g, hg, hx⟩))
    obtain ⟨U, hU⟩ := hin m hm
    obtain ⟨V, hV⟩ := hin _ hh
    have e2 := hs.2.2.1
    obtain ⟨b1, -, b2⟩ := a2 U (List.mem_of_getElem? hU)
    obtain ⟨d1, -, d2⟩ := a2 V (List.mem_of_getElem? hV)
    simp only [hv _ _ hU, hv _ _ hV] at e2 ⊢
    have hang : ∀ W : SymFnc, W.Consistent E (conv.getD 1) .HARD 0 → W.kind = .ExpAngn →
        W.e2 < 100000 := by
      intro W hW hWk
      obtain ⟨-, s, hs⟩ := hW.elements.2 (Or.inl hWk)
      exact hlt s _ hs
    have hkind : U.kind = V.kind := by
      unfold SymFnc.row at e2
      rcases b2 with k1 | k1 <;> rcases d2 with k2 | k2 <;> rw [k1, k2] <;> exfalso
      · rw [if_pos k1, if_neg (by rw [k2]; decide)] at e2
        dsimp only at e2
        have := hang V d1 k2
        omega
      · rw [if_neg (by rw [k1]; decide), if_pos k2] at e2
        dsimp only at e2
        have := hang U b1 k1
        omega
    unfold SymFnc.row
    simp only [b1.type, d1.type, hkind]
  · obtain ⟨hk', -⟩ := List.getElem?_eq_some_iff.1 hS
    have hkT : k < Ts.length := by omega
    obtain ⟨W, s, ln, w1, w2, w3, w4⟩ := h3 k _ (List.getElem?_eq_getElem hkT)
    have hkl : k < l.length := by rw [a5.length_eq]; exact hkT
    obtain ⟨r1, r2⟩ := (List.forall₂_iff_get.1 a5).2 k hkl hkT
    simp only [List.get_eq_getElem] at r1 r2
    rw [hS, Option.some.injEq] at w1
    have hk2 : k < (cabanaSort view Us.length).length := by
      rw [hp.length_eq, List.length_range, hUT]; exact hk'
    have hm := List.getElem?_eq_getElem hk2
    generalize (cabanaSort view Us.length)[k] = m at hm
    have hUm : Us[m]? = some l[k] := by
      have := congrArg (fun x => x[k]?) hsort
      simp only [List.getElem?_map, hm, Option.map_some, List.getElem?_eq_getElem hkl,
        Option.some.injEq] at this
      exact this
    obtain ⟨q1, q2, q3⟩ := a2 _ (List.mem_of_getElem? hUm)
    obtain ⟨C, I, rfl⟩ := w2
    simp only [ScalingSetup.line] at w3
    have hsc := c2 k m ln hm (by
      rw [Nat.zero_add, List.getElem?_append_left (List.getElem?_eq_some_iff.1 w3).1, w3])
    have hT := setupSymmetryFunctions_iff h1
    obtain ⟨ls, -, -, hT⟩ := hT
    obtain ⟨tok, -, hT⟩ := hT k _ (List.getElem?_eq_getElem hkT)
    have hcon := hT.consistent.1
    have hsig : Ts[k].sc.Gsigma = 0 := by rw [hcon.unusedScaling]
    simp only [ScalingSetup.args] at w4
    unfold setScalingType at w4
    split at w4
    · cases w4
    cases w4
    refine ⟨m, hm, cabanaRank_eq (hp.nodup_iff.2 List.nodup_range) hm, ?_, ?_, ?_, ?_⟩
    · dsimp only
      rw [hv _ _ hUm, ← r1, w1]
      rfl
    · rw [w1]
      rcases q3 with q | q
      · exact Or.inl (r2.trans q)
      · exact Or.inr (r2.trans q)
    · intro x
      dsimp only
      rw [hsc, w1]
      unfold CabanaScaling.scale SymFncScaling.scale cabanaScaling
      cases st <;> simp only
      cases ln.gsigma <;> simp [hsig]
    · dsimp only
      rw [hsc, w1]
      unfold cabanaScaling
      cases st <;> simp only
      cases ln.gsigma <;> simp [hsig]

  · obtain ⟨k, hk', rfl⟩ := List.getElem_of_mem hS
    have hkT : k < Ts.length := by omega
    obtain ⟨W, s, ln, w1, ⟨C, I, rfl⟩, -, w4⟩ := h3 k _ (List.getElem?_eq_getElem hkT)
    obtain ⟨ls, -, -, hT⟩ := setupSymmetryFunctions_iff h1
    obtain ⟨tok, -, hT⟩ := hT k _ (List.getElem?_eq_getElem hkT)
    obtain ⟨hcon, hα, -⟩ := hT.consistent
    rw [List.getElem?_eq_getElem hk', Option.some.injEq] at w1
    have hkl : k < l.length := by rw [a5.length_eq]; exact hkT
    obtain ⟨-, r2⟩ := (List.forall₂_iff_get.1 a5).2 k hkl hkT
    have hx : Ts[k].IsExp := by
      have q := (a2 _ (a3.mem_iff.1 (List.getElem_mem hkl))).2.2
      have : Ts[k].Known := by
        rcases q with q | q
        · exact Or.inl (r2.trans q)
        · exact Or.inr (r2.trans q)
      exact this.isExp
    rw [w1]
    refine ⟨?_, hcon.fc hx, fun hs => ?_⟩
    · unfold setScalingType at w4
      split at w4
      · cases w4
      cases w4
      exact hcon.type
    · have hV := hcon.valid hα hs.1 hs.2
      exact ⟨hV.rc_pos, hV.fc, hV.cr, hV.ca, hV.zeta, hV.pow⟩
  · obtain ⟨k, hk', rfl⟩ := List.getElem_of_mem hS
    have hkT : k < Ts.length := by omega
    obtain ⟨W, s, ln, w1, ⟨C, I, rfl⟩, -, w4⟩ := h3 k _ (List.getElem?_eq_getElem hkT)
    rw [List.getElem?_eq_getElem hk', Option.some.injEq] at w1
    simp only [ScalingSetup.args] at w4
    unfold setScalingType at w4
    split at w4
    · cases w4
    cases w4
    intro x y
    rw [w1]
    unfold SymFncScaling.scale
    cases st <;> simp only <;> ring

/-! ### All elements -/

theorem cabanaRows_aux {E : SFEnv} {names : List Str} (hN : E.Names names) {c : ℝ}
    (r : List Str → CabanaRow) : ∀ (lines : List (List Str)) (tables : List (List CabanaRow)),
    tables.length = names.length →
    (∀ tok ∈ lines, ∃ k, (tok[0]?).bind E.element = some k) →
    (∀ tok ∈ lines, ∀ rows, cabanaAddRow E names c rows tok = some (rows ++ [r tok])) →
    ∃ tables', lines.foldlM (cabanaAddLine E names c) tables = some tables' ∧
      tables'.length = names.length ∧
      ∀ k rows, tables[k]? = some rows → tables'[k]? = some (rows ++ (elementLines E lines k).map r)
  | [], tables, hl, _, _ => ⟨tables, rfl, hl, fun k rows h => by simpa [elementLines] using h⟩
  | tok :: lines, tables, hl, h1, h2 => by
    obtain ⟨k0, hk0⟩ := h1 tok (List.mem_cons_self ..)
    obtain ⟨s0, hs0, he⟩ := Option.bind_eq_some_iff.1 hk0
    have hlt : k0 < tables.length := by
      rw [hl]
      exact (List.getElem?_eq_some_iff.1 ((hN s0 k0).1 he)).1
    obtain ⟨tables', h3, h4, h5⟩ := cabanaRows_aux hN r lines
      (tables.set k0 (tables[k0] ++ [r tok])) (by rw [List.length_set, hl])
      (fun t ht => h1 t (List.mem_cons_of_mem _ ht)) (fun t ht => h2 t (List.mem_cons_of_mem _ ht))
    refine ⟨tables', ?_, h4, fun k rows hk => ?_⟩
    · rw [List.foldlM_cons]
      have : cabanaAddLine E names c tables tok = some (tables.set k0 (tables[k0] ++ [r tok])) := by
        unfold cabanaAddLine
        simp only [hs0, cabanaElement_eq hN he, Option.bind_eq_bind, Option.bind_some,
          List.getElem?_eq_getElem hlt, h2 tok (List.mem_cons_self ..)]
      rw [this]
      exact h3
    · by_cases hkk : k0 = k
      · subst hkk
        have := h5 k0 _ (List.getElem?_set_self hlt)
        rw [List.getElem?_eq_getElem hlt, Option.some.injEq] at hk
        rw [this, hk]
        simp [elementLines, hk0]
      · have := h5 k rows (by rw [List.getElem?_set_ne hkk]; exact hk)
        rw [this]
        simp [elementLines, hk0, hkk]

theorem cabanaTables_aux {st : ScalingType} {Smin Smax : ℝ} {Q : ℕ → CabanaTable → Prop}
    (share : ℕ → List StatisticsLine) : ∀ (rows : List (List CabanaRow)) (n : ℕ),
    (∀ k r, rows[k]? = some r → ∀ rest, ∃ T,
      cabanaTable st Smin Smax (share (n + k) ++ rest) r = some (T, rest) ∧ Q (n + k) T) →
    ∃ tables, cabanaTables st Smin Smax ((List.range' n rows.length).flatMap share) rows =
      some tables ∧ tables.length = rows.length ∧ ∀ k T, tables[k]? = some T → Q (n + k) T
  | [], n, _ => ⟨[], rfl, rfl, fun k T h => by simp at h⟩
  | r :: rows, n, h => by
    obtain ⟨T, h1, h2⟩ := h 0 r rfl ((List.range' (n + 1) rows.length).flatMap share)
    obtain ⟨tables, h3, h4, h5⟩ := cabanaTables_aux share rows (n + 1) (fun k r' hk rest => by
      have := h (k + 1) r' (by simpa using hk) rest
      rwa [show n + (k + 1) = n + 1 + k by omega] at this)
    refine ⟨T :: tables, ?_, by simp [h4], fun k T' hT' => ?_⟩
    · rw [List.length_cons, List.range'_succ, List.flatMap_cons]
      unfold cabanaTables
      rw [Nat.add_zero] at h1
      simp only [h1, h3, Option.bind_eq_bind, Option.bind_some]
    · cases k with
      | zero => simp at hT'; subst hT'; exact h2
      | succ k =>
        have := h5 k T' (by simpa using hT')
        rwa [show n + 1 + k = n + (k + 1) by omega] at this

/-- Setup of all elements. -/
theorem cabanaSetup {E : SFEnv} {names : List Str} (hN : E.Names names)
    (hlen : names.length ≤ 100000) {lines : List (List Str)} {conv : Option ℝ} {t : CutoffType}
    {α : ℝ} {st : ScalingType} {share : ℕ → List StatisticsLine} {Smin Smax : ℝ}
    {els : List ElementData} (hels : els.length = names.length)
    (hk : ∀ tok ∈ lines, KnownLine E tok)
    (hel : ∀ tok ∈ lines, ∃ k, (tok[0]?).bind E.element = some k)
    (h : ∀ k e, els[k]? = some e →
      SetupElement E (elementLines E lines k) conv t α (.lines st (share k) Smin Smax) e ∧
        (share k).length = e.symmetryFunctions.length) :
    ∃ rows tables, cabanaRows E names (conv.getD 1) lines = some rows ∧
      cabanaTables st Smin Smax ((List.range names.length).flatMap share) rows = some tables ∧
      tables.length = names.length ∧ ∀ (k : ℕ) (T : CabanaTable), tables[k]? = some T →
        ∃ e, els[k]? = some e ∧ T.Holds t α e.symmetryFunctions := by
  have hkl : ∀ k, ∀ tok ∈ elementLines E lines k, KnownLine E tok := fun k tok htok =>
    hk tok (List.mem_filter.1 htok).1
  have hr : ∀ tok ∈ lines, ∃ r, ∀ rows,
      cabanaAddRow E names (conv.getD 1) rows tok = some (rows ++ [r]) := by
    intro tok htok
    obtain ⟨k, hk0⟩ := hel tok htok
    obtain ⟨s0, hs0, he⟩ := Option.bind_eq_some_iff.1 hk0
    have hlt : k < els.length := by
      rw [hels]
      exact (List.getElem?_eq_some_iff.1 ((hN s0 k).1 he)).1
    obtain ⟨h1, h2⟩ := h k _ (List.getElem?_eq_getElem hlt)
    obtain ⟨rows, a1, -⟩ := cabanaTable_holds hN hlen h1 (hkl k) h2
    have hmem : tok ∈ elementLines E lines k := by simp [elementLines, htok, hk0]
    obtain ⟨i, hi, rfl⟩ := List.getElem_of_mem hmem
    exact ⟨_, (List.forall₂_iff_get.1 a1).2 i hi (by rw [← a1.length_eq]; exact hi)⟩
  have : Nonempty CabanaRow := ⟨.zero⟩
  choose! r hr using hr
  obtain ⟨tables, b1, b2, b3⟩ := cabanaRows_aux hN r lines (List.replicate names.length [])
    (by simp) hel hr
  have key := cabanaTables_aux (st := st) (Smin := Smin) (Smax := Smax) share tables 0
    (Q := fun k (T : CabanaTable) => ∃ e, els[k]? = some e ∧ T.Holds t α e.symmetryFunctions) ?_
  · obtain ⟨tabs, c1, c2, c3⟩ := key
    refine ⟨tables, tabs, b1, ?_, c2.trans b2, fun k T hT => ?_⟩
    · rw [List.range_eq_range', ← b2]
      exact c1
    · have := c3 k T hT
      rwa [Nat.zero_add] at this
  · intro k rows hrows rest
    rw [Nat.zero_add]
    obtain ⟨hlt, -⟩ := List.getElem?_eq_some_iff.1 hrows
    have hlt' : k < els.length := by omega
    obtain ⟨h1, h2⟩ := h k _ (List.getElem?_eq_getElem hlt')
    obtain ⟨rows', a1, a2⟩ := cabanaTable_holds hN hlen h1 (hkl k) h2
    have := b3 k [] (by rw [List.getElem?_replicate, if_pos (by omega)])
    rw [hrows, Option.some.injEq, List.nil_append] at this
    have hrr : rows = rows' := by
      rw [this]
      apply List.ext_getElem
      · rw [List.length_map, a1.length_eq]
      · intro i hi hi'
        have c1 := (List.forall₂_iff_get.1 a1).2 i (by simpa using hi) hi' []
        have hm : (elementLines E lines k).get ⟨i, by simpa using hi⟩ ∈ lines :=
          (List.mem_filter.1 (List.get_mem _ _)).1
        rw [hr _ hm] at c1
        simpa using c1
    rw [hrr]
    obtain ⟨T, d1, d2⟩ := a2 rest
    exact ⟨T, d1, _, List.getElem?_eq_getElem hlt', d2⟩

end N2P2
