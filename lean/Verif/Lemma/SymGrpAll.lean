import Verif.Lemma.SymGrpSetup
import Verif.Lemma.ModeFold

/-! All groups of an element together do the same as the functions one by one. -/

namespace N2P2

theorem SymFnc.Ready.group {S : SymFnc} {a : Atom} {d : Bool} {L : CacheLayout} {R : ℝ}
    (h : S.Ready a d L R) : S.GroupReady a d L R := by
  refine ⟨h.valid, h.list, h.allocated, h.triplets, h.disjoint, h.use.slots, ?_, h.le, h.cache⟩
  intro hk e e' ci ci' h1 h2
  have hr : ∀ e, S.checkRelevantElement e = true := by
    intro e; simp [SymFnc.checkRelevantElement, hk]
  exact h.use.uniform (by simp [SymFnc.IsExp, hk]) (by simp [SymFnc.IsAng, hk]) e e' ci ci'
    (hr e) (hr e') h1 h2

/-! ### Order of the functions -/

theorem modify_add_comm (l : List Vec3) (i j : ℕ) (x y : Vec3) :
    (l.modify i (· + x)).modify j (· + y) = (l.modify j (· + y)).modify i (· + x) := by
  refine List.ext_getElem? fun k => ?_
  simp only [List.getElem?_modify]
  cases l[k]? with
  | none => rfl
  | some v =>
    by_cases h1 : i = k <;> by_cases h2 : j = k <;> simp [h1, h2]
    abel

theorem modify_sub_comm (l : List Vec3) (i j : ℕ) (x y : Vec3) :
    (l.modify i (· - x)).modify j (· - y) = (l.modify j (· - y)).modify i (· - x) := by
  have := modify_add_comm l i j (-x) (-y)
  simpa only [← sub_eq_add_neg] using this

theorem SymFnc.pure_comm {S T : SymFnc} (hS : S.Valid) (hT : T.Valid) (hne : S.index ≠ T.index)
    (d : Bool) (b : Atom) : S.pure d (T.pure d b) = T.pure d (S.pure d b) := by
  have tS : S.total d (T.pure d b) = S.total d b := SymFnc.total_congr hS d (T.pure_bare d b)
  have tT : T.total d (S.pure d b) = T.total d b := SymFnc.total_congr hT d (S.pure_bare d b)
  have eS : (T.pure d b).env = b.env := Atom.env_congr (T.pure_bare d b)
  have eT : (S.pure d b).env = b.env := Atom.env_congr (S.pure_bare d b)
  have hn : (S.pure d (T.pure d b)).neighbors = (T.pure d (S.pure d b)).neighbors := by
    refine List.ext_getElem? fun k => ?_
    unfold SymFnc.pure at tS tT ⊢
    rw [S.finish_neighbor, T.finish_neighbor, T.finish_neighbor, S.finish_neighbor, tS, tT]
    cases b.neighbors[k]? with
    | none => rfl
    | some n =>
      simp only [Option.map_some, SymFnc.concN]
      rw [modify_sub_comm]
  have hg : (S.pure d (T.pure d b)).dGdr = (T.pure d (S.pure d b)).dGdr := by
    have e1 : (S.pure d (T.pure d b)).dGdr =
      (b.dGdr.modify T.index (· + (T.total d b).2.1)).modify S.index
        (· + (S.total d (T.pure d b)).2.1) := rfl
    have e2 : (T.pure d (S.pure d b)).dGdr =
      (b.dGdr.modify S.index (· + (S.total d b).2.1)).modify T.index
        (· + (T.total d (S.pure d b)).2.1) := rfl
    rw [e1, e2, tS, tT, modify_add_comm]
  have hG : (S.pure d (T.pure d b)).G = (T.pure d (S.pure d b)).G := by
    have e1 : (S.pure d (T.pure d b)).G = (b.G.set T.index (T.sc.scale (T.formula b.env))).set
      S.index (S.sc.scale (S.formula (T.pure d b).env)) := rfl
    have e2 : (T.pure d (S.pure d b)).G = (b.G.set S.index (S.sc.scale (S.formula b.env))).set
      T.index (T.sc.scale (T.formula (S.pure d b).env)) := rfl
    rw [e1, e2, eS, eT, List.set_comm _ _ hne.symm]
  have h1 := pureAll_rest d b [T, S]
  have h2 := pureAll_rest d b [S, T]
  have e1 : pureAll d b [T, S] = S.pure d (T.pure d b) := rfl
  have e2 : pureAll d b [S, T] = T.pure d (S.pure d b) := rfl
  rw [e1] at h1
  rw [e2] at h2
  rw [h1, h2, hn, hg, hG]

theorem pureAll_cons (d : Bool) (b : Atom) (S : SymFnc) (l : List SymFnc) :
    pureAll d b (S :: l) = pureAll d (S.pure d b) l := by
  unfold pureAll
  rw [List.foldl_cons]

theorem pureAll_perm {d : Bool} {l l' : List SymFnc} (hp : l.Perm l') (hV : ∀ S ∈ l, S.Valid)
    (hi : l.Pairwise fun S T => S.index ≠ T.index) (b : Atom) : pureAll d b l = pureAll d b l' := by
  induction hp generalizing b with
  | nil => rfl
  | cons S hp ih =>
    rw [pureAll_cons, pureAll_cons]
    exact ih (fun T hT => hV T (List.mem_cons_of_mem _ hT)) (List.pairwise_cons.1 hi).2 _
  | swap S T l =>
    have hne : T.index ≠ S.index := (List.pairwise_cons.1 hi).1 S List.mem_cons_self
    have := SymFnc.pure_comm (hV T (by simp)) (hV S (by simp)) hne d b
    rw [pureAll_cons, pureAll_cons, pureAll_cons, pureAll_cons, this]
  | trans h1 h2 ih1 ih2 =>
    rw [ih1 hV hi b]
    refine ih2 (fun T hT => hV T (h1.mem_iff.2 hT)) ?_ b
    exact (h1.pairwise_iff (fun h => Ne.symm h)).1 hi

/-! ### The groups after the setup -/

theorem SameCompact.mono {Ss Ts : List SymFnc} (h : SameCompact Ss) (hs : ∀ S ∈ Ts, S ∈ Ss) :
    SameCompact Ts :=
  fun S hS T hT => h S (hs S hS) T (hs T hT)

theorem SetupGroups.formed {Ss : List SymFnc} {gs : List SymGrp} (h : SetupGroups Ss gs)
    {c : ℝ} {t : CutoffType} {α : ℝ} (hd : ∀ S ∈ Ss, S.GroupData c t α) (hc : SameCompact Ss) :
    ∃ ls : List (List SymFnc), ls.flatten.Perm Ss ∧ List.Forall₂ (fun g l => ∃ f,
      g.Formed f ∧ (List.range g.rows.length).map f = l) gs ls := by
  obtain ⟨gs0, gs1, gs2, h0, hp, hs, rfl⟩ := h
  obtain ⟨gs', e, hg, hm⟩ := SymGrp.addAll_some Ss hd [] (by simp)
  rw [h0] at e
  cases e
  have hg1 : ∀ g ∈ gs1, g.Grown c t α := fun g hg' => hg g (hp.mem_iff.1 hg')
  have hm1 : (gs1.flatMap SymGrp.members).Perm Ss :=
    (hp.flatMap_right _).trans (by simpa using hm)
  have hc1 : ∀ g ∈ gs1, SameCompact g.members := fun g hg' =>
    hc.mono fun S hS => hm1.mem_iff.1 (List.mem_flatMap.2 ⟨g, hg', hS⟩)
  clear h0 hp hg hm hc hd
  refine ⟨gs2.map SymGrp.members, ?_, ?_⟩
  · refine List.Perm.trans ?_ hm1
    clear hm1
    induction hs with
    | nil => rfl
    | cons hs _ ih =>
      rename_i g g' l l' _
      obtain ⟨S0, _⟩ := List.exists_mem_of_ne_nil _ (hg1 g List.mem_cons_self).nonempty
      obtain ⟨-, -, h3⟩ := (hg1 g List.mem_cons_self).formed hs (hc1 g List.mem_cons_self) S0
      rw [List.map_cons, List.flatten_cons, List.flatMap_cons]
      exact h3.append (ih (fun x hx => hg1 x (List.mem_cons_of_mem _ hx))
        fun x hx => hc1 x (List.mem_cons_of_mem _ hx))
  · clear hm1
    induction hs with
    | nil => exact List.Forall₂.nil
    | cons hs _ ih =>
      rename_i g g' l l' _
      obtain ⟨S0, _⟩ := List.exists_mem_of_ne_nil _ (hg1 g List.mem_cons_self).nonempty
      obtain ⟨h1, h2, -⟩ := (hg1 g List.mem_cons_self).formed hs (hc1 g List.mem_cons_self) S0
      exact List.Forall₂.cons ⟨_, h1, h2⟩ (ih (fun x hx => hg1 x (List.mem_cons_of_mem _ hx))
        fun x hx => hc1 x (List.mem_cons_of_mem _ hx))

theorem groups_eq {gs : List SymGrp} {ls : List (List SymFnc)} {d : Bool} {L : CacheLayout} {R : ℝ}
    (h : List.Forall₂ (fun g l => ∃ f, SymGrp.Formed g f ∧
      (List.range g.rows.length).map f = l) gs ls) :
    ∀ {a : Atom}, (∀ S ∈ ls.flatten, S.GroupReady a d L R) → (∀ S ∈ ls.flatten, S.Groupable d) →
    ∃ a', calculateSymmetryFunctionGroups gs a d = some a' ∧
      a'.forgetCaches = pureAll d a.forgetCaches ls.flatten ∧
      ∀ T : SymFnc, T.GroupReady a d L R → T.GroupReady a' d L R := by
  unfold calculateSymmetryFunctionGroups
  induction h with
  | nil => intro a _ _; exact ⟨a, rfl, rfl, fun _ hT => hT⟩
  | cons hgl _ ih =>
    rename_i g l gs ls _
    intro a hr hG
    obtain ⟨f, hF, rfl⟩ := hgl
    have hmem : ∀ i < g.rows.length, f i ∈ (((List.range g.rows.length).map f) :: ls).flatten := by
      intro i hi
      rw [List.flatten_cons]
      exact List.mem_append_left _ (List.mem_map.2 ⟨i, List.mem_range.2 hi, rfl⟩)
    obtain ⟨a1, e1, f1, k1⟩ := hF.calculate (fun i hi => hr _ (hmem i hi))
      (fun i hi => hG _ (hmem i hi))
    obtain ⟨a2, e2, f2, k2⟩ := ih (a := a1)
      (fun T hT => k1 T (hr T (by rw [List.flatten_cons]; exact List.mem_append_right _ hT)))
      (fun T hT => hG T (by rw [List.flatten_cons]; exact List.mem_append_right _ hT))
    refine ⟨a2, ?_, ?_, fun T hT => k2 T (k1 T hT)⟩
    · rw [List.foldlM_cons, e1]
      exact e2
    · rw [f2, f1, List.flatten_cons]
      unfold pureAll
      rw [List.foldl_append]

/-- The groups of an element calculate the same as its functions one by one. -/
theorem SetupGroups.calculate {Ss : List SymFnc} {gs : List SymGrp} (h : SetupGroups Ss gs)
    {c : ℝ} {t : CutoffType} {α : ℝ} (hd : ∀ S ∈ Ss, S.GroupData c t α) (hc : SameCompact Ss)
    (hi : Ss.Pairwise fun S T => S.index ≠ T.index) {a : Atom} {d : Bool} {L : CacheLayout} {R : ℝ}
    (hr : ∀ S ∈ Ss, S.GroupReady a d L R) (hG : ∀ S ∈ Ss, S.Groupable d) :
    ∃ a', calculateSymmetryFunctionGroups gs a d = some a' ∧
      a'.forgetCaches = pureAll d a.forgetCaches Ss := by
  obtain ⟨ls, hp, hf⟩ := h.formed hd hc
  obtain ⟨a', h1, h2, -⟩ := groups_eq hf (fun S hS => hr S (hp.mem_iff.1 hS))
    (fun S hS => hG S (hp.mem_iff.1 hS))
  refine ⟨a', h1, ?_⟩
  rw [h2]
  refine pureAll_perm hp (fun S hS => (hr S (hp.mem_iff.1 hS)).valid) ?_ _
  exact (hp.pairwise_iff (fun h => Ne.symm h)).2 hi

/-- The setup of groups has a result. -/
theorem exists_setupGroups {Ss : List SymFnc} {c : ℝ} {t : CutoffType} {α : ℝ}
    (hd : ∀ S ∈ Ss, S.GroupData c t α) (hs : ∀ l : List SymFnc, ∃ l' : List SymFnc,
      l'.Perm l ∧ l'.Pairwise fun S T => ¬ T.lt S) : ∃ gs, SetupGroups Ss gs := by
  obtain ⟨gs0, e, -, -⟩ := SymGrp.addAll_some Ss hd [] (by simp)
  have : ∀ gs : List SymGrp, ∃ gs', List.Forall₂ SymGrp.SortMembers gs gs' := by
    intro gs
    induction gs with
    | nil => exact ⟨[], .nil⟩
    | cons g gs ih =>
      obtain ⟨gs', h⟩ := ih
      obtain ⟨l, h1, h2⟩ := hs g.members
      exact ⟨_ :: gs', .cons ⟨l, h1, h2, rfl⟩ h⟩
  obtain ⟨gs2, h2⟩ := this gs0
  exact ⟨_, gs0, gs0, gs2, e, List.Perm.refl _, h2, rfl⟩

end N2P2
