import Verif.Lemma.SymGrpAll
import Verif.Lemma.SymFncOrder

/-! Groups with one Gaussian angular member, and existence of groups. -/

namespace N2P2

/-! ### The setup of groups has a result -/

open Classical in
theorem WeakOn.exists_sorted {α : Type} {P : α → Prop} {r : α → α → Prop} (h : WeakOn P r)
    (l : List α) (hl : ∀ x ∈ l, P x) : ∃ l' : List α, l'.Perm l ∧ l'.Pairwise fun x y => ¬ r y x := by
  set le : α → α → Bool := fun x y => decide ((P x ∧ P y ∧ ¬ r y x) ∨ ¬ P y) with hle
  have hp := List.mergeSort_perm l le
  have hs : (l.mergeSort le).Pairwise fun x y => le x y = true := by
    refine List.pairwise_mergeSort ?_ ?_ l
    · intro a b c h1 h2
      simp only [hle, decide_eq_true_eq] at h1 h2 ⊢
      by_cases hc : P c
      · obtain ⟨hb, -, h2⟩ := h2.resolve_right (not_not.2 hc)
        obtain ⟨ha, -, h1⟩ := h1.resolve_right (not_not.2 hb)
        exact Or.inl ⟨ha, hc, h.neg c b a hc hb ha h2 h1⟩
      · exact Or.inr hc
    · intro a b
      simp only [hle, Bool.or_eq_true, decide_eq_true_eq]
      by_cases hb : P b
      · by_cases ha : P a
        · by_cases hr : r b a
          · exact Or.inr (Or.inl ⟨hb, ha, h.asymm b a hb ha hr⟩)
          · exact Or.inl (Or.inl ⟨ha, hb, hr⟩)
        · exact Or.inr (Or.inr ha)
      · exact Or.inl (Or.inr hb)
  refine ⟨_, hp, (List.Pairwise.and_mem.1 hs).imp ?_⟩
  rintro x y ⟨_, hy, hxy⟩
  simp only [hle, decide_eq_true_eq] at hxy
  exact (hxy.resolve_right (not_not.2 (hl y (hp.mem_iff.1 hy)))).2.2

theorem exists_setupGroups' {Ss : List SymFnc} {c : ℝ} {t : CutoffType} {α : ℝ}
    (hd : ∀ S ∈ Ss, S.GroupData c t α) : ∃ gs, SetupGroups Ss gs := by
  obtain ⟨gs0, e, hg, -⟩ := SymGrp.addAll_some Ss hd [] (by simp)
  have : ∀ gs : List SymGrp, (∀ g ∈ gs, g.Grown c t α) →
      ∃ gs', List.Forall₂ SymGrp.SortMembers gs gs' := by
    intro gs
    induction gs with
    | nil => intro _; exact ⟨[], .nil⟩
    | cons g gs ih =>
      intro hg
      obtain ⟨gs', h⟩ := ih fun x hx => hg x (List.mem_cons_of_mem _ hx)
      obtain ⟨l, h1, h2⟩ := SymFnc.lt_weakOn.exists_sorted g.members
        fun S hS => ((hg g List.mem_cons_self).data S hS).type
      exact ⟨_ :: gs', .cons ⟨l, h1, h2, rfl⟩ h⟩
  obtain ⟨gs2, h2⟩ := this gs0 hg
  exact ⟨_, gs0, gs0, gs2, e, List.Perm.refl _, h2, rfl⟩

theorem SymGrp.rowsFrom_map (kind : SFKind) (l : List SymFnc) :
    ∀ prev, (SymGrp.rowsFrom kind prev l).map GrpMember.sf = l := by
  induction l with
  | nil => intro _; rfl
  | cons S l ih => intro prev; simp [SymGrp.rowsFrom, SymGrp.row, ih]

/-- Each function is in one group. -/
theorem SetupGroups.perm {Ss : List SymFnc} {gs : List SymGrp} (h : SetupGroups Ss gs)
    {c : ℝ} {t : CutoffType} {α : ℝ} (hd : ∀ S ∈ Ss, S.GroupData c t α) :
    (gs.flatMap fun g => g.rows.map GrpMember.sf).Perm Ss := by
  obtain ⟨gs0, gs1, gs2, h0, hp, hs, rfl⟩ := h
  obtain ⟨gs', e, -, hm⟩ := SymGrp.addAll_some Ss hd [] (by simp)
  rw [h0] at e
  cases e
  have hm1 : (gs1.flatMap SymGrp.members).Perm Ss :=
    (hp.flatMap_right _).trans (by simpa using hm)
  refine List.Perm.trans ?_ hm1
  clear hm1 hm hp h0
  induction hs with
  | nil => rfl
  | cons hs _ ih =>
    rename_i g g' l l' _
    obtain ⟨k, h1, -, rfl⟩ := hs
    rw [List.map_cons, List.flatMap_cons, List.flatMap_cons]
    refine List.Perm.append ?_ ih
    have : (SymGrp.setScalingFactors { g with
        members := k, rows := SymGrp.rowsFrom g.kind none k }).rows.map GrpMember.sf = k := by
      unfold SymGrp.setScalingFactors
      rw [List.map_map]
      exact SymGrp.rowsFrom_map g.kind k none
    rw [this]
    exact h1

/-! ### One member -/

/-- The group of a single Gaussian angular function. -/
noncomputable def SymGrp.single (S : SymFnc) : SymGrp :=
  { SymGrp.create S.kind with
    ec := S.sc.ec
    e1 := S.e1
    e2 := S.e2
    cutoffType := S.cutoffType
    cutoffAlpha := S.cutoffAlpha
    rc := S.rc
    convLength := S.convLength
    fc := mkCutoff S.cutoffType S.rc S.cutoffAlpha
    members := [S]
    rows := [{ SymGrp.row S.kind none S with
      scalingFactor := S.sf
      factorNorm := 2 ^ (1 - S.zeta) * S.sf }] }

theorem SetupGroups.single {S : SymFnc} {gs : List SymGrp} (h : SetupGroups [S] gs) {c : ℝ}
    {t : CutoffType} {α : ℝ} (hd : S.GroupData c t α)
    (hk : S.kind = .ExpAngn ∨ S.kind = .ExpAngw ∨ S.kind = .ExpAngnWeighted) :
    gs = [SymGrp.single S] := by
  classical
  have he : S.IsExp := by unfold SymFnc.IsExp; tauto
  obtain ⟨h1, h2, h3, h4⟩ := hd.cutoff he
  have hfc : (((SymGrp.create S.kind).fc.setCutoffType S.cutoffType).setCutoffRadius
      S.rc).setCutoffParameter S.cutoffAlpha = some (mkCutoff S.cutoffType S.rc S.cutoffAlpha) := by
    rw [h2]; exact mkCutoff_adopt h4
  have hadd : (SymGrp.create S.kind).addMember S = some (some
      { SymGrp.single S with rows := [] }) := by
    unfold SymGrp.addMember
    rw [if_neg (by rw [hd.type]; simp [SymGrp.create])]
    have hm : (SymGrp.create S.kind).members = [] := rfl
    rw [if_pos hm]
    unfold SymGrp.adopt
    rw [hfc]
    rcases hk with hk | hk | hk <;>
      simp [SymGrp.create, hk, SymGrp.accepts, SymGrp.push, SymGrp.single]
  obtain ⟨gs0, gs1, gs2, e0, hp, hs, rfl⟩ := h
  have : gs0 = [{ SymGrp.single S with rows := [] }] := by
    simp [SymGrp.addToGroups, hadd] at e0
    exact e0.symm
  subst this
  obtain rfl := List.perm_singleton.1 hp
  cases hs with
  | cons hs hs' =>
    cases hs'
    obtain ⟨l, h5, -, rfl⟩ := hs
    obtain rfl : l = [S] := List.perm_singleton.1 h5
    rcases hk with hk | hk | hk <;>
      simp [SymGrp.setScalingFactors, SymGrp.rowsFrom, SymGrp.row, SymGrp.single, SymGrp.create, hk]

theorem setupGroups_single {S : SymFnc} {c : ℝ} {t : CutoffType} {α : ℝ} (hd : S.GroupData c t α)
    (hk : S.kind = .ExpAngn ∨ S.kind = .ExpAngw ∨ S.kind = .ExpAngnWeighted) :
    SetupGroups [S] [SymGrp.single S] := by
  obtain ⟨gs, h⟩ := exists_setupGroups' (Ss := [S]) (by simpa using hd)
  rwa [h.single hd hk] at h

/-! ### Negative shifts -/

/-- The function with another shift. -/
def SymFnc.withShift (S : SymFnc) (x : ℝ) : SymFnc := { S with rs := x }

theorem SymFnc.withShift_ready {S : SymFnc} {a : Atom} {d : Bool} {L : CacheLayout} {R : ℝ}
    (h : S.GroupReady a d L R) (hx : S.IsExp) (x : ℝ) : (S.withShift x).GroupReady a d L R :=
  ⟨⟨h.valid.rc_pos, h.valid.fc, h.valid.cr, h.valid.ca, h.valid.zeta, h.valid.pow⟩, h.list,
    ⟨h.allocated.G, h.allocated.dGdr, h.allocated.cache, h.allocated.slot⟩,
    fun he => absurd hx he, h.disjoint,
    h.slots, h.uniform, h.le, h.cache⟩

theorem SymFnc.withShift_data {S : SymFnc} {c : ℝ} {t : CutoffType} {α : ℝ}
    (h : S.GroupData c t α) (x : ℝ) : (S.withShift x).GroupData c t α :=
  ⟨h.type, h.conv, h.cutoff, h.cr, h.radians⟩

theorem bodyExp_withShift {S : SymFnc} (hk : S.kind = .ExpAngn ∨ S.kind = .ExpAngw)
    (hrs : S.rs < 0) (d : Bool) (nj nk : Neighbor) (pij pik : ℝ × ℝ) (e : SymGrp.ExpShift)
    (m m' : GrpMember) (hm : (SymGrp.single S).rows = [m])
    (hm' : (SymGrp.single (S.withShift 0)).rows = [m']) :
    (SymGrp.single S).bodyExp d m nj nk pij pik e =
      (SymGrp.single (S.withShift 0)).bodyExp d m' nj nk pij pik e := by
  classical
  obtain rfl := (List.singleton_inj.1 hm).symm
  obtain rfl := (List.singleton_inj.1 hm').symm
  have h1 : ¬ (0 < S.rs) := not_lt.2 hrs.le
  unfold SymGrp.bodyExp
  rcases hk with hk | hk
  · have k1 : (SymGrp.single S).kind = .ExpAngn := hk
    have k2 : (SymGrp.single (S.withShift 0)).kind = .ExpAngn := hk
    rw [k1, k2]
    simp only [SymGrp.bodyExpAngn, SymGrp.shiftExpAngn, SymGrp.row, SymFnc.withShift, h1,
      if_false, if_true, lt_irrefl, SymGrp.single, SymGrp.isFresh, SymGrp.power]
    rfl
  · have k1 : (SymGrp.single S).kind = .ExpAngw := hk
    have k2 : (SymGrp.single (S.withShift 0)).kind = .ExpAngw := hk
    rw [k1, k2]
    simp only [SymGrp.bodyExpAngw, SymGrp.shiftExpAngw, SymGrp.row, SymFnc.withShift, h1,
      if_false, if_true, lt_irrefl, SymGrp.isFresh, SymGrp.power]
    rfl

/-- A group ignores a negative shift. -/
theorem single_withShift {S : SymFnc} (hk : S.kind = .ExpAngn ∨ S.kind = .ExpAngw)
    (hrs : S.rs < 0) (a : Atom) (d : Bool) :
    (SymGrp.single S).calculate a d = (SymGrp.single (S.withShift 0)).calculate a d := by
  have hmem : ∀ j k nj nk pij pik, (SymGrp.single S).expAngMember d j k nj nk pij pik =
      (SymGrp.single (S.withShift 0)).expAngMember d j k nj nk pij pik := by
    intro j k nj nk pij pik
    funext s l
    unfold SymGrp.expAngMember
    cases l with
    | succ l => rfl
    | zero =>
      have e1 : (SymGrp.single S).rows[0]? = some _ := rfl
      have e2 : (SymGrp.single (S.withShift 0)).rows[0]? = some _ := rfl
      rw [e1, e2]
      simp only [Option.bind_eq_bind, Option.bind_some]
      rw [bodyExp_withShift hk hrs d nj nk pij pik s.1 _ _ rfl rfl]
      rfl
  have hstep : ∀ j pij, (SymGrp.single S).expAngStep d j pij =
      (SymGrp.single (S.withShift 0)).expAngStep d j pij := by
    intro j pij
    funext s k
    unfold SymGrp.expAngStep
    simp only [hmem]
    rfl
  have hout : ∀ m, (SymGrp.single S).expAngOuterStep d m =
      (SymGrp.single (S.withShift 0)).expAngOuterStep d m := by
    intro m
    funext s j
    unfold SymGrp.expAngOuterStep
    simp only [hstep]
    rfl
  have hcalc : (SymGrp.single S).expAngCalculate a d =
      (SymGrp.single (S.withShift 0)).expAngCalculate a d := by
    unfold SymGrp.expAngCalculate
    simp only [hout]
    rfl
  unfold SymGrp.calculate
  have k1 : (SymGrp.single S).kind = S.kind := rfl
  have k2 : (SymGrp.single (S.withShift 0)).kind = S.kind := rfl
  rw [k1, k2, hcalc]
  rcases hk with hk | hk <;> rw [hk] <;> rfl

end N2P2
