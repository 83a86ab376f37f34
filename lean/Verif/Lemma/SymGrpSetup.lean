import Verif.Lemma.SymGrpEval
import Verif.Lemma.ModeElement

/-! The groups made by the setup. -/

namespace N2P2

theorem SFKind.eq_of_number {k k' : SFKind} (h : k.number = k'.number) : k = k' := by
  revert h
  cases k <;> cases k' <;> simp [SFKind.number]

/-- A group to which members have been added. -/
structure SymGrp.Grown (c : ℝ) (t : CutoffType) (α : ℝ) (g : SymGrp) : Prop where
  nonempty : g.members ≠ []
  conv : g.convLength = c
  data : ∀ S ∈ g.members, S.GroupData c t α
  kind : ∀ S ∈ g.members, S.kind = g.kind
  elements : ∀ S ∈ g.members, match g.kind with
    | .ExpRad | .CompRad => S.e1 = g.e1
    | .ExpAngn | .ExpAngw | .CompAngn | .CompAngw => S.e1 = g.e1 ∧ S.e2 = g.e2
    | _ => True
  cutoff : ∀ S ∈ g.members, S.IsExp → S.rc = g.rc ∧ g.fc = mkCutoff t g.rc α
  range : ∀ S ∈ g.members, ¬ S.IsExp → g.rmin = 0 ∧ S.rc ≤ g.rmax

theorem mkCutoff_adopt {t : CutoffType} {rc α : ℝ} (h : 0 ≤ α ∧ α < 1) :
    ((CutoffFunction.init.setCutoffType t).setCutoffRadius rc).setCutoffParameter α =
      some (mkCutoff t rc α) := by
  unfold CutoffFunction.setCutoffParameter
  rw [if_neg (by push Not; exact h)]
  cases t <;> norm_num [mkCutoff, CutoffFunction.setCutoffRadius, CutoffFunction.setCutoffType,
    CutoffFunction.init, coreOfCutoff]

theorem SymGrp.create_addMember {c : ℝ} {t : CutoffType} {α : ℝ} {S : SymFnc}
    (h : S.GroupData c t α) : ∃ g, (SymGrp.create S.kind).addMember S = some (some g) ∧
      g.Grown c t α ∧ g.members = [S] := by
  classical
  unfold SymGrp.addMember
  rw [if_neg (by rw [h.type]; simp [SymGrp.create])]
  have hm : (SymGrp.create S.kind).members = [] := rfl
  rw [if_pos hm]
  by_cases he : S.IsExp
  · obtain ⟨h1, h2, h3, h4⟩ := h.cutoff he
    have hfc : (((SymGrp.create S.kind).fc.setCutoffType S.cutoffType).setCutoffRadius
        S.rc).setCutoffParameter S.cutoffAlpha = some (mkCutoff t S.rc α) := by
      rw [h1, h2]; exact mkCutoff_adopt h4
    have had : (SymGrp.create S.kind).adopt S = some { SymGrp.create S.kind with
        ec := S.sc.ec, e1 := S.e1, e2 := S.e2, cutoffType := S.cutoffType
        cutoffAlpha := S.cutoffAlpha, rc := S.rc, convLength := S.convLength
        fc := mkCutoff t S.rc α } := by
      unfold SymGrp.adopt
      rw [hfc]
      rcases he with hk | hk | hk | hk | hk <;> simp [SymGrp.create, hk]
    rw [had]
    simp only [Option.bind_eq_bind, Option.bind_some]
    rw [if_pos (by rcases he with hk | hk | hk | hk | hk <;> simp [SymGrp.accepts, SymGrp.create, hk]),
      if_neg (by simp)]
    refine ⟨_, rfl, ?_, ?_⟩
    · have he' := he
      rcases he with hk | hk | hk | hk | hk <;>
        (constructor <;> simp [SymGrp.push, SymGrp.create, hk, h, h.conv, he'])
    · rcases he with hk | hk | hk | hk | hk <;> simp [SymGrp.push, SymGrp.create, hk]
  · have had : (SymGrp.create S.kind).adopt S = some { SymGrp.create S.kind with
        ec := S.sc.ec, e1 := S.e1, e2 := S.e2, convLength := S.convLength } := by
      unfold SymGrp.adopt
      cases hk : S.kind <;> first
        | (exfalso; apply he; simp [SymFnc.IsExp, hk]; done)
        | simp [SymGrp.create]
    rw [had]
    simp only [Option.bind_eq_bind, Option.bind_some]
    have hacc : SymGrp.accepts { SymGrp.create S.kind with
        ec := S.sc.ec, e1 := S.e1, e2 := S.e2, convLength := S.convLength } S := by
      cases hk : S.kind <;> first
        | (exfalso; apply he; simp [SymFnc.IsExp, hk]; done)
        | simp [SymGrp.accepts, SymGrp.create]
    rw [if_pos hacc, if_neg (by simp)]
    have hpush : SymGrp.push { SymGrp.create S.kind with
        ec := S.sc.ec, e1 := S.e1, e2 := S.e2, convLength := S.convLength } S =
        { SymGrp.create S.kind with
          ec := S.sc.ec, e1 := S.e1, e2 := S.e2, convLength := S.convLength
          rmin := 0, rmax := max 0 S.rc, members := [S] } := by
      have hmin : (if S.rl ≤ 0 then (0 : ℝ) else min 0 S.rl) = 0 := by
        split
        · rfl
        · exact min_eq_left (by linarith)
      unfold SymGrp.push
      cases hk : S.kind <;> first
        | (exfalso; apply he; simp [SymFnc.IsExp, hk]; done)
        | simp [SymGrp.create, hmin]
    rw [hpush]
    refine ⟨_, rfl, ?_, rfl⟩
    constructor
    · simp
    · exact h.conv
    · simpa using h
    · simp [SymGrp.create]
    · intro T hT
      cases List.mem_singleton.1 hT
      cases hk : S.kind <;> simp [SymGrp.create]
    · intro T hT hx
      cases List.mem_singleton.1 hT
      exact absurd hx he
    · intro T hT _
      cases List.mem_singleton.1 hT
      exact ⟨rfl, le_max_right _ _⟩

theorem SymGrp.accepts_elements {g : SymGrp} {S : SymFnc} (h : g.accepts S) : match g.kind with
    | .ExpRad | .CompRad => S.e1 = g.e1
    | .ExpAngn | .ExpAngw | .CompAngn | .CompAngw => S.e1 = g.e1 ∧ S.e2 = g.e2
    | _ => True := by
  unfold SymGrp.accepts at h
  cases hk : g.kind <;> simp only [hk] at h ⊢ <;> tauto

theorem SymGrp.accepts_rc {g : SymGrp} {S : SymFnc} (h : g.accepts S) (hk : S.kind = g.kind)
    (hx : S.IsExp) : S.rc = g.rc := by
  unfold SymGrp.accepts at h
  unfold SymFnc.IsExp at hx
  rw [hk] at hx
  rcases hx with hk | hk | hk | hk | hk <;> simp only [hk] at h <;> tauto

theorem SymGrp.Grown.addMember {c : ℝ} {t : CutoffType} {α : ℝ} {S : SymFnc} {g : SymGrp}
    (hg : g.Grown c t α) (h : S.GroupData c t α) : ∃ r, g.addMember S = some r ∧
      ∀ g', r = some g' → g'.Grown c t α ∧ g'.members = g.members ++ [S] := by
  classical
  unfold SymGrp.addMember
  by_cases ht : S.sc.type ≠ g.kind.number
  · rw [if_pos ht]
    exact ⟨none, rfl, fun _ h => absurd h (by simp)⟩
  rw [if_neg ht]
  simp only [hg.nonempty, ↓reduceIte, Option.bind_eq_bind, Option.bind_some]
  push Not at ht
  rw [h.type] at ht
  have hkind : S.kind = g.kind := SFKind.eq_of_number ht
  by_cases ha : g.accepts S
  swap
  · rw [if_neg ha]; exact ⟨none, rfl, fun _ h => absurd h (by simp)⟩
  rw [if_pos ha, if_neg (by rw [h.conv, hg.conv]; simp)]
  refine ⟨_, rfl, ?_⟩
  rintro g' e
  have e := (Option.some.inj e).symm
  obtain ⟨T0, hT0⟩ := List.exists_mem_of_ne_nil _ hg.nonempty
  have hmem : ∀ T, T ∈ g.members ++ [S] → T ∈ g.members ∨ T = S := by
    intro T hT; simpa using hT
  by_cases he : S.IsExp
  · have hpush : g.push S = { g with members := g.members ++ [S] } := by
      unfold SymGrp.push
      rw [hkind.symm]
      rcases he with hk | hk | hk | hk | hk <;> simp [hk]
    rw [hpush] at e
    subst e
    refine ⟨⟨by simp, hg.conv, ?_, ?_, ?_, ?_, ?_⟩, rfl⟩
    · intro T hT
      rcases hmem T hT with hT | rfl
      · exact hg.data T hT
      · exact h
    · intro T hT
      rcases hmem T hT with hT | rfl
      · exact hg.kind T hT
      · exact hkind
    · intro T hT
      rcases hmem T hT with hT | rfl
      · exact hg.elements T hT
      · exact SymGrp.accepts_elements ha
    · intro T hT hx
      rcases hmem T hT with hT | rfl
      · exact hg.cutoff T hT hx
      · have hT0x : T0.IsExp := by
          unfold SymFnc.IsExp at he ⊢
          rw [hg.kind T0 hT0, ← hkind]; exact he
        exact ⟨SymGrp.accepts_rc ha hkind he, (hg.cutoff T0 hT0 hT0x).2⟩
    · intro T hT hx
      rcases hmem T hT with hT | rfl
      · exact hg.range T hT hx
      · exact absurd he hx
  · have hT0x : ¬ T0.IsExp := by
      unfold SymFnc.IsExp at he ⊢
      rw [hg.kind T0 hT0, ← hkind]; exact he
    have hmin : (if S.rl ≤ 0 then (0 : ℝ) else min 0 S.rl) = 0 := by
      split
      · rfl
      · exact min_eq_left (by linarith)
    have hpush : g.push S = { g with
        rmin := 0, rmax := max g.rmax S.rc, members := g.members ++ [S] } := by
      unfold SymGrp.push
      rw [(hg.range T0 hT0 hT0x).1, hmin, hkind.symm]
      cases hk : S.kind <;> first
        | (exfalso; apply he; simp [SymFnc.IsExp, hk]; done)
        | rfl
    rw [hpush] at e
    subst e
    refine ⟨⟨by simp, hg.conv, ?_, ?_, ?_, ?_, ?_⟩, rfl⟩
    · intro T hT
      rcases hmem T hT with hT | rfl
      · exact hg.data T hT
      · exact h
    · intro T hT
      rcases hmem T hT with hT | rfl
      · exact hg.kind T hT
      · exact hkind
    · intro T hT
      rcases hmem T hT with hT | rfl
      · exact hg.elements T hT
      · exact SymGrp.accepts_elements ha
    · intro T hT hx
      rcases hmem T hT with hT | rfl
      · exact hg.cutoff T hT hx
      · exact absurd hx he
    · intro T hT hx
      rcases hmem T hT with hT | rfl
      · exact ⟨rfl, (hg.range T hT hx).2.trans (le_max_left _ _)⟩
      · exact ⟨rfl, le_max_right _ _⟩

theorem SymGrp.addToGroups_some {c : ℝ} {t : CutoffType} {α : ℝ} {S : SymFnc}
    (h : S.GroupData c t α) (gs : List SymGrp) (hg : ∀ g ∈ gs, g.Grown c t α) :
    ∃ gs', SymGrp.addToGroups S gs = some gs' ∧ (∀ g ∈ gs', g.Grown c t α) ∧
      (gs'.flatMap SymGrp.members).Perm (gs.flatMap SymGrp.members ++ [S]) := by
  induction gs with
  | nil =>
    obtain ⟨g, e, h1, h2⟩ := SymGrp.create_addMember h
    refine ⟨[g], ?_, by simpa using h1, by simp [h2]⟩
    unfold SymGrp.addToGroups
    rw [e]
    rfl
  | cons g gs ih =>
    obtain ⟨r, e, hr⟩ := (hg g List.mem_cons_self).addMember h
    unfold SymGrp.addToGroups
    rw [e]
    simp only [Option.bind_eq_bind, Option.bind_some]
    cases r with
    | some g' =>
      obtain ⟨h1, h2⟩ := hr g' rfl
      refine ⟨g' :: gs, rfl, ?_, ?_⟩
      · intro x hx
        rcases List.mem_cons.1 hx with rfl | hx
        · exact h1
        · exact hg x (List.mem_cons_of_mem _ hx)
      · rw [List.flatMap_cons, List.flatMap_cons, h2, List.append_assoc, List.append_assoc]
        exact List.perm_append_comm.append_left _
    | none =>
      obtain ⟨gs', e', h1, h2⟩ := ih fun x hx => hg x (List.mem_cons_of_mem _ hx)
      refine ⟨g :: gs', by simp [e'], ?_, ?_⟩
      · intro x hx
        rcases List.mem_cons.1 hx with rfl | hx
        · exact hg x List.mem_cons_self
        · exact h1 x hx
      · rw [List.flatMap_cons, List.flatMap_cons, List.append_assoc]
        exact h2.append_left _

theorem SymGrp.addAll_some {c : ℝ} {t : CutoffType} {α : ℝ} (Ss : List SymFnc)
    (h : ∀ S ∈ Ss, S.GroupData c t α) : ∀ gs : List SymGrp, (∀ g ∈ gs, g.Grown c t α) →
    ∃ gs', Ss.foldlM (fun gs S => SymGrp.addToGroups S gs) gs = some gs' ∧
      (∀ g ∈ gs', g.Grown c t α) ∧
      (gs'.flatMap SymGrp.members).Perm (gs.flatMap SymGrp.members ++ Ss) := by
  induction Ss with
  | nil => intro gs hg; exact ⟨gs, rfl, hg, by simp⟩
  | cons S Ss ih =>
    intro gs hg
    obtain ⟨g1, e1, h1, p1⟩ := SymGrp.addToGroups_some (h S List.mem_cons_self) gs hg
    obtain ⟨g2, e2, h2, p2⟩ := ih (fun T hT => h T (List.mem_cons_of_mem _ hT)) g1 h1
    refine ⟨g2, ?_, h2, ?_⟩
    · rw [List.foldlM_cons, e1]
      exact e2
    · refine p2.trans ((p1.append_right Ss).trans ?_)
      rw [List.append_assoc]
      exact List.Perm.refl _

/-! ### Sorting and scaling -/

theorem SymGrp.rowsFrom_length (kind : SFKind) (l : List SymFnc) :
    ∀ prev, (SymGrp.rowsFrom kind prev l).length = l.length := by
  induction l with
  | nil => intro _; rfl
  | cons S l ih => intro prev; simp [SymGrp.rowsFrom, ih]

theorem SymGrp.rowsFrom_getElem? (kind : SFKind) (l : List SymFnc) :
    ∀ prev i M, (SymGrp.rowsFrom kind prev l)[i]? = some M → ∃ S, l[i]? = some S ∧
      M = SymGrp.row kind (if i = 0 then prev else l[i - 1]?) S := by
  induction l with
  | nil => intro prev i M h; simp [SymGrp.rowsFrom] at h
  | cons S l ih =>
    intro prev i M h
    cases i with
    | zero => exact ⟨S, rfl, by simpa [SymGrp.rowsFrom] using h.symm⟩
    | succ i =>
      obtain ⟨T, hT, e⟩ := ih (some S) i M (by simpa [SymGrp.rowsFrom] using h)
      refine ⟨T, by simpa using hT, ?_⟩
      rw [e]
      cases i with
      | zero => rfl
      | succ i => simp

/-- The members of a group in the order of the rows. -/
def SymGrp.member (g : SymGrp) (S0 : SymFnc) (i : ℕ) : SymFnc := (g.members[i]?).getD S0

/-- What the theorem needs from functions of the types 21 and 24: those with the same radii (and
elements) have the same compact function. -/
def SameCompact (Ss : List SymFnc) : Prop :=
  ∀ S ∈ Ss, ∀ T ∈ Ss, S.kind = .CompAngn ∨ S.kind = .CompAngnWeighted → T.kind = S.kind →
    (S.kind = .CompAngn → T.e1 = S.e1 ∧ T.e2 = S.e2) → T.rc = S.rc → T.rl = S.rl → T.cr = S.cr

theorem SymGrp.Grown.formed {c : ℝ} {t : CutoffType} {α : ℝ} {g g' : SymGrp} (hg : g.Grown c t α)
    (hs : g.SortMembers g') (hc : SameCompact g.members) (S0 : SymFnc) :
    g'.setScalingFactors.Formed (g'.member S0) ∧
      (List.range g'.setScalingFactors.rows.length).map (g'.member S0) = g'.members ∧
      g'.members.Perm g.members := by
  classical
  obtain ⟨l, hp, hsort, rfl⟩ := hs
  have hlen : (SymGrp.setScalingFactors { g with
      members := l, rows := SymGrp.rowsFrom g.kind none l }).rows.length = l.length := by
    simp [SymGrp.setScalingFactors, SymGrp.rowsFrom_length]
  have hmem : ∀ S ∈ l, S ∈ g.members := fun S hS => hp.mem_iff.1 hS
  have hl0 : l ≠ [] := fun h => hg.nonempty (by rw [h] at hp; simpa using hp.symm.eq_nil)
  have hget : ∀ i, i < l.length → (SymGrp.member { g with
      members := l, rows := SymGrp.rowsFrom g.kind none l } S0 i) ∈ l ∧
      l[i]? = some (SymGrp.member { g with
        members := l, rows := SymGrp.rowsFrom g.kind none l } S0 i) := by
    intro i hi
    simp only [SymGrp.member, List.getElem?_eq_getElem hi, Option.getD_some]
    exact ⟨List.getElem_mem hi, trivial⟩
  generalize hf : SymGrp.member { g with
      members := l, rows := SymGrp.rowsFrom g.kind none l } S0 = f at hget ⊢
  refine ⟨?_, ?_, hp⟩
  · have hrow : ∀ i M, (SymGrp.setScalingFactors { g with
        members := l, rows := SymGrp.rowsFrom g.kind none l }).rows[i]? = some M → i < l.length ∧
        M = { SymGrp.row g.kind (if i = 0 then none else l[i - 1]?) (f i) with
          scalingFactor := (f i).sf
          factorNorm := match g.kind with
            | .ExpAngn | .ExpAngw | .ExpAngnWeighted => 2 ^ (1 - (f i).zeta) * (f i).sf
            | _ => 2 ^ (1 - (f i).zeta) } := by
      intro i M hM
      have hi : i < l.length := by rw [← hlen]; exact (List.getElem?_eq_some_iff.1 hM).1
      refine ⟨hi, ?_⟩
      simp only [SymGrp.setScalingFactors, List.getElem?_map] at hM
      obtain ⟨N, hN, e⟩ := Option.map_eq_some_iff.1 hM
      obtain ⟨S, hS, rfl⟩ := SymGrp.rowsFrom_getElem? _ _ _ _ _ hN
      rw [(hget i hi).2] at hS
      cases hS
      exact e.symm
    have hin : ∀ i, i < (SymGrp.setScalingFactors { g with
        members := l, rows := SymGrp.rowsFrom g.kind none l }).rows.length → f i ∈ g.members := by
      intro i hi
      rw [hlen] at hi
      exact hmem _ (hget i hi).1
    constructor
    · rw [hlen]; exact List.length_pos_iff.2 hl0
    · intro i M hM
      obtain ⟨-, rfl⟩ := hrow i M hM
      exact ⟨rfl, rfl⟩
    · intro i hi; exact hg.kind _ (hin i hi)
    · intro i hi; exact hg.elements _ (hin i hi)
    · intro i hi hx
      obtain ⟨h1, h2⟩ := hg.cutoff _ (hin i hi) hx
      refine ⟨h1, ?_⟩
      rw [((hg.data _ (hin i hi)).cutoff hx).2.2.1, h1]
      exact congrArg CutoffFunction.fdf h2.symm
    · intro i hi hx; exact hg.range _ (hin i hi) hx
    · intro i hi hx ha
      obtain ⟨h1, h2⟩ := (hg.data _ (hin i hi)).radians hx ha
      exact ⟨h1.symm, h2.symm⟩
    · intro i M hM hx ha
      obtain ⟨hi, rfl⟩ := hrow i M hM
      have hk := hg.kind _ (hmem _ (hget i hi).1)
      refine ⟨?_, rfl⟩
      unfold SymFnc.IsExp at hx
      unfold SymFnc.IsAng at ha
      rw [hk] at hx ha
      dsimp only
      cases hkk : g.kind <;> simp [hkk] at hx ha ⊢
    · intro i M hM hfr
      obtain ⟨hi, rfl⟩ := hrow i M hM
      have hk := hg.kind _ (hmem _ (hget i hi).1)
      cases i with
      | zero =>
        exfalso
        simp [SymGrp.row, SymGrp.isFresh] at hfr
      | succ i =>
        have hi' : i < l.length := by omega
        have hk' := hg.kind _ (hmem _ (hget i hi').1)
        refine ⟨i, rfl, ?_⟩
        simp only [SymGrp.row, Nat.add_sub_cancel, (hget i hi').2, Nat.succ_ne_zero, if_false] at hfr
        unfold SymGrp.isFresh at hfr
        refine ⟨fun hx ha => ?_, fun hn => ?_⟩
        · unfold SymFnc.IsExp at hx
          unfold SymFnc.IsAng at ha
          rw [hk] at hx ha
          cases hkk : g.kind <;> simp [hkk] at hx ha hfr <;> exact hfr
        · have hn' : (f (i + 1)).kind = .CompAngn ∨ (f (i + 1)).kind = .CompAngnWeighted := hn
          have heq : (f i).rc = (f (i + 1)).rc ∧ (f i).rl = (f (i + 1)).rl := by
            rw [hk] at hn
            rcases hn with hn | hn <;> simp [hn] at hfr <;> exact hfr
          refine hc _ (hmem _ (hget _ hi).1) _ (hmem _ (hget _ hi').1) hn' (hk'.trans hk.symm) ?_
            heq.1 heq.2
          intro hkk
          have h1 := hg.elements _ (hmem _ (hget _ hi).1)
          have h2 := hg.elements _ (hmem _ (hget _ hi').1)
          rw [hk] at hkk
          rw [hkk] at h1 h2
          exact ⟨h2.1.trans h1.1.symm, h2.2.trans h1.2.symm⟩
  · rw [hlen]
    refine List.ext_getElem? fun i => ?_
    rw [List.getElem?_map]
    by_cases hi : i < l.length
    · rw [List.getElem?_range hi, Option.map_some]
      exact (hget i hi).2.symm
    · rw [List.getElem?_eq_none (by simpa using hi), List.getElem?_eq_none (by simpa using hi)]
      rfl

end N2P2
