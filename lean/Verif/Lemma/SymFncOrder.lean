import Mathlib.Data.List.Lex
import Mathlib.Data.Char
import Verif.Lemma.SymFncSetup

/-! Lemmas on the order of symmetry functions. -/

namespace N2P2

/-- Asymmetric and negatively transitive on a class. -/
structure WeakOn {α : Type} (P : α → Prop) (r : α → α → Prop) : Prop where
  asymm : ∀ S T, P S → P T → r S T → ¬ r T S
  neg : ∀ S T U, P S → P T → P U → ¬ r S T → ¬ r T U → ¬ r S U

theorem weakOn_false {α : Type} (P : α → Prop) : WeakOn P (fun _ _ => False) :=
  ⟨fun _ _ _ _ h => h.elim, fun _ _ _ _ _ _ _ _ h => h⟩

theorem WeakOn.step {α β : Type} [LinearOrder β] {P : α → Prop} {r : α → α → Prop} (f : α → β)
    (h : ∀ b, WeakOn (fun S => P S ∧ f S = b) r) :
    WeakOn P fun S T => SymFnc.lexStep (f S) (f T) (r S T) := by
  unfold SymFnc.lexStep
  constructor
  · intro S T hS hT h1 h2
    rcases h1 with h1 | ⟨h1, h1'⟩
    · rcases h2 with h2 | ⟨h2, -⟩
      · exact lt_asymm h1 h2
      · exact h2 h1
    · rcases h2 with h2 | ⟨h2, h2'⟩
      · exact h1 h2
      · have e : f S = f T := le_antisymm (not_lt.1 h1) (not_lt.1 h2)
        exact (h (f T)).asymm S T ⟨hS, e⟩ ⟨hT, rfl⟩ h1' h2'
  · intro S T U hS hT hU h1 h2 h3
    push Not at h1 h2
    rcases h3 with h3 | ⟨h3, h3'⟩
    · exact absurd (h2.1.trans h1.1) (not_le.2 h3)
    · have e1 : f T = f S := le_antisymm h1.1 ((not_lt.1 h3).trans h2.1)
      have e2 : f U = f S := le_antisymm (h2.1.trans h1.1) (not_lt.1 h3)
      refine (h (f S)).neg S T U ⟨hS, rfl⟩ ⟨hT, e1⟩ ⟨hU, e2⟩ (h1.2 e1.ge) (h2.2 (by rw [e1, e2])) h3'

theorem WeakOn.step' {α β : Type} [LinearOrder β] {P : α → Prop} {r : α → α → Prop} (f : α → β)
    (h : WeakOn P r) : WeakOn P fun S T => SymFnc.lexStep (f S) (f T) (r S T) :=
  .step f fun _ => ⟨fun S T hS hT => h.asymm S T hS.1 hT.1,
    fun S T U hS hT hU => h.neg S T U hS.1 hT.1 hU.1⟩

theorem number_injective {k k' : SFKind} (h : k.number = k'.number) : k = k' := by
  cases k <;> cases k' <;> first | rfl | cases h

theorem cutoffNumber_injective {k k' : CutoffType} (h : k.number = k'.number) : k = k' := by
  cases k <;> cases k' <;> first | rfl | cases h

/-- Order of texts. -/
noncomputable instance : LinearOrder Str := inferInstanceAs (LinearOrder (List Char))

theorem SymFnc.lt_weakOn : WeakOn (fun S : SymFnc => S.sc.type = S.kind.number) SymFnc.lt := by
  unfold SymFnc.lt
  refine .step' (fun S : SymFnc => S.sc.ec) (.step (fun S : SymFnc => S.sc.type) fun b => ?_)
  have hk : ∃ k : SFKind, ∀ S : SymFnc, S.sc.type = S.kind.number ∧ S.sc.type = b → S.kind = k := by
    by_cases he : ∃ S : SymFnc, S.sc.type = S.kind.number ∧ S.sc.type = b
    · obtain ⟨S, h1, h2⟩ := he
      refine ⟨S.kind, fun T hT => number_injective ?_⟩
      rw [← hT.1, hT.2, ← h2, h1]
    · exact ⟨.ExpRad, fun S hS => absurd ⟨S, hS⟩ he⟩
  obtain ⟨k, hk⟩ := hk
  have hmono : ∀ {r r' : SymFnc → SymFnc → Prop}, (∀ S T, S.kind = k → (r S T ↔ r' S T)) →
      WeakOn (fun _ : SymFnc => True) r' →
      WeakOn (fun S : SymFnc => S.sc.type = S.kind.number ∧ S.sc.type = b) r := by
    intro r r' hr hw
    refine ⟨fun S T hS hT => ?_, fun S T U hS hT hU => ?_⟩
    · rw [hr S T (hk S hS), hr T S (hk T hT)]; exact hw.asymm S T trivial trivial
    · rw [hr S T (hk S hS), hr T U (hk T hT), hr S U (hk S hS)]
      exact hw.neg S T U trivial trivial trivial
  cases k
  · refine hmono (fun S T h => by rw [h]) <| .step' (fun S => S.cutoffType.number) <|
      .step' (fun S => S.cutoffAlpha) <| .step' (fun S => S.rc) <| .step' (fun S => S.eta) <|
      .step' (fun S => S.rs) <| .step' (fun S => S.e1) <| weakOn_false _
  · refine hmono (fun S T h => by rw [h]) <| .step' (fun S => S.cutoffType.number) <|
      .step' (fun S => S.cutoffAlpha) <| .step' (fun S => S.rc) <| .step' (fun S => S.eta) <|
      .step' (fun S => S.rs) <| .step' (fun S => S.zeta) <| .step' (fun S => S.lambda) <|
      .step' (fun S => S.e1) <| .step' (fun S => S.e2) <| weakOn_false _
  · refine hmono (fun S T h => by rw [h]) <| .step' (fun S => S.cutoffType.number) <|
      .step' (fun S => S.cutoffAlpha) <| .step' (fun S => S.rc) <| .step' (fun S => S.eta) <|
      .step' (fun S => S.rs) <| .step' (fun S => S.zeta) <| .step' (fun S => S.lambda) <|
      .step' (fun S => S.e1) <| .step' (fun S => S.e2) <| weakOn_false _
  · refine hmono (fun S T h => by rw [h]) <| .step' (fun S => S.cutoffType.number) <|
      .step' (fun S => S.cutoffAlpha) <| .step' (fun S => S.rc) <| .step' (fun S => S.eta) <|
      .step' (fun S => S.rs) <| weakOn_false _
  · refine hmono (fun S T h => by rw [h]) <| .step' (fun S => S.cutoffType.number) <|
      .step' (fun S => S.cutoffAlpha) <| .step' (fun S => S.rc) <| .step' (fun S => S.eta) <|
      .step' (fun S => S.rs) <| .step' (fun S => S.zeta) <| .step' (fun S => S.lambda) <|
      weakOn_false _
  · refine hmono (fun S T h => by rw [h]) <| .step' (fun S => S.subtype) <|
      .step' (fun S => S.e1) <| .step' (fun S => S.rc) <| .step' (fun S => S.rl) <| weakOn_false _
  · refine hmono (fun S T h => by rw [h]) <| .step' (fun S => S.subtype) <|
      .step' (fun S => S.e1) <| .step' (fun S => S.e2) <| .step' (fun S => S.rc) <|
      .step' (fun S => S.rl) <| .step' (fun S => S.angleLeft) <| .step' (fun S => S.angleRight) <|
      weakOn_false _
  · refine hmono (fun S T h => by rw [h]) <| .step' (fun S => S.subtype) <|
      .step' (fun S => S.e1) <| .step' (fun S => S.e2) <| .step' (fun S => S.rc) <|
      .step' (fun S => S.rl) <| .step' (fun S => S.angleLeft) <| .step' (fun S => S.angleRight) <|
      weakOn_false _
  · refine hmono (fun S T h => by rw [h]) <| .step' (fun S => S.subtype) <|
      .step' (fun S => S.rc) <| .step' (fun S => S.rl) <| weakOn_false _
  · refine hmono (fun S T h => by rw [h]) <| .step' (fun S => S.subtype) <|
      .step' (fun S => S.rc) <| .step' (fun S => S.rl) <| .step' (fun S => S.angleLeft) <|
      .step' (fun S => S.angleRight) <| weakOn_false _
  · refine hmono (fun S T h => by rw [h]) <| .step' (fun S => S.subtype) <|
      .step' (fun S => S.rc) <| .step' (fun S => S.rl) <| .step' (fun S => S.angleLeft) <|
      .step' (fun S => S.angleRight) <| weakOn_false _

theorem lexStep_incomparable {β : Type} [LinearOrder β] (a b : β) (p q : Prop) :
    (¬ SymFnc.lexStep a b p ∧ ¬ SymFnc.lexStep b a q) ↔ a = b ∧ ¬ p ∧ ¬ q := by
  unfold SymFnc.lexStep
  constructor
  · rintro ⟨h1, h2⟩
    push Not at h1 h2
    have e : a = b := le_antisymm h2.1 h1.1
    exact ⟨e, h1.2 e.le, h2.2 e.ge⟩
  · rintro ⟨rfl, h1, h2⟩
    exact ⟨fun h => h.elim (lt_irrefl _) fun h => h1 h.2,
      fun h => h.elim (lt_irrefl _) fun h => h2 h.2⟩

theorem cutoffNumber_iff (k k' : CutoffType) : k.number = k'.number ↔ k = k' :=
  ⟨cutoffNumber_injective, fun h => by rw [h]⟩

theorem SymFnc.incomparable_iff {S T : SymFnc} (hS : S.sc.type = S.kind.number)
    (hT : T.sc.type = T.kind.number) : (¬ S.lt T ∧ ¬ T.lt S) ↔
      S.eq T ∧ (S.kind = .ExpAngn ∨ S.kind = .ExpAngw → S.rs = T.rs) := by
  unfold SymFnc.lt SymFnc.eq
  rw [lexStep_incomparable, lexStep_incomparable]
  by_cases hty : S.sc.type = T.sc.type
  swap
  · simp [hty]
  have hk : T.kind = S.kind := number_injective (by rw [← hS, ← hT, hty])
  rw [hk]
  rcases h : S.kind <;>
    simp only [lexStep_incomparable, not_false_eq_true, and_true, and_self, cutoffNumber_iff,
      reduceCtorEq, or_self, false_or, or_false, false_imp_iff, forall_const] <;> tauto

end N2P2

namespace N2P2

theorem SymFnc.Consistent.ext {E : SFEnv} {c α : ℝ} {t : CutoffType} {S T : SymFnc}
    (hS : S.Consistent E c t α) (hT : T.Consistent E c t α) (hi : S.sc.index = T.sc.index)
    (he : S.eq T) (hr : S.kind = .ExpAngn ∨ S.kind = .ExpAngw → S.rs = T.rs) : S = T := by
  have hk : T.kind = S.kind := number_injective (by rw [← hS.type, ← hT.type, he.2.1])
  have hE : T.IsExp ↔ S.IsExp := by unfold SymFnc.IsExp; rw [hk]
  have hA : T.IsAng ↔ S.IsAng := by unfold SymFnc.IsAng; rw [hk]
  have hsc : S.sc = T.sc := by
    rw [hS.unusedScaling, hT.unusedScaling, hi, he.1, hk]
  have h1 := hS.conv.trans hT.conv.symm
  have h2 := hS.index.trans hT.index.symm
  have h3 := hS.cache.trans hT.cache.symm
  have h4 := hS.atomicNumber.trans hT.atomicNumber.symm
  have key : S.rc = T.rc ∧ S.e1 = T.e1 ∧ S.e2 = T.e2 ∧ S.eta = T.eta ∧ S.rs = T.rs ∧
      S.lambda = T.lambda ∧ S.zeta = T.zeta ∧ S.rl = T.rl ∧ S.angleLeft = T.angleLeft ∧
      S.angleRight = T.angleRight ∧ S.subtype = T.subtype := by
    by_cases hx : S.IsExp
    · have hxT := hE.2 hx
      have a1 := hS.unusedExp hx
      have a2 := hT.unusedExp hxT
      have a3 := (hS.subtype hx).trans (hT.subtype hxT).symm
      have b1 := hS.other
      have b2 := hT.other
      have b3 := hS.unusedWeighted
      have b4 := hT.unusedWeighted
      have c1 := hS.unusedRad
      have c2 := hT.unusedRad
      obtain ⟨-, -, he⟩ := he
      rw [hk] at b2 b4
      rw [hA] at c2
      unfold SymFnc.IsAng at c1 c2
      rcases hx with h | h | h | h | h <;> simp [h] at he b1 b2 b3 b4 hr c1 c2 <;>
        simp_all
    · have hxT := mt hE.1 hx
      have a1 := hS.unusedComp hx
      have a2 := hT.unusedComp hxT
      have b1 := hS.other
      have b2 := hT.other
      have b3 := hS.unusedWeighted
      have b4 := hT.unusedWeighted
      have c1 := hS.unusedRad
      have c2 := hT.unusedRad
      obtain ⟨-, -, he⟩ := he
      rw [hk] at b2 b4
      rw [hA] at c2
      unfold SymFnc.IsAng at c1 c2
      unfold SymFnc.IsExp at hx
      rcases h : S.kind <;> simp [h] at he b1 b2 b3 b4 hr c1 c2 hx <;>
        simp_all
  obtain ⟨k1, k2, k3, k4, k5, k6, k7, k8, k9, k10, k11⟩ := key
  have hz : S.zetaInt = T.zetaInt ∧ S.useIntegerPow = T.useIntegerPow := by
    by_cases ha : S.IsAng
    · by_cases hx : S.IsExp
      · obtain ⟨a1, -, a3⟩ := hS.zeta hx ha
        obtain ⟨b1, -, b3⟩ := hT.zeta (hE.2 hx) (hA.2 ha)
        refine ⟨by rw [a1, b1, k7], Bool.eq_iff_iff.2 ?_⟩
        rw [a3, b3, k7]
      · have a1 := hS.unusedComp hx
        have b1 := hT.unusedComp (mt hE.1 hx)
        exact ⟨a1.2.2.2.2.1.trans b1.2.2.2.2.1.symm,
          a1.2.2.2.2.2.1.trans b1.2.2.2.2.2.1.symm⟩
    · have a1 := hS.unusedRad ha
      have b1 := hT.unusedRad (mt hA.1 ha)
      exact ⟨a1.2.2.1.trans b1.2.2.1.symm, a1.2.2.2.1.trans b1.2.2.2.1.symm⟩
  have hf : S.cutoffType = T.cutoffType ∧ S.cutoffAlpha = T.cutoffAlpha ∧ S.fc = T.fc := by
    by_cases hx : S.IsExp
    · have hxT := hE.2 hx
      refine ⟨(hS.cutoffType hx).trans (hT.cutoffType hxT).symm,
        (hS.cutoffAlpha hx).trans (hT.cutoffAlpha hxT).symm, ?_⟩
      rw [hS.fc hx, hT.fc hxT, k1]
    · obtain ⟨-, -, -, -, -, -, a1, a2, a3⟩ := hS.unusedComp hx
      obtain ⟨-, -, -, -, -, -, b1, b2, b3⟩ := hT.unusedComp (mt hE.1 hx)
      exact ⟨a1.trans b1.symm, a2.trans b2.symm, a3.trans b3.symm⟩
  have hc : S.cr = T.cr := by
    by_cases hx : S.IsExp
    · exact (hS.unusedExp hx).2.2.2.2.2.1.trans (hT.unusedExp (hE.2 hx)).2.2.2.2.2.1.symm
    · obtain ⟨-, core, a2, a3⟩ := hS.cr hx
      obtain ⟨-, core', b2, b3⟩ := hT.cr (mt hE.1 hx)
      rw [k11] at a2
      rw [a2] at b2
      cases b2
      rw [a3, b3, k8, k1]
  have hang : S.angleLeftRadians = T.angleLeftRadians ∧
      S.angleRightRadians = T.angleRightRadians ∧ S.ca = T.ca := by
    by_cases hx : S.IsExp
    · obtain ⟨-, -, -, a1, a2, -, a3⟩ := hS.unusedExp hx
      obtain ⟨-, -, -, b1, b2, -, b3⟩ := hT.unusedExp (hE.2 hx)
      exact ⟨a1.trans b1.symm, a2.trans b2.symm, a3.trans b3.symm⟩
    · by_cases ha : S.IsAng
      · have a1 := hS.radians hx ha
        have b1 := hT.radians (mt hE.1 hx) (hA.2 ha)
        have a2 := (hS.ca hx ha).2
        have b2 := (hT.ca (mt hE.1 hx) (hA.2 ha)).2
        rw [← k9, ← k10] at b1
        refine ⟨a1.1.trans b1.1.symm, a1.2.trans b1.2.symm, ?_⟩
        rw [a2, b2, hc, a1.1, a1.2, b1.1, b1.2]
      · obtain ⟨-, -, -, -, -, -, a1, a2, a3, -⟩ := hS.unusedRad ha
        obtain ⟨-, -, -, -, -, -, b1, b2, b3, -⟩ := hT.unusedRad (mt hA.1 ha)
        exact ⟨a1.trans b1.symm, a2.trans b2.symm, a3.trans b3.symm⟩
  cases S
  cases T
  simp only at *
  simp only [hk, hsc, h1, h2, h3, h4, k1, k2, k3, k4, k5, k6, k7, k8, k9, k10, k11, hz.1, hz.2,
    hf.1, hf.2.1, hf.2.2, hc, hang.1, hang.2.1, hang.2.2]

theorem forall2_perm {α β : Type} {R : α → β → Prop}
    (hR : ∀ a b b', R a b → R a b' → b = b') {l l' : List α} {m m' : List β}
    (h : List.Forall₂ R l m) (hp : l.Perm l') (h' : List.Forall₂ R l' m') : m.Perm m' := by
  obtain ⟨k, hk1, hk2⟩ := (List.forall₂_comp_perm_eq_perm_comp_forall₂ (r := fun b a => R a b)).le
    m l' ⟨l, h.flip, hp⟩
  have : k = m' := by
    clear hk1 h hp
    induction hk2 generalizing m' with
    | nil => cases h'; rfl
    | cons ha _ ih =>
      cases h' with
      | cons hb hc => rw [hR _ _ _ ha hb, ih hc]
  rw [← this]; exact hk1

theorem sorted_unique {E : SFEnv} {c : ℝ} {Us l l' : List SymFnc}
    (h : ∀ U ∈ Us, U.Consistent E c .HARD 0 ∧ U.sc.index = 0) (hl : l.Perm Us) (hl' : l'.Perm Us)
    (hs : l.Pairwise fun S T => ¬ T.lt S) (hs' : l'.Pairwise fun S T => ¬ T.lt S) : l = l' := by
  refine List.Perm.eq_of_pairwise (fun S T hS hT h1 h2 => ?_) hs hs' (hl.trans hl'.symm)
  have c1 := h S (hl.mem_iff.1 hS)
  have c2 := h T (hl'.mem_iff.1 hT)
  obtain ⟨he, hr⟩ := (SymFnc.incomparable_iff c1.1.type c2.1.type).1 ⟨h2, h1⟩
  exact c1.1.ext c2.1 (c1.2.trans c2.2.symm) he hr

/-- Functions set up from the same lines in another order are the same. -/
theorem setupSymmetryFunctions_unique {E : SFEnv} {lines lines' : List (List Str)}
    {conv : Option ℝ} {t : CutoffType} {α : ℝ} {Ts Ts' : List SymFnc}
    (h : SetupSymmetryFunctions E lines conv t α Ts) (hp : lines.Perm lines')
    (h' : SetupSymmetryFunctions E lines' conv t α Ts') : Ts = Ts' := by
  obtain ⟨Ss, Us, Vs, h1, h2, ⟨l, hl, hs, rfl⟩, h4⟩ := h
  obtain ⟨Ss', Us', Vs', h1', h2', ⟨l', hl', hs', rfl⟩, h4'⟩ := h'
  obtain ⟨_, e, hadd⟩ := addSymmetryFunction_forall2 h1
  obtain ⟨_, e', hadd'⟩ := addSymmetryFunction_forall2 h1'
  simp only [List.nil_append] at e e'
  subst e
  subst e'
  have hSs : Ss.Perm Ss' := by
    refine forall2_perm ?_ hadd hp hadd'
    rintro tok S T ⟨ty, k, a1, a2, a3⟩ ⟨ty', k', b1, b2, b3⟩
    rw [a1] at b1; cases b1
    rw [a2] at b2; cases b2
    rw [a3] at b3; cases b3; rfl
  have hU : Us.Perm Us' ∧ ∀ U ∈ Us, U.Consistent E (conv.getD 1) .HARD 0 ∧ U.sc.index = 0 := by
    have hcon : ∀ S ∈ Ss, S.Consistent E 1 .HARD 0 ∧ S.sc.index = 0 := by
      intro S hS
      obtain ⟨i, hi, rfl⟩ := List.getElem_of_mem hS
      exact FromLine.consistent' ((List.forall₂_iff_get.1 hadd).2 i (by rw [hadd.length_eq]; exact hi) hi)
    cases conv with
    | none => cases h2; cases h2'; exact ⟨hSs, hcon⟩
    | some c =>
      have a1 := mapM_forall2 h2
      refine ⟨forall2_perm (fun a b b' h h' => ?_) a1 hSs (mapM_forall2 h2'), fun U hU => ?_⟩
      · rw [h] at h'; cases h'; rfl
      · obtain ⟨i, hi, rfl⟩ := List.getElem_of_mem hU
        have a2 := (List.forall₂_iff_get.1 a1).2 i (by rw [a1.length_eq]; exact hi) hi
        have a3 := hcon _ (List.get_mem Ss ⟨i, by rw [a1.length_eq]; exact hi⟩)
        refine ⟨a3.1.change a2, ?_⟩
        generalize Ss.get ⟨i, _⟩ = S at a2 a3
        by_cases hx : S.IsExp
        · have := (changeLengthUnit_exp hx a2).2
          exact (congrArg (fun U : SymFnc => U.sc.index) this).trans a3.2
        · have := (changeLengthUnit_comp hx a2).2
          exact (congrArg (fun U : SymFnc => U.sc.index) this).trans a3.2
  have hll : l = l' := sorted_unique hU.2 hl (hl'.trans hU.1.symm) hs hs'
  subst hll
  rw [h4] at h4'
  exact Option.some.inj h4'

end N2P2
