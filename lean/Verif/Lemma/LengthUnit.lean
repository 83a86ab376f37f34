import Verif.Spec.LengthUnit
import Verif.Lemma.ModeElement
import Verif.Lemma.SymFncUnits
import Verif.Lemma.Prediction

/-! Potentials and structures in two units of length. -/

namespace N2P2

/-! ### Functions after memory, caches and scaling -/

/-- Only bookkeeping differs. -/
def SymFnc.Bare (S T : SymFnc) : Prop :=
  ∃ C I, T = { S with cacheIndices := C, indexPerElement := I }

theorem SymFnc.Bare.refl (S : SymFnc) : S.Bare S := ⟨_, _, rfl⟩

theorem SymFnc.Bare.trans {S T U : SymFnc} (h : S.Bare T) (h' : T.Bare U) : S.Bare U := by
  obtain ⟨C, I, rfl⟩ := h
  obtain ⟨C', I', rfl⟩ := h'
  exact ⟨C', I', rfl⟩

theorem foldlM_keeps {α β : Type} (I : α → Prop) (f : α → β → Option α)
    (hf : ∀ a b a', I a → f a b = some a' → I a') : ∀ (l : List β) (a a' : α), I a →
    l.foldlM f a = some a' → I a' := by
  intro l
  induction l with
  | nil =>
    intro a a' h e
    cases e
    exact h
  | cons b l ih =>
    intro a a' h e
    rw [List.foldlM_cons] at e
    obtain ⟨a1, e1, e2⟩ := Option.bind_eq_some_iff.1 e
    exact ih a1 a' (hf a b a1 h e1) e2

theorem foldl_keeps {α β : Type} (I : α → Prop) (f : α → β → α) (hf : ∀ a b, I a → I (f a b)) :
    ∀ (l : List β) (a : α), I a → I (l.foldl f a) := by
  intro l
  induction l with
  | nil => intro a h; exact h
  | cons b l ih => intro a h; exact ih _ (hf a b h)

theorem setupCache_bare {E : SFEnv} {Ss Ts : List SymFnc} {sizes : List ℕ}
    (h : setupSymmetryFunctionCache E Ss = some (Ts, sizes)) : List.Forall₂ SymFnc.Bare Ss Ts := by
  unfold setupSymmetryFunctionCache at h
  obtain ⟨lists, -, h⟩ := Option.bind_eq_some_iff.1 h
  obtain ⟨Ts', h1, h⟩ := Option.bind_eq_some_iff.1 h
  cases h
  unfold setCacheIndices at h1
  refine foldlM_keeps (List.Forall₂ SymFnc.Bare Ss) _ ?_ _ _ _
    (List.forall₂_same.2 fun S _ => .refl S) h1
  intro Us cs Us' hU
  refine foldlM_keeps (List.Forall₂ SymFnc.Bare Ss) _ ?_ _ _ _ hU
  intro Us cj Us' hU
  refine foldlM_keeps (List.Forall₂ SymFnc.Bare Ss) _ ?_ _ _ _ hU
  intro Us k Us' hU hk
  unfold setCacheIndex at hk
  obtain ⟨S, g1, hk⟩ := Option.bind_eq_some_iff.1 hk
  obtain ⟨T, g2, hk⟩ := Option.bind_eq_some_iff.1 hk
  cases hk
  have hST : S.Bare T := by
    unfold SymFnc.addCacheIndex at g2
    simp only at g2
    split at g2
    · cases g2
    · obtain ⟨ci, -, g2⟩ := Option.bind_eq_some_iff.1 g2
      obtain ⟨i, -, g2⟩ := Option.bind_eq_some_iff.1 g2
      split at g2
      · cases g2
      · cases g2
        exact ⟨_, _, rfl⟩
  rw [List.forall₂_iff_get] at hU ⊢
  refine ⟨by rw [List.length_set]; exact hU.1, fun i hi hi' => ?_⟩
  rw [List.length_set] at hi'
  have hb := hU.2 i hi hi'
  simp only [List.get_eq_getElem] at hb ⊢
  rw [List.getElem_set]
  split
  · rename_i hik
    subst hik
    rw [List.getElem?_eq_getElem hi'] at g1
    cases g1
    exact hb.trans hST
  · exact hb

theorem setupMemory_bare (n : ℕ) (Ss : List SymFnc) :
    List.Forall₂ SymFnc.Bare Ss (setupSymmetryFunctionMemory n Ss).2 := by
  unfold setupSymmetryFunctionMemory
  have key : ∀ (l : List SymFnc) (s : List (List ℕ) × List SymFnc) (m : List SymFnc),
      List.Forall₂ SymFnc.Bare m s.2 → List.Forall₂ SymFnc.Bare (m ++ l) (l.foldl (fun s S =>
        let r := setupMemoryOne n s.1 S
        (r.1, s.2 ++ [r.2])) s).2 := by
    intro l
    induction l with
    | nil => intro s m h; rw [List.append_nil]; exact h
    | cons S l ih =>
      intro s m h
      rw [List.foldl_cons, show m ++ S :: l = (m ++ [S]) ++ l by simp]
      refine ih _ _ ?_
      refine List.rel_append h (.cons ?_ .nil)
      unfold setupMemoryOne
      refine foldl_keeps (fun s' : List (List ℕ) × SymFnc => S.Bare s'.2) _ ?_ _ _ (.refl S)
      intro a b ha
      split
      · exact ha.trans ⟨_, _, rfl⟩
      · exact ha
  exact key Ss _ [] .nil

theorem setScaling_line {sc : ScalingSetup} {Us Ss : List SymFnc}
    (h : setScaling sc Us = some Ss) : Ss.length = Us.length ∧
    ∀ (k : ℕ) (U : SymFnc), Us[k]? = some U → ∃ s l, Ss[k]? = some { U with sc := s } ∧
      sc.line k U = some l ∧
      setScalingType U.sc sc.args.1 l sc.args.2.1 sc.args.2.2 = some s := by
  unfold setScaling at h
  have h' := mapM_forall2 h
  have hl : Ss.length = Us.length := by rw [← h'.length_eq, List.length_zipIdx]
  refine ⟨hl, fun k U hU => ?_⟩
  have hk := (List.getElem?_eq_some_iff.1 hU).1
  have hz : (Us.zipIdx)[k]? = some (U, k) := by
    rw [List.getElem?_zipIdx, hU]
    simp
  obtain ⟨S, h1, h2⟩ := forall2_getElem?' h' hz
  obtain ⟨l, h3, h2⟩ := Option.bind_eq_some_iff.1 h2
  obtain ⟨s, h4, h2⟩ := Option.bind_eq_some_iff.1 h2
  cases h2
  exact ⟨s, l, h1, h3, h4⟩

/-- The functions of an element are those of the lines, up to bookkeeping and scaling. -/
theorem SetupElement.functions {E : SFEnv} {lines : List (List Str)} {conv : Option ℝ}
    {t : CutoffType} {α : ℝ} {sc : ScalingSetup} {e : ElementData}
    (h : SetupElement E lines conv t α sc e) : ∃ Ts, SetupSymmetryFunctions E lines conv t α Ts ∧
      e.symmetryFunctions.length = Ts.length ∧ ∀ (k : ℕ) (T : SymFnc), Ts[k]? = some T →
        ∃ U s l, e.symmetryFunctions[k]? = some { U with sc := s } ∧ T.Bare U ∧
          sc.line k T = some l ∧
          setScalingType T.sc sc.args.1 l sc.args.2.1 sc.args.2.2 = some s := by
  obtain ⟨Ts, Us, h1, -, h3, h4⟩ := h
  have b1 := setupMemory_bare E.numElements Ts
  have b2 := setupCache_bare h3
  obtain ⟨h5, h6⟩ := setScaling_line h4
  refine ⟨Ts, h1, by rw [h5, ← b2.length_eq, ← b1.length_eq], fun k T hT => ?_⟩
  obtain ⟨V, hV, c1⟩ := forall2_getElem?' b1 hT
  obtain ⟨U, hU, c2⟩ := forall2_getElem?' b2 hV
  obtain ⟨s, l, d1, d2, d3⟩ := h6 k U hU
  have hTU := c1.trans c2
  obtain ⟨C, I, rfl⟩ := hTU
  refine ⟨_, s, l, d1, ⟨C, I, rfl⟩, ?_, d3⟩
  rw [← d2]
  cases sc <;> rfl

/-- The functions of the same settings in two units of length. -/
theorem SetupElement.inUnits {E : SFEnv} {lines : List (List Str)} {c : ℝ} (hc : 0 < c)
    {t : CutoffType} {α : ℝ} {sc : ScalingSetup} {e e' : ElementData}
    (h : SetupElement E lines none t α sc e) (h' : SetupElement E lines (some c) t α sc e') :
    List.Forall₂ (fun S T => SymFnc.InUnits c S T ∧ ∀ x, T.sc.scale x = S.sc.scale x)
      e.symmetryFunctions e'.symmetryFunctions := by
  obtain ⟨Ts, h1, h2, h3⟩ := h.functions
  obtain ⟨Ts', h1', h2', h3'⟩ := h'.functions
  have hu := setupSymmetryFunctions_units hc h1 h1'
  rw [List.forall₂_iff_get]
  refine ⟨by rw [h2, h2', hu.length_eq], fun k hk hk' => ?_⟩
  have hT := List.getElem?_eq_getElem (l := Ts) (i := k) (by rw [← h2]; exact hk)
  have hT' := List.getElem?_eq_getElem (l := Ts') (i := k) (by rw [← h2']; exact hk')
  have hr : (Ts[k]'(by rw [← h2]; exact hk)).InUnits c (Ts'[k]'(by rw [← h2']; exact hk')) :=
    (List.forall₂_iff_get.1 hu).2 k _ _
  generalize (Ts[k]'(by rw [← h2]; exact hk)) = T at hT hr
  generalize (Ts'[k]'(by rw [← h2']; exact hk')) = T' at hT' hr
  obtain ⟨U, s, l, a1, ⟨C, I, rfl⟩, a3, a4⟩ := h3 k T hT
  obtain ⟨U', s', l', a1', ⟨C', I', rfl⟩, a3', a4'⟩ := h3' k T' hT'
  rw [List.getElem?_eq_getElem hk, Option.some.injEq] at a1
  rw [List.getElem?_eq_getElem hk', Option.some.injEq] at a1'
  simp only [List.get_eq_getElem]
  rw [a1, a1']
  have hsig : s'.Gsigma = s.Gsigma ∧ ∀ x, s'.scale x = s.scale x := by
    unfold setScalingType at a4 a4'
    split at a4
    · cases a4
    split at a4'
    · cases a4'
    cases a4
    cases a4'
    cases sc with
    | off =>
      cases a3
      cases a3'
      exact ⟨rfl, fun _ => rfl⟩
    | lines t ls mn mx =>
      have a5 : ls[k]? = some l := a3
      have a5' : ls[k]? = some l' := a3'
      rw [a5] at a5'
      cases a5'
      simp only [hr.sigma]
      exact ⟨trivial, fun _ => rfl⟩
  exact ⟨⟨hr.kind, hr.e1, hr.e2, hr.eta, hr.rs, hr.rc, hr.rl, hr.lambda, hr.zeta, hr.left, hr.right,
    hr.ca, hr.atomicNumber, hr.fc, hr.cr, hr.cutoffType, hsig.1⟩, hsig.2⟩

/-! ### Conditions on environments -/

theorem pairwise_scaleEnv {R R' : Site → Site → Prop} {c : ℝ} {env : List Site}
    (h : ∀ x y : Site, R x y → R' ⟨x.element, c • x.dr⟩ ⟨y.element, c • y.dr⟩)
    (he : env.Pairwise R) : (scaleEnv c env).Pairwise R' := by
  unfold scaleEnv
  rw [List.pairwise_map]
  exact he.imp fun {x y} hxy => h x y hxy

namespace SymFnc.InUnits

variable {c : ℝ} {S T : SymFnc}

theorem isExp (h : S.InUnits c T) : T.IsExp ↔ S.IsExp := by
  unfold SymFnc.IsExp
  rw [h.kind]

theorem isAng (h : S.InUnits c T) : T.IsAng ↔ S.IsAng := by
  unfold SymFnc.IsAng
  rw [h.kind]

theorem smooth (h : S.InUnits c T) (hc : 0 < c) {env : List Site} (hs : S.Smooth env) :
    T.Smooth (scaleEnv c env) := by
  refine ⟨fun hx ht => ?_, fun ha => ?_, fun hx ha => ?_⟩
  · obtain ⟨h1, h2⟩ := hs.hard (h.isExp.1 hx) ((h.cutoffType (h.isExp.1 hx)).symm.trans ht)
    refine ⟨fun x hx => ?_, pairwise_scaleEnv (fun x y hxy => ?_) h2⟩
    · obtain ⟨y, hy, rfl⟩ := List.mem_map.1 hx
      simp only [norm_smul3 hc.le, h.rc]
      rw [mul_comm S.rc]
      exact fun e => h1 y hy (mul_left_cancel₀ hc.ne' e)
    · simp only [← smul_sub, norm_smul3 hc.le, h.rc]
      rw [mul_comm S.rc]
      exact fun e => hxy (mul_left_cancel₀ hc.ne' e)
  · refine pairwise_scaleEnv (fun x y hxy => ?_) (hs.apart (h.isAng.1 ha))
    simp only [← smul_sub, norm_smul3 hc.le]
    exact mul_pos hc hxy
  · rw [h.zeta, h.lambda]
    rcases hs.power (h.isExp.1 hx) (h.isAng.1 ha) with h1 | h1 | h1
    · exact .inl h1
    · exact .inr (.inl h1)
    · refine .inr (.inr (pairwise_scaleEnv (fun x y hxy => ?_) h1))
      simp only [cosAngle_smul hc]
      exact hxy

theorem tripletsOK (h : S.InUnits c T) (hc : 0 < c) {env : List Site} (hs : S.TripletsOK env) :
    T.TripletsOK (scaleEnv c env) := by
  intro hx ha
  refine pairwise_scaleEnv (fun x y hxy => ⟨?_, ?_, ?_⟩)
    (hs (fun e => hx (h.isExp.2 e)) (h.isAng.1 ha))
  · simp only [← smul_sub, norm_smul3 hc.le]
    exact mul_pos hc hxy.apart
  · simp only [cosAngle_smul hc, h.angular hc]
    exact hxy.collinear
  · simp only [cosAngle_smul hc, h.ca, h.left, h.right]
    exact hxy.ends

end SymFnc.InUnits

/-! ### Potentials -/

/-- What follows from the same settings. -/
structure Potential.Converted (c : ℝ) (P P' : Potential) (n : ℕ) : Prop where
  shape : ∀ e < n, P'.shape e = P.shape e
  weights : ∀ e < n, P'.weights e = P.weights e
  functions : ∀ e < n, List.Forall₂ (fun S T => SymFnc.InUnits c S T ∧
    ∀ x, T.sc.scale x = S.sc.scale x) (P.functions e) (P'.functions e)

theorem Potential.SameSettings.converted {c : ℝ} (hc : 0 < c) {P P' : Potential} {n : ℕ}
    (h : P.SameSettings c P' n) : P.Converted c P' n := by
  refine ⟨fun e he => (h e he).1, fun e he => (h e he).2.1, fun e he => ?_⟩
  obtain ⟨-, -, E, lines, t, α, sc, el, el', h1, h2, h3, h4⟩ := h e he
  rw [h3, h4]
  exact h1.inUnits hc h2

namespace Potential.Converted

variable {c : ℝ} {P P' : Potential} {n : ℕ} {s s' : Structure} {R E : ℝ}

theorem mem (h : P.Converted c P' n) {e : ℕ} (he : e < n) {T : SymFnc} (hT : T ∈ P'.functions e) :
    ∃ S ∈ P.functions e, S.InUnits c T := by
  obtain ⟨k, hk⟩ := List.getElem?_of_mem hT
  obtain ⟨S, hS, h1, -⟩ := forall2_getElem? (h.functions e he) hk
  exact ⟨S, List.mem_of_getElem? hS, h1⟩

theorem input (h : P.Converted c P' n) (hc : 0 < c) {e : ℕ} (he : e < n) (env : List Site) :
    P'.input e (scaleEnv c env) = P.input e env := by
  funext m
  unfold Potential.input
  cases hS : (P.functions e)[m]? with
  | none =>
    have : (P'.functions e)[m]? = none := by
      rw [List.getElem?_eq_none_iff] at hS ⊢
      rw [← (h.functions e he).length_eq]
      exact hS
    rw [this]
  | some S =>
    obtain ⟨T, hT, h1, h2⟩ := forall2_getElem?' (h.functions e he) hS
    rw [hT]
    simp only
    rw [h1.formula hc, h2]

theorem atomic (h : P.Converted c P' n) (hc : 0 < c) {e : ℕ} (he : e < n) (env : List Site) :
    P'.atomic e (scaleEnv c env) = P.atomic e env := by
  unfold Potential.atomic
  rw [h.shape e he, h.weights e he, h.input hc he]

theorem fits (h : P.Converted c P' n) (hP : P.Fits n) : P'.Fits n := by
  intro e he
  rw [h.shape e he, ← (h.functions e he).length_eq]
  exact hP e he

end Potential.Converted

/-! ### Structures -/

namespace Structure.Rescaled

variable {c : ℝ} {P P' : Potential} {n : ℕ} {s s' : Structure} {R E : ℝ}

theorem isPartner (h : s.Rescaled c s') (i : ℕ) (p : ℕ × (Fin 3 → ℤ)) :
    s'.IsPartner i p ↔ s.IsPartner i p := by
  unfold Structure.IsPartner
  rw [h.length, h.periodic]

theorem separation (h : s.Rescaled c s') {i : ℕ} (hi : i < s.atoms.length)
    {p : ℕ × (Fin 3 → ℤ)} (hp : s.IsPartner i p) :
    s'.separation i p = c • s.separation i p := by
  unfold Structure.separation
  rw [h.position i hi, h.position p.1 hp.1]
  have hsh : shift s'.box p.2 = c • shift s.box p.2 := by
    rcases hp.2.1 with hper | h0
    · have : s'.box = fun k => c • s.box k := funext (h.box hper)
      rw [this]
      unfold shift
      rw [Finset.smul_sum]
      exact Finset.sum_congr rfl fun k _ => smul_comm _ _ _
    · rw [h0]
      funext k
      simp [shift]
  rw [hsh, smul_add, smul_sub]

theorem len_separation (h : s.Rescaled c s') (hc : 0 < c) {i : ℕ} (hi : i < s.atoms.length)
    {p : ℕ × (Fin 3 → ℤ)} (hp : s.IsPartner i p) :
    len (s'.separation i p) = c * len (s.separation i p) := by
  rw [h.separation hi hp, len_eq, len_eq, norm_smul3 hc.le]

theorem sites (h : s.Rescaled c s') {i : ℕ} (hi : i < s.atoms.length)
    {imgs : List (ℕ × (Fin 3 → ℤ))} (hp : ∀ p ∈ imgs, s.IsPartner i p) :
    imgs.map (fun p => (⟨s'.elementOf p.1, s'.separation i p⟩ : Site)) =
      scaleEnv c (imgs.map fun p => ⟨s.elementOf p.1, s.separation i p⟩) := by
  unfold scaleEnv
  rw [List.map_map]
  refine List.map_congr_left fun p hp' => ?_
  rw [h.separation hi (hp p hp'), h.element p.1 (hp p hp').1]
  rfl

theorem isEnv (h : s.Rescaled c s') (hc : 0 < c) {i : ℕ} (hi : i < s.atoms.length)
    {env : List Site} (he : IsEnv s R i env) : IsEnv s' (c * R) i (scaleEnv c env) := by
  obtain ⟨imgs, h1, h2, h3, rfl⟩ := he
  refine ⟨imgs, h1, fun p hp => (h.isPartner i p).2 (h2 p hp), fun p hp hl => ?_,
    (h.sites hi h2).symm⟩
  have hp' := (h.isPartner i p).1 hp
  rw [h.len_separation hc hi hp'] at hl
  exact h3 p hp' (le_of_mul_le_mul_left hl hc)

theorem isBall (h : s.Rescaled c s') (hc : 0 < c) {i : ℕ} (hi : i < s.atoms.length)
    {env : List Site} (he : IsBall s' (c * R) i env) :
    ∃ env0, IsBall s R i env0 ∧ env = scaleEnv c env0 := by
  obtain ⟨imgs, h1, h2, rfl⟩ := he
  have h3 : ∀ p, p ∈ imgs ↔ s.IsPartner i p ∧ len (s.separation i p) ≤ R := by
    intro p
    rw [h2 p, h.isPartner]
    refine and_congr_right fun hp => ?_
    rw [h.len_separation hc hi hp]
    exact mul_le_mul_iff_right₀ hc
  exact ⟨_, ⟨imgs, h1, h3, rfl⟩, h.sites hi fun p hp => ((h3 p).1 hp).1⟩

theorem isEnergy (h : s.Rescaled c s') (hc : 0 < c) (hP : P.Converted c P' n)
    (hel : ∀ i < s.atoms.length, s.elementOf i < n) (hE : IsEnergy P R s E) :
    IsEnergy P' (c * R) s' E := by
  obtain ⟨env, h1, rfl⟩ := hE
  refine ⟨fun i => scaleEnv c (env i), fun i hi => ?_, ?_⟩
  · rw [h.length] at hi
    exact h.isEnv hc hi (h1 i hi)
  · rw [h.length]
    refine Finset.sum_congr rfl fun i hi => ?_
    have hi := Finset.mem_range.1 hi
    rw [h.element i hi, hP.atomic hc (hel i hi)]

theorem apart (h : s.Rescaled c s') (hc : 0 < c) (hs : s.Apart) : s'.Apart := by
  intro i hi p hp
  rw [h.length] at hi
  have hp := (h.isPartner i p).1 hp
  rw [h.separation hi hp]
  exact smul_ne_zero hc.ne' (hs i hi p hp)

theorem triplets (h : s.Rescaled c s') (hc : 0 < c) (hP : P.Converted c P' n)
    (hel : ∀ i < s.atoms.length, s.elementOf i < n) (hs : P.TripletsOK R s) :
    P'.TripletsOK (c * R) s' := by
  intro i hi T hT env henv
  rw [h.length] at hi
  rw [h.element i hi] at hT
  obtain ⟨S, hS, hu⟩ := hP.mem (hel i hi) hT
  obtain ⟨env0, h1, rfl⟩ := h.isBall hc hi henv
  exact hu.tripletsOK hc (hs i hi S hS env0 h1)

theorem smooth (h : s.Rescaled c s') (hc : 0 < c) (hP : P.Converted c P' n)
    (hel : ∀ i < s.atoms.length, s.elementOf i < n) (hs : P.Smooth R s) :
    P'.Smooth (c * R) s' := by
  intro i hi env henv
  rw [h.length] at hi
  rw [h.element i hi]
  obtain ⟨env0, h1, rfl⟩ := h.isBall hc hi henv
  obtain ⟨h2, h3⟩ := hs i hi env0 h1
  refine ⟨fun T hT => ?_, ?_⟩
  · obtain ⟨S, hS, hu⟩ := hP.mem (hel i hi) hT
    exact hu.smooth hc (h2 S hS)
  · rw [hP.shape _ (hel i hi), hP.weights _ (hel i hi), hP.input hc (hel i hi)]
    exact h3

theorem noOwnImages (h : s.Rescaled c s') (hc : 0 < c) (hP : P.Converted c P' n)
    (hel : ∀ i < s.atoms.length, s.elementOf i < n) (hs : P.NoOwnImages s) :
    P'.NoOwnImages s' := by
  intro i hi q hq T hT
  rw [h.length] at hi
  rw [h.element i hi] at hT
  obtain ⟨S, hS, hu⟩ := hP.mem (hel i hi) hT
  have hq := (h.isPartner i _).1 hq
  rw [h.len_separation hc hi hq, hu.rc, mul_comm]
  exact mul_le_mul_of_nonneg_left (hs i hi q hq S hS) hc.le

end Structure.Rescaled

theorem foldl_max_scale {α β : Type} {c : ℝ} (hc : 0 < c) (f : α → ℝ) (g : β → ℝ) {l : List α}
    {m : List β} (h : List.Forall₂ (fun a b => g b = c * f a) l m) (x : ℝ) :
    m.foldl (fun z b => max (g b) z) (c * x) = c * l.foldl (fun z a => max (f a) z) x := by
  induction h generalizing x with
  | nil => rfl
  | cons h1 _ ih =>
    rw [List.foldl_cons, List.foldl_cons, h1, ← mul_max_of_nonneg _ _ hc.le]
    exact ih _

/-- The largest cutoff radius in the new unit. -/
theorem Mode.SetUp.max_converted {M M' : Mode} {P P' : Potential} {n : ℕ} {c : ℝ} (hc : 0 < c)
    (hM : M.SetUp P n) (hM' : M'.SetUp P' n) (hP : P.Converted c P' n) :
    M'.maxCutoffRadius = c * M.maxCutoffRadius := by
  rw [hM.maxCutoffRadius, hM'.maxCutoffRadius]
  unfold maxCutoffRadiusOf
  have key := foldl_max_scale hc ElementData.getMaxCutoffRadius ElementData.getMaxCutoffRadius
    (l := M.elements) (m := M'.elements) ?_ 0
  · rw [mul_zero] at key
    exact key
  rw [List.forall₂_iff_get]
  refine ⟨by rw [hM.count, hM'.count], fun k hk hk' => ?_⟩
  simp only [List.get_eq_getElem]
  have f1 := (hM.functions k _ (List.getElem?_eq_getElem hk)).1
  have f2 := (hM'.functions k _ (List.getElem?_eq_getElem hk')).1
  unfold ElementData.getMaxCutoffRadius
  rw [f1, f2]
  have key := foldl_max_scale hc SymFnc.rc SymFnc.rc
    ((hP.functions k (by rw [← hM.count]; exact hk)).imp fun S T h => by
      rw [h.1.rc, mul_comm]) 0
  rw [mul_zero] at key
  exact key

end N2P2
