import Verif.Lemma.SymGrpShift
import Verif.Lemma.ModeGroups
import Verif.Lemma.SymGrpExample

/-! Properties of the symmetry function groups. -/

namespace N2P2

variable {M M' : Mode} {P : Potential} {n : ℕ} {s s' : Structure}
  {srt : List Neighbor → List Neighbor}

/-! ### C56 -/

/-- C56: the setup of the groups of a potential succeeds, and each symmetry function of an element
becomes a member of one group of this element. -/
theorem C56_partition (hM : M.SetUp P n) :
    (∃ gs, M.GroupsSetUp gs) ∧ ∀ gs, M.GroupsSetUp gs → gs.length = n ∧
      ∀ (k : ℕ) g, gs[k]? = some g →
        (g.flatMap fun x => x.rows.map GrpMember.sf).Perm (P.functions k) := by
  have hd : ∀ (k : ℕ) e, M.elements[k]? = some e →
      ∃ c t α, ∀ S ∈ e.symmetryFunctions, S.GroupData c t α := fun k e he => (hM.ok he).group
  constructor
  · unfold Mode.GroupsSetUp
    have : ∀ e ∈ M.elements, ∃ g, SetupGroups e.symmetryFunctions g := by
      intro e he
      obtain ⟨k, hk⟩ := List.getElem?_of_mem he
      obtain ⟨c, t, α, h⟩ := hd k e hk
      exact exists_setupGroups' h
    generalize M.elements = l at this
    induction l with
    | nil => exact ⟨[], .nil⟩
    | cons e l ih =>
      obtain ⟨g, hg⟩ := this e List.mem_cons_self
      obtain ⟨gs, hgs⟩ := ih fun x hx => this x (List.mem_cons_of_mem _ hx)
      exact ⟨g :: gs, .cons hg hgs⟩
  · intro gs hgs
    refine ⟨hgs.length_eq.symm.trans hM.count, fun k g hg => ?_⟩
    have hk : k < gs.length := (List.getElem?_eq_some_iff.1 hg).1
    have hk' : k < M.elements.length := by rw [hgs.length_eq]; exact hk
    have he := List.getElem?_eq_getElem hk'
    obtain ⟨c, t, α, h⟩ := hd k _ he
    have := (List.forall₂_iff_get.1 hgs).2 k hk' hk
    rw [List.getElem?_eq_getElem hk] at hg
    cases hg
    rw [← (hM.functions k _ he).1]
    exact SetupGroups.perm (by simpa using this) h

/-- C56: for the symmetry functions of an element set up from settings, the groups and the functions
one by one leave the same values and derivatives in the atom (all but the contents of the caches).
Missing for the full claim: negative shifts in types 3 and 9, λ = 0 with derivatives, a zero scaling
factor, and different subtypes for the same radii in types 21 and 24. -/
theorem C56_element_partial (E : SFEnv) (hE : E.OK) (lines : List (List Str)) (conv : Option ℝ)
    (hconv : conv.getD 1 ≠ 0) (t : CutoffType) (α : ℝ) (sc : ScalingSetup) (e : ElementData)
    (h : SetupElement E lines conv t α sc e) (hp : E.Prints e.symmetryFunctions)
    (hs : ∀ S ∈ e.symmetryFunctions, S.Sensible) (hu : UniformCaches E e.symmetryFunctions)
    (gs : List SymGrp) (hgs : SetupGroups e.symmetryFunctions gs) (a : Atom) (derivatives : Bool)
    (L : CacheLayout) (R : ℝ) (hr : ∀ S ∈ e.symmetryFunctions, S.Ready a derivatives L R)
    (hG : ∀ S ∈ e.symmetryFunctions, S.Groupable derivatives)
    (hsub : SubtypesAgree e.symmetryFunctions) :
    ∃ a' a'', calculateSymmetryFunctions e.symmetryFunctions a derivatives = some a' ∧
      calculateSymmetryFunctionGroups gs a derivatives = some a'' ∧
      a''.forgetCaches = a'.forgetCaches := by
  have hOK := h.ok hE hconv hp hs hu
  obtain ⟨c, t, α, hd⟩ := hOK.group
  obtain ⟨a', h1, h2, -⟩ := calculateAll_eq hr
  have hi : e.symmetryFunctions.Pairwise fun S T => S.index ≠ T.index := by
    rw [List.pairwise_iff_getElem]
    intro i j hi hj hij
    rw [hOK.index i _ (List.getElem?_eq_getElem hi), hOK.index j _ (List.getElem?_eq_getElem hj)]
    omega
  obtain ⟨a'', h3, h4⟩ := hgs.calculate hd (hsub.compact hd) hi (fun S hS => (hr S hS).group) hG
  exact ⟨a', a'', h1, h3, h4.trans h2.symm⟩

/-- C56: for a potential set up from a settings file and a new structure the default build, which
evaluates the symmetry functions in groups, succeeds and gives the same as the build without groups:
the same energies, symmetry functions and derivatives of the energy with respect to them, and with
forces the same structure altogether (all but the contents of the caches). Missing for the full
claim: see `C56_element_partial`. -/
theorem C56_evaluate_partial (hsrt : IsSort srt) (hM : M.SetUp P n) (hP : P.Fits n) (hn : 0 < n)
    (hs : s.Evaluable M P n) (gs : List (List SymGrp)) (hgs : M.GroupsSetUp gs)
    (useForces useDEdG : Bool) (hG : P.Groupable n useForces) :
    ∃ M' s' s'', M.evaluateNNP srt s useForces useDEdG = some (M', s') ∧
      M.evaluateNNPGroups srt gs s useForces useDEdG = some (M', s'') ∧
      (useForces = true → s''.forgetCaches = s'.forgetCaches) ∧
      s''.energyShort = s'.energyShort ∧ s''.energy = s'.energy ∧
      List.Forall₂ (fun b b' : Atom => b'.G = b.G ∧ b'.energy = b.energy ∧
        (useDEdG = true → b'.dEdG = b.dEdG)) s'.atoms s''.atoms := by
  obtain ⟨M', s', h1, -⟩ :=
    evaluateNNP_eq hsrt hM hP hn hs.new hs.apart hs.triplets useForces useDEdG
  obtain ⟨s'', h2⟩ := evaluateNNPGroups_eq hsrt hM hn hs.new hs.apart hs.triplets hgs hG h1
  exact ⟨M', s', s'', h1, h2⟩

theorem exPotential_groupable (d : Bool) : exPotential.Groupable 2 d := by
  refine ⟨fun k _ S hS => ?_, fun k _ S hS T hT _ _ _ _ _ => ?_⟩
  · rw [List.mem_singleton.1 hS]
    exact ⟨fun _ => le_rfl, fun _ _ _ => one_ne_zero, fun _ _ => one_ne_zero⟩
  · rw [List.mem_singleton.1 hS, List.mem_singleton.1 hT]

/-- A potential with a three-atom cluster meeting the conditions of both theorems. -/
example : ∃ srt M gs s'' M', IsSort srt ∧ M.SetUp exPotential 2 ∧ M.GroupsSetUp gs ∧
    exCluster.Evaluable M exPotential 2 ∧ exPotential.Groupable 2 true ∧
    M.evaluateNNPGroups srt gs exCluster true false = some (M', s'') := by
  obtain ⟨srt, hsrt⟩ := exists_isSort
  obtain ⟨M, hM, -⟩ := exists_exMode
  obtain ⟨gs, hgs⟩ := (C56_partition hM).1
  have hev : exCluster.Evaluable M exPotential 2 :=
    exPotential_evaluable exCluster_new exCluster_apart
  obtain ⟨M', s', s'', -, h, -⟩ := C56_evaluate_partial hsrt hM exPotential_fits (by norm_num) hev gs
    hgs true false (exPotential_groupable true)
  exact ⟨srt, M, gs, s'', M', hsrt, hM, hgs, hev, exPotential_groupable true, h⟩


/-- A line of a settings file and an atom with two neighbours meeting the conditions of
`C56_element_partial`. -/
example (net : NeuralNetwork) : ∃ gs, SetupElement exEnvNeg [exVarLine ['1'] ['0']] none .COS 0 .off
      ⟨[exVar 1 0], [[0], [0]], [0, 0], net⟩ ∧ SetupGroups [exVar 1 0] gs ∧
    (exVar 1 0).Ready (exCenter [exN1 [], exN2 []]) true (fun _ => []) 3 ∧
    (exVar 1 0).Groupable true ∧ SubtypesAgree [exVar 1 0] := by
  have h := exVar_setup ['1'] ['0'] net
  have hOK := exVar_ok ['1'] ['0'] net
  rw [exEnvNeg_one, exEnvNeg_zero] at h hOK
  obtain ⟨c, t, α, hd⟩ := hOK.group
  obtain ⟨gs, hgs⟩ := exists_setupGroups' hd
  refine ⟨gs, h, hgs, exVar_ready (hOK.valid _ (List.mem_singleton.2 rfl)),
    ⟨fun _ => le_rfl, fun _ _ _ => one_ne_zero, fun _ _ => one_ne_zero⟩, ?_⟩
  intro S hS T hT _ _ _ _ _
  rw [List.mem_singleton.1 hS, List.mem_singleton.1 hT]

/-- C56 does not hold for negative shifts: a group with a single function of type 3 or 9 ignores a
negative shift, its value is that of the formula without shift. -/
theorem C56_negative_shift_ignored (S : SymFnc) (c : ℝ) (t : CutoffType) (α : ℝ)
    (hd : S.GroupData c t α) (hk : S.kind = .ExpAngn ∨ S.kind = .ExpAngw) (hrs : S.rs < 0)
    (hsf : S.sf ≠ 0) (gs : List SymGrp) (hgs : SetupGroups [S] gs) (a : Atom) (L : CacheLayout)
    (R : ℝ) (hr : S.Ready a false L R) :
    ∃ a', calculateSymmetryFunctionGroups gs a false = some a' ∧
      a'.value S = some (S.sc.scale (SymFnc.formula { S with rs := 0 } a.env)) := by
  have hk' : S.kind = .ExpAngn ∨ S.kind = .ExpAngw ∨ S.kind = .ExpAngnWeighted := by tauto
  have hx : S.IsExp := by unfold SymFnc.IsExp; tauto
  obtain rfl := hgs.single hd hk'
  have hg : calculateSymmetryFunctionGroups [SymGrp.single S] a false =
      calculateSymmetryFunctionGroups [SymGrp.single (S.withShift 0)] a false := by
    unfold calculateSymmetryFunctionGroups
    rw [List.foldlM_cons, List.foldlM_cons, single_withShift hk hrs]
  obtain ⟨a', h1, h2⟩ := (setupGroups_single (SymFnc.withShift_data hd 0) hk').calculate
    (by simpa using SymFnc.withShift_data hd 0)
    (by
      intro T hT U hU h
      rw [List.mem_singleton.1 hT] at h
      have h : S.kind = .CompAngn ∨ S.kind = .CompAngnWeighted := h
      rcases hk with hk | hk <;> rw [hk] at h <;> simp at h)
    (List.pairwise_singleton _ _) (a := a) (d := false) (L := L) (R := R)
    (by simpa using SymFnc.withShift_ready hr.group hx 0)
    (by
      intro T hT
      rw [List.mem_singleton.1 hT]
      exact ⟨fun _ => le_rfl, nofun, fun _ _ => hsf⟩)
  refine ⟨a', hg.trans h1, ?_⟩
  have hG : a'.G = a.G.set S.index (S.sc.scale ((S.withShift 0).formula a.forgetCaches.env)) :=
    congrArg Atom.G h2
  rw [a.forget_env] at hG
  unfold Atom.value
  rw [hG, List.getElem?_set_self hr.allocated.G]
  rfl

theorem exVar_groupData (lam rs : Str) :
    ∃ c t α, (exVar (exEnvNeg.atof lam) (exEnvNeg.atof rs)).GroupData c t α := by
  obtain ⟨nn, h⟩ : ∃ nn0, NeuralNetwork.create exNet.numLayers exNet.n exNet.af = some nn0 := ⟨_, rfl⟩
  obtain ⟨c, t, α, h⟩ := (exVar_ok lam rs nn).group
  exact ⟨c, t, α, h _ (List.mem_singleton.2 rfl)⟩

theorem exVar_valid (lam rs : Str) : (exVar (exEnvNeg.atof lam) (exEnvNeg.atof rs)).Valid := by
  obtain ⟨nn, h⟩ : ∃ nn0, NeuralNetwork.create exNet.numLayers exNet.n exNet.af = some nn0 := ⟨_, rfl⟩
  exact (exVar_ok lam rs nn).valid _ (List.mem_singleton.2 rfl)

theorem SymFnc.Ready.noDerivatives {S : SymFnc} {a : Atom} {L : CacheLayout} {R : ℝ}
    (h : S.Ready a true L R) : S.Ready a false L R :=
  ⟨h.valid, h.list, ⟨h.allocated.G, nofun, h.allocated.cache, nofun⟩, h.triplets, h.disjoint, h.use,
    h.le, h.cache⟩

/-- C56 does not hold for negative shifts: a function with shift -1, set up from a line of a
settings file, has another value in its group than on its own. -/
theorem C56_not_negative_shift (net : NeuralNetwork) : ∃ S gs a a' a'',
    SetupElement exEnvNeg [exVarLine ['1'] ['-', '1']] none .COS 0 .off
      ⟨[S], [[0], [0]], [0, 0], net⟩ ∧ SetupGroups [S] gs ∧ S.Ready a false (fun _ => []) 3 ∧
    calculateSymmetryFunctions [S] a false = some a' ∧
    calculateSymmetryFunctionGroups gs a false = some a'' ∧ a''.value S ≠ a'.value S := by
  have h := exVar_setup ['1'] ['-', '1'] net
  obtain ⟨c, t, α, hd⟩ := exVar_groupData ['1'] ['-', '1']
  have hV := exVar_valid ['1'] ['-', '1']
  rw [exEnvNeg_one, exEnvNeg_neg] at h hd hV
  have hr := (exVar_ready hV).noDerivatives
  obtain ⟨gs, hgs⟩ := exists_setupGroups' (Ss := [exVar 1 (-1)]) (by simpa using hd)
  obtain ⟨a'', h2, v2⟩ := C56_negative_shift_ignored _ c t α hd (Or.inr rfl)
    (show (-1 : ℝ) < 0 by norm_num) one_ne_zero gs hgs _ _ _ hr
  obtain ⟨a', h1, v1⟩ := C68_all_values [exVar 1 (-1)] _ false _ _ (by simpa using hr)
    (List.pairwise_singleton _ _)
  refine ⟨_, gs, _, a', a'', h, hgs, hr, h1, h2, ?_⟩
  rw [v1 _ (List.mem_singleton.2 rfl), v2]
  have e : ({ exVar 1 (-1) with rs := 0 } : SymFnc) = exVar 1 0 := rfl
  rw [e, exVar_formula, exVar_formula]
  intro hh
  have hh : Real.exp (-(1 - 0) ^ 2) * Real.exp (-(2 - 0) ^ 2) * (3 / 4 * (1 / 4)) =
    Real.exp (-(1 - -1) ^ 2) * Real.exp (-(2 - -1) ^ 2) * (3 / 4 * (1 / 4)) := Option.some.inj hh
  rw [← Real.exp_add, ← Real.exp_add] at hh
  have := Real.exp_injective (mul_right_cancel₀ (by norm_num) hh)
  norm_num at this

/-- C56 does not hold for λ = 0: with derivatives, the group of a function with λ = 0, set up from a
line of a settings file, divides zero by zero, while the function on its own has derivatives. -/
theorem C56_not_lambda_zero (net : NeuralNetwork) : ∃ S gs a a',
    SetupElement exEnvNeg [exVarLine ['0'] ['0']] none .COS 0 .off
      ⟨[S], [[0], [0]], [0, 0], net⟩ ∧ SetupGroups [S] gs ∧ S.Ready a true (fun _ => []) 3 ∧
    calculateSymmetryFunctions [S] a true = some a' ∧
    calculateSymmetryFunctionGroups gs a true = none := by
  classical
  have h := exVar_setup ['0'] ['0'] net
  obtain ⟨c, t, α, hd⟩ := exVar_groupData ['0'] ['0']
  have hV := exVar_valid ['0'] ['0']
  rw [exEnvNeg_zero] at h hd hV
  have hr := exVar_ready hV
  have hgs := setupGroups_single hd (Or.inr (Or.inl rfl))
  obtain ⟨a', h1, -⟩ := C68_all_values [exVar 0 0] _ true _ _ (by simpa using hr)
    (List.pairwise_singleton _ _)
  refine ⟨_, _, _, a', h, hgs, hr, h1, ?_⟩
  have hb := fun m hm nj nk pij pik e =>
    bodyExp_lambda_zero (S := exVar 0 0) rfl (SymGrp.single (exVar 0 0)) m hm nj nk pij pik e
  set g := SymGrp.single (exVar 0 0) with hg
  have hmem : ∀ j k nj nk pij pik s, g.expAngMember true j k nj nk pij pik s 0 = none := by
    intro j k nj nk pij pik s
    unfold SymGrp.expAngMember
    have e1 : g.rows[0]? = some _ := rfl
    rw [e1]
    simp only [Option.bind_eq_bind, Option.bind_some]
    generalize hm : ({ SymGrp.row (exVar 0 0).kind none (exVar 0 0) with
      scalingFactor := (exVar 0 0).sf
      factorNorm := 2 ^ (1 - (exVar 0 0).zeta) * (exVar 0 0).sf } : GrpMember) = m
    rw [hb m (by rw [← hm])]
    rfl
  have hrows : g.rows.length = 1 := rfl
  have d1 := exN1_d []
  have d2 := exN2_d []
  have hstep : ∀ pij res, g.expAngStep true 0 pij (res, exCenter [exN1 [], exN2 []]) 1 = none := by
    intro pij res
    unfold SymGrp.expAngStep
    have e0 : (exCenter [exN1 [], exN2 []]).neighbors[0]? = some (exN1 []) := rfl
    have e1 : (exCenter [exN1 [], exN2 []]).neighbors[1]? = some (exN2 []) := rfl
    simp only [e0, e1, Option.bind_eq_bind, Option.bind_some]
    rw [if_pos ⟨Or.inl ⟨rfl, rfl⟩, by rw [d2]; show (2 : ℝ) < 3; norm_num⟩]
    have c0 : g.firstCache (exN1 []).element = some [] := rfl
    have c1 : g.firstCache (exN2 []).element = some [] := rfl
    rw [c0, c1, hrows]
    simp [cachedFdf, List.range_succ, hmem]
  have hset : (exCenter [exN1 [], exN2 []]).setNeighbor 0 (exN1 []) = exCenter [exN1 [], exN2 []] :=
    rfl
  have hout : ∀ res, g.expAngOuterStep true 2 (res, exCenter [exN1 [], exN2 []]) 0 = none := by
    intro res
    unfold SymGrp.expAngOuterStep
    have e0 : (exCenter [exN1 [], exN2 []]).neighbors[0]? = some (exN1 []) := rfl
    simp only [e0, Option.bind_eq_bind, Option.bind_some]
    rw [if_pos ⟨Or.inl rfl, by rw [d1]; show (1 : ℝ) < 3; norm_num⟩]
    have c0 : g.firstCache (exN1 []).element = some [] := rfl
    rw [c0]
    simp [cachedFdf, List.range'_succ, hset, hstep]
  have hcalc : g.expAngCalculate (exCenter [exN1 [], exN2 []]) true = none := by
    unfold SymGrp.expAngCalculate
    have b : g.bound (exCenter [exN1 [], exN2 []]) = 2 := rfl
    rw [b]
    simp [List.range_succ, hout]
  unfold calculateSymmetryFunctionGroups
  rw [List.foldlM_cons]
  have : g.calculate (exCenter [exN1 [], exN2 []]) true =
      g.rows[0]?.bind fun _ => g.expAngCalculate (exCenter [exN1 [], exN2 []]) true := rfl
  rw [this, hcalc]
  rfl

end N2P2
