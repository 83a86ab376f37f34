import Verif.Lemma.ModeExists
import Verif.Props.SymFncSetup
import Verif.Props.NeuralNetwork

/-! A small potential for two elements with one wide angular function each, and structures for it. -/

namespace N2P2

/-- `X 9 H O 1 1 1 3`: wide angular function of element `X`. -/
def exWideLine (sym : Str) : List Str := [sym, ['9'], ['H'], ['O'], ['1'], ['1'], ['1'], ['3']]

/-- The function of the line after the setup. -/
noncomputable def exFn (ec : ℕ) : SymFnc :=
  { exFinal 0 (exAng 0) with
    sc := ⟨ec, 0, 9, .none, 0, 0, 0, 0, 0, 0, 1⟩
    indexPerElement := [0, 0] }

theorem exWideLine_add (sym : Str) (ec : ℕ) (h : exEnv.element sym = some ec) :
    addSymmetryFunction exEnv [] (exWideLine sym) = some [(exAng 0).setEc ec] := by
  have a : exEnv.atoi ['9'] = 9 := rfl
  have b : exEnv.atof ['3'] = 3 := by simp [exEnv, exDigits]
  have c : exEnv.atof ['1'] = 1 := by simp [exEnv, exDigits]
  have f : exEnv.element ['H'] = some 0 := rfl
  have g : exEnv.element ['O'] = some 1 := rfl
  have r : roundInt 1 = 1 := by
    unfold roundInt
    rw [if_pos (by norm_num)]
    norm_num [Int.floor_eq_iff]
  have z : 0 ≤ DBL_MIN := by unfold DBL_MIN; positivity
  unfold addSymmetryFunction
  simp [exWideLine, a, SFKind.ofNumber, SymFnc.setParameters, SymFnc.create, h,
    SFKind.number, b, c, f, g, SFEnv.elem, SFEnv.num, SymFnc.setEc, resetCutoff_some,
    CutoffFunction.init, exAng, mkCutoff, coreOfCutoff, SymFnc.orderElements, SymFnc.setZetaInt,
    r, z]

theorem exWideLine_setup (sym : Str) (ec : ℕ) (h : exEnv.element sym = some ec) :
    SetupSymmetryFunctions exEnv [exWideLine sym] none .COS 0 [exFinal 0 ((exAng 0).setEc ec)] := by
  refine ⟨[(exAng 0).setEc ec], [(exAng 0).setEc ec], _, ?_, rfl,
    ⟨[(exAng 0).setEc ec], List.Perm.refl _, ?_, rfl⟩, ?_⟩
  · simp [exWideLine_add sym ec h]
  · simp
  · have : ((mkCutoff .HARD 3 0).setCutoffType .COS).setCutoffParameter 0 =
        some (mkCutoff .COS 3 0) := by
      unfold CutoffFunction.setCutoffParameter
      rw [if_neg (by norm_num)]
      norm_num [mkCutoff, CutoffFunction.setCutoffType, coreOfCutoff]
    simp [exAng, SymFnc.create, SymFnc.setCutoffFunction, SymFnc.setIndex, exFinal, SymFnc.setEc,
      this]
    rfl

theorem exSetupElement (sym : Str) (ec : ℕ) (h : exEnv.element sym = some ec)
    (net : NeuralNetwork) :
    SetupElement exEnv [exWideLine sym] none .COS 0 .off ⟨[exFn ec], [[0], [0]], [0, 0], net⟩ := by
  refine ⟨_, [{ exFinal 0 ((exAng 0).setEc ec) with indexPerElement := [0, 0] }],
    exWideLine_setup sym ec h, ?_, ?_, ?_⟩
  · rfl
  · have : setupSymmetryFunctionMemory 2 [exFinal 0 ((exAng 0).setEc ec)] =
      ([[0], [0]], [{ exFinal 0 ((exAng 0).setEc ec) with indexPerElement := [0, 0] }]) := rfl
    show setupSymmetryFunctionCache exEnv (setupSymmetryFunctionMemory 2 _).2 = _
    rw [this]
    set S : SymFnc := { exFinal 0 ((exAng 0).setEc ec) with indexPerElement := [0, 0] } with hS
    have hk : S.getCacheIdentifiers exEnv = [⟨0, false, S.cacheText exEnv⟩,
      ⟨0, true, S.cacheText exEnv⟩, ⟨1, false, S.cacheText exEnv⟩, ⟨1, true, S.cacheText exEnv⟩] :=
      rfl
    have hc : collectCacheLists exEnv [S] =
        some [[⟨0, ⟨0, false, S.cacheText exEnv⟩, [0]⟩, ⟨0, ⟨0, true, S.cacheText exEnv⟩, [0]⟩],
          [⟨1, ⟨1, false, S.cacheText exEnv⟩, [0]⟩, ⟨1, ⟨1, true, S.cacheText exEnv⟩, [0]⟩]] := by
      have e : exEnv.numElements = 2 := rfl
      have i : S.index = 0 := rfl
      simp [collectCacheLists, hk, collectId, enterCacheList, e, i]
    unfold setupSymmetryFunctionCache
    rw [hc]
    rfl
  · simp [setScaling, ScalingSetup.line, ScalingSetup.args, setScalingType]
    rfl

/-! ### The potential -/

/-- One neuron per layer, identity activation. -/
def exNet : NetShape where
  numLayers := 3
  n := fun _ => 1
  af := fun _ => .IDENTITY
  norm := false

/-- The energy of an H atom is two plus the value of its function, that of an O atom is zero. -/
noncomputable def exPotential : Potential where
  functions e := [exFn e]
  shape _ := exNet
  weights e := if e = 0 then 1 else 0

theorem exPotential_fits : exPotential.Fits 2 := by
  intro e _
  exact ⟨⟨le_rfl, fun _ _ => Nat.one_pos, fun _ _ _ => by simp [exPotential, exNet]⟩, rfl, rfl⟩

theorem exPotential_atomic (env : List Site) :
    exPotential.atomic 0 env = (exFn 0).formula env + 2 := by
  have : exPotential.input 0 env 0 = (exFn 0).formula env := rfl
  simp [Potential.atomic, exPotential, NetShape.forward, NetShape.out, exNet, Activation.fn,
    Activation.ideal, NetShape.divisor] at this ⊢
  rw [this]
  ring

theorem exists_exModeOf (P : Potential) (hf : ∀ e, P.functions e = [exFn e]) (hs : ∀ e, ∃ nn0,
    NeuralNetwork.create (P.shape e).numLayers (P.shape e).n (P.shape e).af = some nn0) :
    ∃ M : Mode, M.SetUp P 2 ∧ M.maxCutoffRadius = 3 := by
  choose nn0 h0 using hs
  have hm : max (3 : ℝ) 0 = 3 := by norm_num
  have hE : ∀ e, ∀ net, (⟨[exFn e], [[0], [0]], [0, 0], net⟩ : ElementData).getMaxCutoffRadius = 3 :=
    fun e net => hm
  set el : ℕ → ElementData := fun e => ⟨[exFn e], [[0], [0]], [0, 0],
    ((nn0 e).setConnections (P.weights e)).setNormalizeNeurons (P.shape e).norm⟩ with hel
  have hget : ∀ (k : ℕ) e, [el 0, el 1][k]? = some e →
      e = el k ∧ ∃ sym, exEnv.element sym = some k := by
    intro k e hk
    match k with
    | 0 => exact ⟨(Option.some.inj hk).symm, ['H'], rfl⟩
    | 1 => exact ⟨(Option.some.inj hk).symm, ['O'], rfl⟩
    | k + 2 => cases hk
  refine ⟨⟨[el 0, el 1], 3⟩, ⟨rfl, ?_, ?_, ?_, ?_⟩, rfl⟩
  · intro k e hk
    obtain ⟨rfl, sym, hsym⟩ := hget k e hk
    refine ⟨exEnv, [exWideLine sym], none, .COS, 0, .off, ⟨Nat.two_pos, ?_⟩, rfl, one_ne_zero,
      exSetupElement sym k hsym _, ⟨fun x => by simp [exEnv], ?_, ?_⟩, ?_, ?_⟩
    · intro s e he
      simp only [exEnv] at he
      split_ifs at he <;> cases he <;> decide
    · intro S hS T hT _
      rw [List.mem_singleton.1 hS, List.mem_singleton.1 hT]
    · intro S hS T hT _
      rw [List.mem_singleton.1 hS, List.mem_singleton.1 hT]
    · intro S hS _ _ e e' _ _ _ _
      have : ∀ e, ¬ S.SharesCache exEnv [exFn k] e := by
        rintro e ⟨-, T, hT, h1, -⟩
        rw [List.mem_singleton.1 hS, List.mem_singleton.1 hT] at h1
        exact h1 rfl
      exact iff_of_false (this e) (this e')
    · intro S hS
      rw [List.mem_singleton.1 hS]
      have r : roundInt 1 = 1 := by
        unfold roundInt
        rw [if_pos (by norm_num)]
        norm_num [Int.floor_eq_iff]
      refine ⟨show (0 : ℝ) < 3 by norm_num, fun _ _ => ⟨show (0 : ℝ) < 1 by norm_num, fun _ => ?_⟩⟩
      show (1 : ℝ) = (roundInt 1 : ℤ)
      rw [r]; norm_num
  · intro k e hk
    obtain ⟨rfl, -⟩ := hget k e hk
    exact ⟨(hf k).symm, by simp [hel]⟩
  · intro k e hk
    obtain ⟨rfl, -⟩ := hget k e hk
    exact ⟨nn0 k, .create (h0 k), .setNormalizeNeurons (P.shape k).norm (.refl _), rfl⟩
  · show (3 : ℝ) = max (el 1).getMaxCutoffRadius (max (el 0).getMaxCutoffRadius 0)
    rw [hE 0, hE 1]
    norm_num

theorem exists_exMode : ∃ M : Mode, M.SetUp exPotential 2 ∧ M.maxCutoffRadius = 3 :=
  exists_exModeOf exPotential (fun _ => rfl) fun _ => ⟨_, rfl⟩

/-! ### Structures -/

/-- A structure with atoms of given elements at given positions. -/
def exSystem (per : Bool) (box : Fin 3 → Vec3) (l : List (ℕ × Vec3)) : Structure :=
  { Structure.init with
    numAtoms := l.length
    numElements := 2
    isPeriodic := per
    box := box
    atoms := l.mapIdx fun i p =>
      { Atom.init with
        index := i
        tag := i
        element := p.1
        r := p.2
        numNeighborsPerElement := [0, 0] } }

section

variable {per : Bool} {box : Fin 3 → Vec3} {l : List (ℕ × Vec3)}

theorem exSystem_length : (exSystem per box l).atoms.length = l.length := by
  simp [exSystem]

theorem exSystem_get (i : ℕ) : (exSystem per box l).atoms[i]? = (l[i]?).map fun p =>
    { Atom.init with
      index := i
      tag := i
      element := p.1
      r := p.2
      numNeighborsPerElement := [0, 0] } := by
  simp [exSystem]

theorem exSystem_position (i : ℕ) :
    (exSystem per box l).position i = ((l[i]?).map Prod.snd).getD 0 := by
  unfold Structure.position
  rw [exSystem_get, Option.map_map]
  rfl

theorem exSystem_elementOf (i : ℕ) :
    (exSystem per box l).elementOf i = ((l[i]?).map Prod.fst).getD 0 := by
  unfold Structure.elementOf
  rw [exSystem_get, Option.map_map]
  rfl

theorem exSystem_new (he : ∀ p ∈ l, p.1 < 2)
    (hb : per = true → NonSingular box ∧ ∀ p ∈ l, InBox box p.2) :
    (exSystem per box l).New 2 := by
  have hmem : ∀ a ∈ (exSystem per box l).atoms, ∃ (i : ℕ) (p : ℕ × Vec3), p ∈ l ∧ a =
      { Atom.init with
        index := i
        tag := i
        element := p.1
        r := p.2
        numNeighborsPerElement := [0, 0] } := by
    intro a ha
    obtain ⟨i, hi⟩ := List.getElem?_of_mem ha
    rw [exSystem_get] at hi
    obtain ⟨p, hp, rfl⟩ := Option.map_eq_some_iff.1 hi
    exact ⟨i, p, List.mem_of_getElem? hp, rfl⟩
  refine ⟨?_, ?_, ⟨rfl, rfl⟩, ?_, ?_⟩
  · intro a ha
    obtain ⟨i, p, hp, rfl⟩ := hmem a ha
    exact ⟨⟨rfl, rfl, rfl, rfl, rfl, rfl⟩, he p hp⟩
  · intro h
    refine ⟨(hb h).1, fun a ha => ?_⟩
    obtain ⟨i, p, hp, rfl⟩ := hmem a ha
    exact (hb h).2 p hp
  · intro a ha
    obtain ⟨i, p, hp, rfl⟩ := hmem a ha
    exact ⟨he p hp, rfl, rfl, rfl⟩
  · intro i a ha
    rw [exSystem_get] at ha
    obtain ⟨p, hp, rfl⟩ := Option.map_eq_some_iff.1 ha
    rfl

end

/-- Different images are at different places. -/
theorem Structure.Apart.pairwise {s : Structure} (h : s.Apart) {R : ℝ} {i : ℕ} {env : List Site}
    (he : IsBall s R i env) : env.Pairwise fun x y => 0 < (x.dr - y.dr).norm := by
  obtain ⟨imgs, h1, h2, rfl⟩ := he
  rw [List.pairwise_map]
  refine (List.Pairwise.and_mem.1 h1).imp ?_
  rintro p q ⟨hp, hq, hne⟩
  have hp := ((h2 p).1 hp).1
  have hq := ((h2 q).1 hq).1
  have h3 : s.separation q.1 (p.1, p.2 - q.2) ≠ 0 := by
    refine h q.1 hq.1 _ ⟨hp.1, ?_, fun e => hne ?_⟩
    · rcases hp.2.1 with g | g
      · exact Or.inl g
      · rcases hq.2.1 with g' | g'
        · exact Or.inl g'
        · exact Or.inr (by simp [g, g'])
    · obtain ⟨e1, e2⟩ := Prod.mk.inj e
      exact Prod.ext e1 (sub_eq_zero.1 e2)
  have h4 : s.separation i p - s.separation i q = s.separation q.1 (p.1, p.2 - q.2) := by
    unfold Structure.separation
    rw [sub_eq_add_neg p.2, shift_add', shift_neg]
    abel
  rw [h4]
  exact norm_pos fun h => h3 (norm2_eq_zero h)

theorem exPotential_evaluable {s : Structure} {M : Mode} (hs : s.New 2) (ha : s.Apart) :
    s.Evaluable M exPotential 2 := by
  refine ⟨hs, ha, ?_⟩
  intro i _ S hS env _ h
  rw [List.mem_singleton.1 hS] at h
  exact absurd (Or.inr (Or.inr (Or.inl rfl))) h

theorem exPotential_smooth {s : Structure} (ha : s.Apart) (R : ℝ) : exPotential.Smooth R s := by
  intro i _ env henv
  refine ⟨fun S hS => ?_, fun _ _ _ _ => trivial⟩
  rw [List.mem_singleton.1 hS]
  exact ⟨fun _ => nofun, fun _ => ha.pairwise henv,
    fun _ _ => Or.inr (Or.inl ⟨le_rfl, by show |(1 : ℝ)| ≤ 1; norm_num⟩)⟩

/-- A box with right angles. -/
def brick (a b c : ℝ) : Fin 3 → Vec3 := ![![a, 0, 0], ![0, b, 0], ![0, 0, c]]

theorem shift_brick (a b c : ℝ) (q : Fin 3 → ℤ) :
    shift (brick a b c) q = ![q 0 * a, q 1 * b, q 2 * c] := by
  funext k
  fin_cases k <;> simp [shift, brick, Fin.sum_univ_three]

theorem brick_nonSingular {a b c : ℝ} (ha : a ≠ 0) (hb : b ≠ 0) (hc : c ≠ 0) :
    NonSingular (brick a b c) := by
  rw [nonSingular_iff]
  simp [boxDet, brick, ha, hb, hc]

theorem brick_inBox {a b c x y z : ℝ} (ha : 0 < a) (hb : 0 < b) (hc : 0 < c) (hx : 0 ≤ x ∧ x < a)
    (hy : 0 ≤ y ∧ y < b) (hz : 0 ≤ z ∧ z < c) : InBox (brick a b c) ![x, y, z] := by
  refine ⟨![x / a, y / b, z / c], fun k => ?_, ?_⟩
  · fin_cases k
    · exact ⟨div_nonneg hx.1 ha.le, (div_lt_one ha).2 hx.2⟩
    · exact ⟨div_nonneg hy.1 hb.le, (div_lt_one hb).2 hy.2⟩
    · exact ⟨div_nonneg hz.1 hc.le, (div_lt_one hc).2 hz.2⟩
  · funext k
    fin_cases k <;> simp [cartesian, brick, Fin.sum_univ_three] <;> field_simp

/-- Three atoms without box. -/
def exCluster : Structure :=
  exSystem false 0 [(0, ![0, 0, 0]), (1, ![1, 0, 0]), (0, ![0, 1, 0])]

theorem exCluster_new : exCluster.New 2 :=
  exSystem_new (by simp) nofun

theorem exCluster_apart : exCluster.Apart := by
  rintro i hi ⟨j, q⟩ ⟨hj, hq, hne⟩ h0
  obtain rfl : q = 0 := hq.resolve_left nofun
  simp only [exCluster, exSystem_length, List.length_cons, List.length_nil] at hi hj
  unfold Structure.separation at h0
  rw [shift_zero] at h0
  simp only [exCluster, exSystem_position] at h0
  have e0 := congrFun h0 0
  have e1 := congrFun h0 1
  interval_cases i <;> interval_cases j <;> simp at e0 e1 hne

/-- The same three atoms turned, translated and listed in another order. -/
def exCluster' : Structure :=
  exSystem false 0 [(0, ![0, 2, 3]), (0, ![1, 2, 3]), (1, ![1, 3, 3])]

theorem exCluster'_new : exCluster'.New 2 :=
  exSystem_new (by simp) nofun

theorem exCluster'_apart : exCluster'.Apart := by
  rintro i hi ⟨j, q⟩ ⟨hj, hq, hne⟩ h0
  obtain rfl : q = 0 := hq.resolve_left nofun
  simp only [exCluster', exSystem_length, List.length_cons, List.length_nil] at hi hj
  unfold Structure.separation at h0
  rw [shift_zero] at h0
  simp only [exCluster', exSystem_position] at h0
  have e0 := congrFun h0 0
  have e1 := congrFun h0 1
  interval_cases i <;> interval_cases j <;> first | (exact hne rfl) | (norm_num at e0; done) | (norm_num at e1; done)

theorem exCluster_same : SameArrangement !![0, -1, 0; 1, 0, 0; 0, 0, 1] ![1, 2, 3]
    (fun i => if i = 2 then 0 else i + 1) 0 exCluster exCluster' := by
  refine ⟨?_, rfl, ?_, ?_, ?_, ?_, rfl, nofun, fun _ _ => rfl⟩
  · ext i j
    fin_cases i <;> fin_cases j <;> simp [Matrix.mul_apply, Fin.sum_univ_three]
  · intro i hi
    simp only [exCluster, exSystem_length, List.length_cons, List.length_nil] at hi ⊢
    split_ifs <;> omega
  · intro i hi j hj
    simp only [exCluster, exSystem_length, List.length_cons, List.length_nil] at hi hj
    interval_cases i <;> interval_cases j <;> simp
  · intro i hi
    simp only [exCluster, exSystem_length, List.length_cons, List.length_nil] at hi
    simp only [exCluster, exCluster', exSystem_elementOf]
    interval_cases i <;> rfl
  · intro i hi
    simp only [exCluster, exSystem_length, List.length_cons, List.length_nil] at hi
    simp only [exCluster, exCluster', exSystem_position, Pi.zero_apply, shift_zero, add_zero]
    interval_cases i <;> funext k <;> fin_cases k <;>
      (simp; try norm_num)

/-- The three atoms in a large box. -/
def exLiquid : Structure :=
  exSystem true (brick 10 10 10) [(0, ![0, 0, 0]), (1, ![1, 0, 0]), (0, ![0, 1, 0])]

theorem exLiquid_new : exLiquid.New 2 := by
  refine exSystem_new (by simp) fun _ =>
    ⟨brick_nonSingular (by norm_num) (by norm_num) (by norm_num), ?_⟩
  intro p hp
  simp only [List.mem_cons, List.not_mem_nil, or_false] at hp
  rcases hp with rfl | rfl | rfl <;> exact brick_inBox (by norm_num) (by norm_num) (by norm_num)
    (by norm_num) (by norm_num) (by norm_num)

theorem exLiquid_position {i : ℕ} (hi : i < 3) (k : Fin 3) :
    0 ≤ exLiquid.position i k ∧ exLiquid.position i k ≤ 1 := by
  simp only [exLiquid, exSystem_position]
  interval_cases i <;> fin_cases k <;> simp

theorem small_int {q : ℤ} {a b c : ℝ} (hc : 1 < c) (ha : 0 ≤ a ∧ a ≤ 1) (hb : 0 ≤ b ∧ b ≤ 1)
    (h : a - b + q * c = 0) : q = 0 := by
  have h1 : (q : ℝ) < 1 := by
    by_contra hq
    push Not at hq
    nlinarith
  have h2 : (-1 : ℝ) < q := by
    by_contra hq
    push Not at hq
    nlinarith
  have h1 : q < 1 := by exact_mod_cast h1
  have h2 : -1 < q := by exact_mod_cast h2
  omega

theorem exLiquid_apart : exLiquid.Apart := by
  rintro i hi ⟨j, q⟩ ⟨hj, -, hne⟩ h0
  simp only [exLiquid, exSystem_length, List.length_cons, List.length_nil] at hi hj
  unfold Structure.separation at h0
  change exLiquid.position i - exLiquid.position j + shift (brick 10 10 10) q = 0 at h0
  rw [shift_brick] at h0
  have e := fun k => congrFun h0 k
  have hq : q = 0 := by
    funext k
    fin_cases k
    · exact small_int (by norm_num) (exLiquid_position hi 0) (exLiquid_position hj 0) (e 0)
    · exact small_int (by norm_num) (exLiquid_position hi 1) (exLiquid_position hj 1) (e 1)
    · exact small_int (by norm_num) (exLiquid_position hi 2) (exLiquid_position hj 2) (e 2)
  subst hq
  have e0 := e 0
  have e1 := e 1
  simp only [exLiquid, exSystem_position] at e0 e1
  interval_cases i <;> interval_cases j <;> simp at e0 e1 hne

theorem brick_len {a b c : ℝ} (q : Fin 3 → ℤ) (hq : q ≠ 0) (m : ℝ) (hm : 0 ≤ m) (ha : m ≤ a)
    (hb : m ≤ b) (hc : m ≤ c) : m ≤ len (shift (brick a b c) q) := by
  rw [shift_brick, len]
  refine Real.le_sqrt_of_sq_le ?_
  simp only [Fin.sum_univ_three]
  show m ^ 2 ≤ (q 0 * a) ^ 2 + (q 1 * b) ^ 2 + (q 2 * c) ^ 2
  have one : ∀ {x : ℝ} {z : ℤ}, m ≤ x → z ≠ 0 → m ^ 2 ≤ (z * x) ^ 2 := by
    intro x z hx hz
    have h1 : (1 : ℝ) ≤ (z : ℝ) ^ 2 := by
      have : (1 : ℤ) ≤ z ^ 2 := by
        have := sq_pos_of_ne_zero hz
        omega
      exact_mod_cast this
    have h2 : m ^ 2 ≤ x ^ 2 := pow_le_pow_left₀ hm hx 2
    rw [mul_pow]
    nlinarith [sq_nonneg x]
  obtain ⟨k, hk⟩ := Function.ne_iff.1 hq
  have h0 := sq_nonneg ((q 0 : ℝ) * a)
  have h1 := sq_nonneg ((q 1 : ℝ) * b)
  have h2 := sq_nonneg ((q 2 : ℝ) * c)
  fin_cases k
  · have := one (z := q 0) ha hk; linarith
  · have := one (z := q 1) hb hk; linarith
  · have := one (z := q 2) hc hk; linarith

theorem exLiquid_noOwnImages : exPotential.NoOwnImages exLiquid := by
  intro i hi q hq S hS
  rw [List.mem_singleton.1 hS]
  have hne : q ≠ 0 := fun h => hq.2.2 (by rw [h])
  have : exLiquid.separation i (i, q) = shift (brick 10 10 10) q := by
    unfold Structure.separation
    rw [sub_self, zero_add]; rfl
  rw [this]
  exact brick_len q hne 3 (by norm_num) (by norm_num) (by norm_num) (by norm_num)

/-- Two atoms in a box which is short in one direction. -/
noncomputable def exCrystal : Structure :=
  exSystem true (brick 2 10 10) [(0, ![0, 0, 0]), (1, ![0, 5 / 2, 0])]

theorem exCrystal_new : exCrystal.New 2 := by
  refine exSystem_new (by simp) fun _ =>
    ⟨brick_nonSingular (by norm_num) (by norm_num) (by norm_num), ?_⟩
  intro p hp
  simp only [List.mem_cons, List.not_mem_nil, or_false] at hp
  rcases hp with rfl | rfl <;> exact brick_inBox (by norm_num) (by norm_num) (by norm_num)
    (by norm_num) (by norm_num) (by norm_num)

end N2P2
