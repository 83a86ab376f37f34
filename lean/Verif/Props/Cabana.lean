import Verif.Lemma.CabanaKernel
import Verif.Lemma.CabanaNetworks
import Verif.Lemma.CabanaExample
import Verif.Props.WeightFile

/-! Properties of the CabanaMD interface. -/

namespace N2P2

open NeuralNetwork NetShape

/-! ### C98: symmetry functions -/

/-- C98: from the same settings the interface gets the symmetry functions of libnnp: its setup
succeeds, and the kernels compute for every local atom the network input of libnnp, i.e. the scaled
symmetry functions of its neighbours in libnnp's order. This is proved for the cutoff functions
`CT_COS` and `CT_TANHU` and without negative shifts of angular functions. -/
theorem C98_functions_partial (E : SFEnv) (names : List Str) (lines : List (List Str))
    (conv : Option ℝ) (t : CutoffType) (α : ℝ) (st : ScalingType)
    (share : ℕ → List StatisticsLine) (Smin Smax : ℝ) (els : List ElementData)
    (h : SameSettings E names lines conv t α st share Smin Smax els) (ht : t = .COS ∨ t = .TANHU)
    (hS : ∀ e ∈ els, ∀ S ∈ e.symmetryFunctions, S.Sensible ∧ (S.kind = .ExpAngn → 0 ≤ S.rs))
    (P : Potential) (hP : ∀ (k : ℕ) e, els[k]? = some e → P.functions k = e.symmetryFunctions) :
    ∃ rows tables, cabanaRows E names (conv.getD 1) lines = some rows ∧
      cabanaTables st Smin Smax ((List.range names.length).flatMap share) rows = some tables ∧
      ∀ (convLength convEnergy : ℝ) (A : CabanaAtoms) (i : ℕ), A.type i < els.length →
        (⟨tables, t, α, convLength, convEnergy⟩ : Cabana).symmetryFunctions A i =
          some (P.input (A.type i) (A.env (1.889726 * convLength) i)) := by
  obtain ⟨rows, tables, h1, h2, h3, h4⟩ :=
    cabanaSetup h.symbols h.few h.length h.types h.known h.element
  refine ⟨rows, tables, h1, h2, fun cl ce A i hi => ?_⟩
  have hlt : A.type i < tables.length := by rw [h3, ← h.length]; exact hi
  obtain ⟨e, he, hT⟩ := h4 _ _ (List.getElem?_eq_getElem hlt)
  rw [cabana_symmetryFunctions (M := ⟨tables, t, α, cl, ce⟩) ht ⟨rfl, rfl⟩ hT
    (hS e (List.mem_of_getElem? he)) A i (List.getElem?_eq_getElem hlt)]
  have henv : ((A.neigh i).map fun j =>
      (⟨A.type j, (⟨tables, t, α, cl, ce⟩ : Cabana).disp A i j⟩ : Site)) =
      A.env (1.889726 * cl) i := by
    unfold CabanaAtoms.env
    refine List.map_congr_left fun j _ => ?_
    congr 1
    funext c
    simp only [Cabana.disp, CFLENGTH]
    ring
  rw [henv]
  unfold Potential.input
  rw [hP _ _ he]
  rfl

/-- Two elements, a radial and an angular function of H. -/
example : ∃ els P, SameSettings exEnv [['H'], ['O']] [exNarLine, exRadLine ['H']] none .COS 0
      .scaleCenter exShare 0 1 els ∧
    (∀ e ∈ els, ∀ S ∈ e.symmetryFunctions, S.Sensible ∧ (S.kind = .ExpAngn → 0 ≤ S.rs)) ∧
    (∀ (k : ℕ) e, els[k]? = some e → Potential.functions P k = e.symmetryFunctions) ∧
    ∃ e ∈ els, ∃ S ∈ e.symmetryFunctions, S.kind = .ExpAngn := by
  obtain ⟨els, h1, h2, h3⟩ := exCabana_settings exNetElement.exampleNet
  refine ⟨els, ⟨fun k => ((els[k]?).map ElementData.symmetryFunctions).getD [], fun _ => exNet,
    fun _ _ => 0⟩, h1, fun e he S hS => ⟨(h2 e he S hS).1, fun h => ((h2 e he S hS).2 h).1⟩, ?_, h3⟩
  intro k e he
  simp [he]

/-- C98 fails for all other cutoff functions: the symmetry functions do not depend on the positions
of the atoms at all. -/
theorem C98_other_cutoff (M : Cabana) (h : M.cutoffType ≠ .COS ∧ M.cutoffType ≠ .TANHU)
    (A A' : CabanaAtoms) (i i' : ℕ) (hi : A.type i = A'.type i') :
    M.symmetryFunctions A i = M.symmetryFunctions A' i' := by
  have hc : ∀ r rc, cabanaCutoff M.cutoffType M.cutoffAlpha r rc = none := by
    intro r rc
    obtain ⟨h1, h2⟩ := h
    revert h1 h2
    cases M.cutoffType <;> intro h1 h2 <;> first | rfl | exact absurd rfl h1 | exact absurd rfl h2
  have hid : ∀ {α : Type} (op : (ℕ → ℝ) → α → ℕ → ℝ), (∀ G a, op G a = G) →
      ∀ (l : List α) G, l.foldl op G = G := by
    intro α op hop l
    induction l with
    | nil => intro G; rfl
    | cons a l ih => intro G; rw [List.foldl_cons, hop]; exact ih G
  have hadd : ∀ G k, addEntry G k 0 = G := fun G k => by simp [addEntry]
  have hr : ∀ T nej rij G g, M.radialGroup T nej rij G g = G := by
    intro T nej rij G g
    unfold Cabana.radialGroup
    simp only [hc, Option.getD_none, mul_zero, hadd]
    rw [hid _ fun _ _ => rfl, ite_self]
  have ha : ∀ T nej nek dij dik G g, M.angularGroup T nej nek dij dik G g = G := by
    intro T nej nek dij dik G g
    unfold Cabana.angularGroup
    simp only [hc, Option.getD_none, mul_zero, hadd]
    rw [hid _ fun _ _ => rfl, ite_self]
  have key : ∀ (A : CabanaAtoms) i, M.symmetryFunctions A i =
      (M.tables[A.type i]?).bind fun T => some (T.groups.foldl T.scaleGroup fun _ => 0) := by
    intro A i
    unfold Cabana.symmetryFunctions
    simp only [Option.bind_eq_bind]
    congr 1
    funext T
    rw [hid (M.radialOp T A i) (fun G a => hid _ (fun G g => hr _ _ _ G g) T.groups G),
      hid (M.angularOp T A i) (fun G a => hid _ (fun G g => ha _ _ _ _ _ G g) T.groups G)]
  rw [key, key, hi]

/-- The polynomial cutoff function accepted by libnnp is one of them. -/
example : CutoffType.POLY2 ≠ .COS ∧ CutoffType.POLY2 ≠ .TANHU := by decide

/-- C98 fails for symmetry functions of the types 9, 12 and 13: their lines are accepted and have no
effect. -/
theorem C98_ignored_types (E : SFEnv) (names : List Str) (c : ℝ) (before after : List (List Str))
    (tok : List Str) (s ty : Str) (k : ℕ) (h0 : tok[0]? = some s) (hk : names[k]? = some s)
    (h1 : tok[1]? = some ty) (h : E.atoi ty = 9 ∨ E.atoi ty = 12 ∨ E.atoi ty = 13) :
    cabanaRows E names c (before ++ tok :: after) = cabanaRows E names c (before ++ after) := by
  have hlen : ∀ (ls : List (List Str)) (T T' : List (List CabanaRow)),
      ls.foldlM (cabanaAddLine E names c) T = some T' → T'.length = T.length := by
    intro ls
    induction ls with
    | nil => intro T T' h; obtain rfl := Option.some.inj h; rfl
    | cons l ls ih =>
      intro T T' h
      rw [List.foldlM_cons] at h
      obtain ⟨T1, h1, h2⟩ := Option.bind_eq_some_iff.1 h
      rw [ih _ _ h2]
      unfold cabanaAddLine at h1
      simp only [Option.bind_eq_bind, Option.bind_eq_some_iff, Option.some.injEq] at h1
      obtain ⟨_, _, _, _, _, _, rfl⟩ := h1
      simp
  have hel : cabanaElement names s 0 < names.length := by
    have : ∀ (l : List (Str × ℕ)) d, (∀ p ∈ l, p.2 < names.length) → d < names.length →
        l.foldl (fun el p => if p.1 = s then p.2 else el) d < names.length := by
      intro l
      induction l with
      | nil => intro d _ h; exact h
      | cons p l ih =>
        intro d hl hd
        rw [List.foldl_cons]
        refine ih _ (fun q hq => hl q (by simp [hq])) ?_
        split_ifs
        · exact hl p (by simp)
        · exact hd
    refine this _ 0 (fun p hp => ?_) ?_
    · have := List.snd_lt_of_mem_zipIdx hp
      simpa using this
    · have := (List.getElem?_eq_some_iff.1 hk).1
      omega
  have hne : E.atoi ty ≠ 2 ∧ E.atoi ty ≠ 3 := by omega
  unfold cabanaRows
  rw [List.foldlM_append, List.foldlM_append]
  cases hb : before.foldlM (cabanaAddLine E names c) (List.replicate names.length []) with
  | none => rfl
  | some T =>
    have hT := hlen _ _ _ hb
    rw [List.length_replicate] at hT
    have hlt : cabanaElement names s 0 < T.length := by omega
    have hline : cabanaAddLine E names c T tok = some T := by
      unfold cabanaAddLine cabanaAddRow
      simp only [h0, h1, Option.bind_eq_bind, Option.bind_some, if_neg hne.1, if_neg hne.2, if_pos h,
        List.getElem?_eq_getElem hlt, List.set_getElem_self]
    simp only [Option.bind_eq_bind, Option.bind_some, List.foldlM_cons, hline]

/-- libnnp has a symmetry function for the line. -/
example : exEnv.atoi ((exAngLine)[1]) = 9 ∧ ([['H'], ['O']] : List Str)[0]? = exAngLine[0]? ∧
    SetupSymmetryFunctions exEnv [exRadLine ['H'], exAngLine] none .COS 0
      [exFinal 0 (exRad 0), exFinal 1 (exAng 0)] := ⟨rfl, rfl, exSetup2⟩

/-- C98: the interface does not look at the numbers of element and symmetry function in the scaling
file. Lines in the order of other elements are accepted and give other scaled values. -/
theorem C98_numbers_ignored (st : ScalingType) (Smin Smax : ℝ) (f : StatisticsLine → ℕ × ℕ) :
    ∀ (rows : List (List CabanaRow)) (lines : List StatisticsLine),
    cabanaTables st Smin Smax (lines.map fun l => { l with ec := (f l).1, index := (f l).2 }) rows =
      cabanaTables st Smin Smax lines rows := by
  intro rows
  induction rows with
  | nil => intro lines; rfl
  | cons r rows ih =>
    intro lines
    have h2 : ∀ order, cabanaSetScaling st Smin Smax order
        (lines.map fun l => { l with ec := (f l).1, index := (f l).2 }) =
        cabanaSetScaling st Smin Smax order lines := by
      intro order
      unfold cabanaSetScaling
      congr 1
      funext sc p
      rw [List.getElem?_map]
      cases lines[p.2]? <;> rfl
    unfold cabanaTables cabanaTable
    simp only [h2]
    cases cabanaSetScaling st Smin Smax (cabanaSort (fun k => (r[k]?).getD .zero) r.length) lines with
    | none => rfl
    | some sc =>
      simp only [Option.bind_eq_bind, Option.bind_some]
      rw [← List.map_drop, ih]

/-- libnnp rejects such a line, see C88. -/
example : setScalingType (exFinal 0 (exRad 0)).sc .none ⟨7, 9, 0, 1, 0, none⟩ 0 1 = none := by
  have h : (exFinal 0 (exRad 0)).sc.ec = 0 ∧ (exFinal 0 (exRad 0)).sc.index = 0 := ⟨rfl, rfl⟩
  simp [setScalingType, h.1, h.2]

/-! ### C99: neural networks -/

/-- C99: the networks which training wrote to files are used by the interface with the same
parameters: its setup reads the files of all elements, and for every atom it gets the energy of the
network (hyperbolic tangent in the hidden layers, linear output, as the interface assumes) and its
derivatives with respect to all symmetry functions. This is proved if no element has more symmetry
functions than the last one. -/
theorem C99_networks_partial (N : NumberText) (hN : N.Data) (id : Str) (f : NameFormat)
    (hf : f.Short) (hidden nums : List ℕ) (hh : hidden ≠ []) (els : List NetElement)
    (hknown : ∀ e ∈ els, e.Known) (hdiff : (els.map NetElement.symbol).Nodup)
    (hnet : ∀ (k : ℕ) e, els[k]? = some e → ∃ m n af, nums[k]? = some m ∧
      e.HasNet id (2 + hidden.length) n af ∧ IntSized (2 + hidden.length) n ∧
      ∀ l < 2 + hidden.length, n l = (plainShape hidden m).n l)
    (hlast : ∀ m ∈ nums, ∃ last, nums.getLast? = some last ∧ m ≤ last) (fs : Files) :
    ∃ fs' net, writeWeights N els id f fs = some fs' ∧
      cabanaWeights N fs' f (els.map NetElement.symbol) (cabanaNet hidden nums) = .ok net ∧
      ∀ (k : ℕ) e m nn c, els[k]? = some e → nums[k]? = some m →
        e.neuralNetworks.find? id = some nn →
        (∀ p : Param, p.Valid (2 + hidden.length) (plainShape hidden m).n →
          c (p.pos (plainShape hidden m).n) = N.rounded (p.read nn)) →
        ∀ G old : Buf, ∃ d, net.evaluate k m G old =
            some ((plainShape hidden m).forward c G (plainShape hidden m).out 0, d) ∧
          ∀ j < m, HasDerivAt (fun x => (plainShape hidden m).forward c (Function.update G j x)
            (plainShape hidden m).out 0) (d j) (G j) := by
  obtain ⟨fs', net, h1, h2, hsz, h3⟩ := cabanaNetworks N hN id f hf hidden nums els hknown hdiff hnet
    hlast fs
  refine ⟨fs', net, h1, h2, fun k e m nn c he hm hnn hc G old => ?_⟩
  obtain ⟨hr, hin⟩ := h3 k e m nn c he hm hnn hc
  obtain ⟨d, d1, d2, -⟩ := cabana_evaluate hsz (plainShape_plain hidden m) hh hr hin G old
  refine ⟨d, d1, fun j hj => ?_⟩
  rw [d2 j hj]
  exact cabana_input_deriv hsz (plainShape_plain hidden m) hr G hj

/-- Two elements with two symmetry functions and one hidden layer with three neurons. -/
example (c d : Buf) : let els := [exNetElement 1 "H" "short" c, exNetElement 8 "O" "short" d]
    (∀ e ∈ els, e.Known) ∧ (els.map NetElement.symbol).Nodup ∧
    (∀ (k : ℕ) e, els[k]? = some e → ∃ m n af, [2, 2][k]? = some m ∧
      e.HasNet "short".toList (2 + [3].length) n af ∧ IntSized (2 + [3].length) n ∧
      ∀ l < 2 + [3].length, n l = (plainShape [3] m).n l) ∧
    ∀ m ∈ [2, 2], ∃ last, [2, 2].getLast? = some last ∧ m ≤ last := by
  have hs : ∀ l < 2 + [3].length, exampleShape.n l = (plainShape [3] 2).n l := by decide
  refine ⟨(exMatching c d).known, (exMatching c d).distinct, fun k e he => ?_, by simp⟩
  match k with
  | 0 =>
    obtain rfl := Option.some.inj he
    exact ⟨2, _, _, rfl, exNetElement.hasNet _ _ _, exampleShape_intSized, hs⟩
  | 1 =>
    obtain rfl := Option.some.inj he
    exact ⟨2, _, _, rfl, exNetElement.hasNet _ _ _, exampleShape_intSized, hs⟩
  | k + 2 => simp at he

/-- C99 fails if an element has more symmetry functions than the last one, but not more than neurons
in a layer: the derivatives with respect to the others keep the values of earlier atoms and steps. -/
theorem C99_stale_derivatives (net : CabanaNet) (hidden nums : List ℕ) (hh : hidden ≠ [])
    (hs : net.numLayers = 2 + hidden.length ∧ net.neurons = cabanaNeurons hidden nums) (last m : ℕ)
    (hlast : nums.getLast? = some last) (hm : m ≤ net.maxNeurons) (k : ℕ) (G old : Buf) :
    ∃ E d, net.evaluate k m G old = some (E, d) ∧ ∀ j, last ≤ j → d j = old j := by
  have hL : 0 < hidden.length := List.length_pos_iff.2 hh
  unfold CabanaNet.evaluate
  rw [if_neg (by omega), if_neg (by omega)]
  refine ⟨_, _, rfl, fun j hj => if_neg ?_⟩
  rw [hs.2]
  unfold cabanaNeurons
  rw [if_pos rfl, foldl_last, hlast]
  exact not_lt.2 hj

/-- Two elements with three and one symmetry functions, five neurons in the hidden layer. -/
example : (cabanaNet [5] [3, 1]).numLayers = 2 + [5].length ∧
    (cabanaNet [5] [3, 1]).neurons = cabanaNeurons [5] [3, 1] ∧ [3, 1].getLast? = some 1 ∧
    3 ≤ (cabanaNet [5] [3, 1]).maxNeurons := ⟨rfl, rfl, rfl, by decide⟩

/-- C99 fails if an element has more symmetry functions than the last one and than neurons in any
layer: the arrays are too small. -/
theorem C99_too_small (hidden nums : List ℕ) (last m k : ℕ) (hlast : nums.getLast? = some last)
    (hm : last < m ∧ 1 < m ∧ ∀ n ∈ hidden, n < m) (net : CabanaNet)
    (hs : net.maxNeurons = (cabanaNet hidden nums).maxNeurons) (G old : Buf) :
    net.evaluate k m G old = none := by
  unfold CabanaNet.evaluate
  rw [if_pos]
  rw [hs]
  show (List.range (2 + hidden.length)).foldl (fun a l => max a (cabanaNeurons hidden nums l)) 0 < m
  have : ∀ (l : List ℕ) a, a < m → (∀ x ∈ l, cabanaNeurons hidden nums x < m) →
      l.foldl (fun a l => max a (cabanaNeurons hidden nums l)) a < m := by
    intro l
    induction l with
    | nil => intro a h _; exact h
    | cons x l ih =>
      intro a h hx
      rw [List.foldl_cons]
      exact ih _ (max_lt h (hx x (by simp))) fun y hy => hx y (by simp [hy])
  refine this _ 0 (by omega) fun l _ => ?_
  unfold cabanaNeurons
  split_ifs
  · rw [foldl_last, hlast]; exact hm.1
  · exact hm.2.1
  · cases h : hidden[l - 1]? with
    | none => simp; omega
    | some n => exact hm.2.2 n (List.mem_of_getElem? h)

/-- 30 and 20 symmetry functions, hidden layers with 25 neurons. -/
example : [30, 20].getLast? = some 20 ∧ 20 < 30 ∧ 1 < 30 ∧ ∀ n ∈ [25, 25], n < 30 := by decide

/-- C99: without a hidden layer, for which libnnp throws an exception, the interface goes on to
undefined behaviour. -/
theorem C99_no_hidden_layer (nums : List ℕ) (net : CabanaNet) (k m : ℕ) (G old : Buf)
    (hs : net.numLayers = (cabanaNet [] nums).numLayers) : net.evaluate k m G old = none := by
  unfold CabanaNet.evaluate
  have : net.numLayers = 2 := hs
  split_ifs with h1 h2
  · rfl
  · rfl
  · omega

example : create 2 (fun _ => 1) (fun _ => .IDENTITY) = none := rfl

/-- C99: as the files do not contain the activation functions and the switch for normalisation, the
energy is not that of libnnp if the settings choose other activation functions or normalisation. -/
theorem C99_settings_ignored :
    (∃ (c G : Buf), let T := plainShape [1] 1
      { T with af := fun _ => .IDENTITY }.forward c G T.out 0 ≠ T.forward c G T.out 0) ∧
    ∃ (c G : Buf), let T := plainShape [1] 2
      { T with norm := true }.forward c G T.out 0 ≠ T.forward c G T.out 0 := by
  have ht := tanh_strictMono
  refine ⟨⟨fun _ => 1, fun _ => 0, ?_⟩, fun _ => 1, fun _ => 1, ?_⟩
  · have h1 : Real.tanh 1 < 1 := Real.tanh_lt_one 1
    simp [NetShape.forward, NetShape.out, plainShape, Activation.fn, Activation.ideal,
      NetShape.divisor]
    linarith
  · have h1 : Real.tanh (3 / 2) < Real.tanh 3 := ht (by norm_num)
    simp [NetShape.forward, NetShape.out, plainShape, Activation.fn, Activation.ideal,
      NetShape.divisor]
    norm_num
    exact h1.ne

/-- C99: an empty line in a weight file, which libnnp skips, stops the program. -/
theorem C99_empty_line (N : NumberText) (k : ℕ) (net : CabanaNet) (before after : List Str)
    (net' : CabanaNet) (h : before.foldlM (cabanaWeightLine N k) net = .ok net') :
    (before ++ [] :: after).foldlM (cabanaWeightLine N k) net = .error .exception := by
  rw [List.foldlM_append, h]
  show ([] :: after).foldlM (cabanaWeightLine N k) net' = _
  rw [List.foldlM_cons]
  rfl

example : ([] : List Str).foldlM (cabanaWeightLine exText 0) (cabanaNet [3] [2]) =
    .ok (cabanaNet [3] [2]) := rfl

end N2P2
