import Verif.Lemma.SymGrpAll
import Verif.Lemma.ModeEnergy
import Verif.Model.ModeGroups

/-! Evaluation of a structure with and without groups. -/

namespace N2P2

theorem SubtypesAgree.compact {Ss : List SymFnc} (h : SubtypesAgree Ss) {c : ℝ} {t : CutoffType}
    {α : ℝ} (hd : ∀ S ∈ Ss, S.GroupData c t α) : SameCompact Ss := by
  intro S hS T hT hk hkk hel hrc hrl
  have hsub := h S hS T hT hk hkk hel hrc hrl
  have hx : ¬ S.IsExp := by
    unfold SymFnc.IsExp
    rcases hk with hk | hk <;> simp [hk]
  have hx' : ¬ T.IsExp := by
    unfold SymFnc.IsExp at hx ⊢
    rw [hkk]; exact hx
  obtain ⟨c1, h1, h2⟩ := (hd S hS).cr hx
  obtain ⟨c2, h3, h4⟩ := (hd T hT).cr hx'
  rw [hsub, h1] at h3
  rw [h2, h4, hrc, hrl, Option.some.inj h3]

variable {M : Mode} {P : Potential} {n : ℕ} {s : Structure} {e : ElementData} {a : Atom}

/-- The atom after the symmetry functions, without caches. -/
noncomputable def doneAtom (e : ElementData) (R : ℝ) (d : Bool) (a : Atom) : Atom :=
  { pureAll d (freshAtom e R d a).forgetCaches e.symmetryFunctions with
    hasSymmetryFunctions := true
    hasSymmetryFunctionDerivatives := d }

theorem doneAtom_of {R : ℝ} {d : Bool} {b : Atom}
    (h : b.forgetCaches = pureAll d (freshAtom e R d a).forgetCaches e.symmetryFunctions) :
    ({ b with
      hasSymmetryFunctions := true
      hasSymmetryFunctionDerivatives := b.hasSymmetryFunctionDerivatives || d } : Atom).forgetCaches =
      doneAtom e R d a := by
  have h1 := congrArg Atom.hasSymmetryFunctionDerivatives h
  have h2 := congrArg Atom.hasSymmetryFunctionDerivatives
    (pureAll_rest d (freshAtom e R d a).forgetCaches e.symmetryFunctions)
  have h3 : b.hasSymmetryFunctionDerivatives = false := h1.trans h2
  unfold doneAtom
  rw [← h, h3]
  rfl

theorem calculateAtom_done (hM : M.elements[a.element]? = some e) (he : e.OK n) (hn : 0 < n)
    (hne : e.symmetryFunctions ≠ []) (ha : AtomIn n e M.maxCutoffRadius a) (d : Bool)
    (h1 : a.hasSymmetryFunctions = false) (h2 : a.hasSymmetryFunctionDerivatives = false) :
    ∃ a', M.calculateAtom d a = some a' ∧ a'.forgetCaches = doneAtom e M.maxCutoffRadius d a := by
  obtain ⟨L, hL⟩ := freshAtom_ready he ha d
  obtain ⟨b, h3, h4, -⟩ := calculateAll_eq hL
  refine ⟨_, ?_, doneAtom_of h4⟩
  unfold Mode.calculateAtom
  rw [if_neg (by simp [h2]), if_neg (by simp [h1]), hM]
  show Option.bind ((a.takeSizes e d).allocate d M.maxCutoffRadius) _ = _
  rw [allocate_eq he hn hne ha d]
  show Option.bind (calculateSymmetryFunctions e.symmetryFunctions _ d) _ = _
  rw [h3]
  rfl

theorem calculateAtomGroups_done {gs : List (List SymGrp)} (hgs : M.GroupsSetUp gs)
    (hM : M.elements[a.element]? = some e) (he : e.OK n) (hn : 0 < n)
    (hne : e.symmetryFunctions ≠ []) (ha : AtomIn n e M.maxCutoffRadius a) (d : Bool)
    (hG : ∀ S ∈ e.symmetryFunctions, S.Groupable d) (hsub : SubtypesAgree e.symmetryFunctions)
    (h1 : a.hasSymmetryFunctions = false) (h2 : a.hasSymmetryFunctionDerivatives = false) :
    ∃ a', M.calculateAtomGroups gs d a = some a' ∧
      a'.forgetCaches = doneAtom e M.maxCutoffRadius d a := by
  obtain ⟨L, hL⟩ := freshAtom_ready he ha d
  obtain ⟨c, t, α, hd⟩ := he.group
  obtain ⟨hlen, hget⟩ := List.forall₂_iff_get.1 hgs
  have hlt := (List.getElem?_eq_some_iff.1 hM).1
  have hg : gs[a.element]? = some (gs[a.element]'(by omega)) := List.getElem?_eq_getElem (by omega)
  have hS : SetupGroups e.symmetryFunctions (gs[a.element]'(by omega)) := by
    have := hget a.element hlt (by omega)
    simp only [List.get_eq_getElem] at this
    rw [(List.getElem?_eq_some_iff.1 hM).2] at this
    exact this
  have hidx : e.symmetryFunctions.Pairwise fun S T => S.index ≠ T.index := by
    rw [List.pairwise_iff_getElem]
    intro i j hi hj hij
    rw [he.index i _ (List.getElem?_eq_getElem hi), he.index j _ (List.getElem?_eq_getElem hj)]
    omega
  obtain ⟨b, h3, h4⟩ := hS.calculate hd (hsub.compact hd) hidx (fun S hS => (hL S hS).group) hG
  refine ⟨_, ?_, doneAtom_of h4⟩
  unfold Mode.calculateAtomGroups
  rw [if_neg (by simp [h2]), if_neg (by simp [h1]), hM]
  show Option.bind gs[a.element]? _ = _
  rw [hg]
  show Option.bind ((a.takeSizes e d).allocate d M.maxCutoffRadius) _ = _
  rw [allocate_eq he hn hne ha d]
  show Option.bind (calculateSymmetryFunctionGroups _ _ d) _ = _
  rw [h3]
  rfl

/-! ### What later steps see -/

/-- With forces (`f`) two atoms agree up to caches, without forces they agree in energy, symmetry
functions, and (`d`) derivatives of the energy. -/
structure Alike (f d : Bool) (b b' : Atom) : Prop where
  all : f = true → b'.forgetCaches = b.forgetCaches
  element : b'.element = b.element
  G : b'.G = b.G
  energy : b'.energy = b.energy
  dEdG : d = true → b'.dEdG = b.dEdG

theorem Alike.of_forget {f d : Bool} {b b' : Atom} (h : b'.forgetCaches = b.forgetCaches) :
    Alike f d b b' := by
  refine ⟨fun _ => h, ?_, ?_, ?_, fun _ => ?_⟩
  · have := congrArg Atom.element h; exact this
  · have := congrArg Atom.G h; exact this
  · have := congrArg Atom.energy h; exact this
  · have := congrArg Atom.dEdG h; exact this

theorem done_alike {R : ℝ} (he : e.OK n) (hl : a.getStoredMinNumNeighbors R ≤ a.neighbors.length)
    (hc : a.useChargeNeuron = false) (d : Bool) {b b' : Atom}
    (h : b.forgetCaches = doneAtom e R true a) (h' : b'.forgetCaches = doneAtom e R false a) :
    Alike false d b (if d then b'.resizeDEdG else b') := by
  have hf : ∀ d, (freshAtom e R d a).forgetCaches.env = a.env := by
    intro d
    rw [Atom.forget_env]
    exact Atom.env_congr (freshAtom_bare d hl)
  have hG : ∀ d, (doneAtom e R d a).G =
      e.symmetryFunctions.map fun S => S.sc.scale (S.formula a.env) := by
    intro d
    show (pureAll d (freshAtom e R d a).forgetCaches e.symmetryFunctions).G = _
    rw [pureAll_G he.index (by
      show _ ≤ (List.replicate _ (0 : ℝ)).length
      simp), hf]
    have : (freshAtom e R d a).forgetCaches.G.drop e.symmetryFunctions.length = [] := by
      show (List.replicate _ (0 : ℝ)).drop _ = []
      simp
    rw [this, List.append_nil]
  have hr := fun d => pureAll_rest d (freshAtom e R d a).forgetCaches e.symmetryFunctions
  have hel : ∀ d, (doneAtom e R d a).element = a.element := by
    intro d
    have := congrArg Atom.element (hr d)
    exact this
  have hen : ∀ d, (doneAtom e R d a).energy = a.energy := by
    intro d
    have := congrArg Atom.energy (hr d)
    exact this
  have hE : ∀ d, (doneAtom e R d a).dEdG = if d then List.replicate
      (if a.useChargeNeuron then e.symmetryFunctions.length + 1 else e.symmetryFunctions.length) 0
      else [] := fun d => congrArg Atom.dEdG (hr d)
  have hnum : (doneAtom e R false a).numSymmetryFunctions = e.symmetryFunctions.length :=
    congrArg Atom.numSymmetryFunctions (hr false)
  have c1 : b.element = a.element := (congrArg Atom.element h).trans (hel true)
  have c1' : b'.element = a.element := (congrArg Atom.element h').trans (hel false)
  have c2 : b.energy = a.energy := (congrArg Atom.energy h).trans (hen true)
  have c2' : b'.energy = a.energy := (congrArg Atom.energy h').trans (hen false)
  have c3 : b.G = _ := (congrArg Atom.G h).trans (hG true)
  have c3' : b'.G = _ := (congrArg Atom.G h').trans (hG false)
  have c4 : b.dEdG = _ := (congrArg Atom.dEdG h).trans (hE true)
  have c4' : b'.dEdG = _ := (congrArg Atom.dEdG h').trans (hE false)
  have c5 : b'.numSymmetryFunctions = _ := (congrArg Atom.numSymmetryFunctions h').trans hnum
  refine ⟨by simp, ?_, ?_, ?_, ?_⟩
  · rw [c1, ← c1']; cases d <;> rfl
  · rw [c3, ← c3']; cases d <;> rfl
  · rw [c2, ← c2']; cases d <;> rfl
  · intro hd
    rw [if_pos hd, c4]
    simp [Atom.resizeDEdG, c4', c5, hc]

/-! ### Neural networks -/

theorem evaluateAtom_alike {f d : Bool} {b b' : Atom} (h : Alike f d b b') {nn nn' : NeuralNetwork}
    {c : Atom} (he : evaluateAtom nn b d = some (nn', c)) :
    ∃ c', evaluateAtom nn b' d = some (nn', c') ∧ Alike f d c c' := by
  unfold evaluateAtom at he ⊢
  rw [h.G, h.energy]
  have hcond : (d = true ∧ (b'.dEdG = [] ∨ b'.dEdG.length < (nn.layers 0).numNeurons)) ↔
      (d = true ∧ (b.dEdG = [] ∨ b.dEdG.length < (nn.layers 0).numNeurons)) :=
    and_congr_right fun hd => by rw [h.dEdG hd]
  split at he
  · cases he
  rename_i h1
  rw [if_neg h1]
  split at he
  · cases he
  rename_i h2
  rw [if_neg (fun k => h2 (hcond.1 k))]
  split at he
  · cases he
  rename_i h3
  rw [if_neg h3]
  dsimp only at he ⊢
  rw [Option.some.injEq, Prod.mk.injEq] at he
  obtain ⟨hnn, hc⟩ := he
  rw [← hnn, ← hc]
  refine ⟨_, rfl, ?_⟩
  refine ⟨?_, h.element, rfl, rfl, ?_⟩
  · intro hf
    have ha := h.all hf
    have hE := congrArg Atom.dEdG ha
    change b'.dEdG = b.dEdG at hE
    rw [hE]
    unfold Atom.forgetCaches at ha ⊢
    simp only [Atom.mk.injEq] at ha ⊢
    simp only [ha, and_self]
  · intro hd
    simp only [if_pos hd, h.dEdG hd]

theorem networks_alike {f d : Bool} {els els' : List ElementData} {l l' m : List Atom}
    (h : List.Forall₂ (Alike f d) l l')
    (he : calculateAtomicNeuralNetworks els l d = some (els', m)) :
    ∃ m', calculateAtomicNeuralNetworks els l' d = some (els', m') ∧
      List.Forall₂ (Alike f d) m m' := by
  unfold calculateAtomicNeuralNetworks at he ⊢
  suffices key : ∀ (els : List ElementData) (r r' : List Atom), List.Forall₂ (Alike f d) r r' →
      l.foldlM (fun (s : List ElementData × List Atom) a => do
        let e ← s.1[a.element]?
        let r ← evaluateAtom e.net a d
        some (s.1.set a.element { e with net := r.1 }, s.2 ++ [r.2])) (els, r) = some (els', m) →
      ∃ m', l'.foldlM (fun (s : List ElementData × List Atom) a => do
        let e ← s.1[a.element]?
        let r ← evaluateAtom e.net a d
        some (s.1.set a.element { e with net := r.1 }, s.2 ++ [r.2])) (els, r') = some (els', m') ∧
        List.Forall₂ (Alike f d) m m' from key els [] [] .nil he
  clear he
  induction h with
  | nil =>
    intro els r r' hr he
    simp only [List.foldlM_nil, Option.pure_def, Option.some.injEq, Prod.mk.injEq] at he ⊢
    obtain ⟨rfl, rfl⟩ := he
    exact ⟨r', ⟨rfl, rfl⟩, hr⟩
  | cons hb _ ih =>
    rename_i b b' l l' _
    intro els r r' hr he
    rw [List.foldlM_cons] at he
    obtain ⟨p, h1, h2⟩ := Option.bind_eq_some_iff.1 he
    obtain ⟨e, h3, h4⟩ := Option.bind_eq_some_iff.1 h1
    obtain ⟨⟨nn', c⟩, h5, h6⟩ := Option.bind_eq_some_iff.1 h4
    obtain ⟨c', h7, h8⟩ := evaluateAtom_alike hb h5
    have h6 := Option.some.inj h6
    subst h6
    obtain ⟨m', h9, h10⟩ := ih _ _ _ (List.rel_append hr (.cons h8 .nil)) h2
    refine ⟨m', ?_, h10⟩
    rw [List.foldlM_cons, hb.element, h3]
    show Option.bind (Option.bind (evaluateAtom _ _ _) _) _ = _
    rw [h7]
    exact h9

/-! ### Forces -/

theorem Atom.forget_eq {b b' : Atom} (h : b'.forgetCaches = b.forgetCaches) :
    b' = { b with neighbors := b'.neighbors } ∧
      b'.neighbors.map Neighbor.forget = b.neighbors.map Neighbor.forget := by
  constructor
  · unfold Atom.forgetCaches at h
    simp only [Atom.mk.injEq] at h
    cases b'
    cases b
    simp_all
  · have := congrArg Atom.neighbors h
    exact this

theorem addPairForces_forget {b b' : Atom} (h : b'.forgetCaches = b.forgetCaches) (i : ℕ) (v : Vec3) :
    M.addPairForces i v b' = M.addPairForces i v b := by
  obtain ⟨h1, h2⟩ := Atom.forget_eq h
  have hlen : b'.neighbors.length = b.neighbors.length := by simpa using congrArg List.length h2
  have e1 : b'.element = b.element := by rw [h1]
  have e2 : b'.getStoredMinNumNeighbors M.maxCutoffRadius =
    b.getStoredMinNumNeighbors M.maxCutoffRadius := by rw [h1]; rfl
  have e3 : ∀ (n : Neighbor) t, b'.calculatePairForceShort n t = b.calculatePairForceShort n t := by
    intro n t; rw [h1]; rfl
  have hmap : ∀ (a : Atom) (l : List Neighbor) (t : List (List ℕ)) (v : Vec3),
      l.foldlM (fun f n => if n.index = i then (a.calculatePairForceShort n t).map (f + ·)
        else some f) v =
      (l.map Neighbor.forget).foldlM (fun f n =>
        if n.index = i then (a.calculatePairForceShort n t).map (f + ·) else some f) v := by
    intro a l t v
    rw [List.foldlM_map]
    rfl
  unfold Mode.addPairForces
  rw [e1]
  cases M.elements[b.element]? with
  | none => rfl
  | some el =>
    simp only [Option.bind_eq_bind, Option.bind_some]
    rw [e2, hlen]
    split
    · rfl
    · simp only [e3]
      refine (hmap b _ _ _).trans (Eq.trans ?_ (hmap b _ _ _).symm)
      rw [List.map_take, List.map_take, h2]

theorem forceOn_forget {l l' : List Atom}
    (h : List.Forall₂ (fun b b' : Atom => b'.forgetCaches = b.forgetCaches) l l') {b b' : Atom}
    (hb : b'.forgetCaches = b.forgetCaches) : M.forceOn l' b' = M.forceOn l b := by
  obtain ⟨h1, -⟩ := Atom.forget_eq hb
  have e1 : b'.calculateSelfForceShort = b.calculateSelfForceShort := by rw [h1]; rfl
  have e2 : b'.neighborsUnique = b.neighborsUnique := by rw [h1]
  have e3 : b'.index = b.index := by rw [h1]
  have hj : ∀ (j : ℕ) (v : Vec3), (l'[j]?).bind (M.addPairForces b.index v ·) =
      (l[j]?).bind (M.addPairForces b.index v ·) := by
    obtain ⟨hl, hg⟩ := List.forall₂_iff_get.1 h
    intro j v
    by_cases hlt : j < l.length
    · have hlt' : j < l'.length := by omega
      rw [List.getElem?_eq_getElem hlt, List.getElem?_eq_getElem hlt', Option.bind_some,
        Option.bind_some]
      exact addPairForces_forget (hg j hlt hlt') _ _
    · rw [List.getElem?_eq_none (by omega), List.getElem?_eq_none (by omega)]
  unfold Mode.forceOn
  rw [e1, e2, e3]
  simp only [Option.bind_eq_bind, hj]

theorem calculateForces_forget {s s' t : Structure} (h : s'.forgetCaches = s.forgetCaches)
    (he : M.calculateForces s = some t) :
    ∃ t', M.calculateForces s' = some t' ∧ t'.forgetCaches = t.forgetCaches := by
  have hat : List.Forall₂ (fun b b' : Atom => b'.forgetCaches = b.forgetCaches) s.atoms s'.atoms := by
    have := congrArg Structure.atoms h
    change s'.atoms.map Atom.forgetCaches = s.atoms.map Atom.forgetCaches at this
    rw [List.forall₂_iff_get]
    have hl : s'.atoms.length = s.atoms.length := by simpa using congrArg List.length this
    refine ⟨hl.symm, fun i h1 h2 => ?_⟩
    have := congrArg (fun l => l[i]?) this
    simpa [h1, hl] using this
  have hrest : s' = { s with atoms := s'.atoms } := by
    unfold Structure.forgetCaches at h
    simp only [Structure.mk.injEq] at h
    cases s'
    cases s
    simp_all
  unfold Mode.calculateForces at he ⊢
  obtain ⟨m, h1, h2⟩ := Option.bind_eq_some_iff.1 he
  have h2 := Option.some.inj h2
  subst h2
  have key : ∀ (l l' : List Atom) (r : List Atom),
      List.Forall₂ (fun b b' : Atom => b'.forgetCaches = b.forgetCaches) l l' →
      l.mapM (fun ai => (M.forceOn s.atoms ai).map fun f => ({ ai with f := f } : Atom)) = some r →
      ∃ r', l'.mapM (fun ai => (M.forceOn s'.atoms ai).map fun f => ({ ai with f := f } : Atom)) =
        some r' ∧ r'.map Atom.forgetCaches = r.map Atom.forgetCaches := by
    intro l l' r hl
    induction hl generalizing r with
    | nil => intro hr; cases hr; exact ⟨[], rfl, rfl⟩
    | cons hb _ ih =>
      rename_i b b' l l' _
      intro hr
      rw [List.mapM_cons] at hr
      obtain ⟨c, k1, k2⟩ := Option.bind_eq_some_iff.1 hr
      obtain ⟨r1, k3, k4⟩ := Option.bind_eq_some_iff.1 k2
      obtain ⟨v, k5, k6⟩ := Option.map_eq_some_iff.1 k1
      obtain ⟨r', k7, k8⟩ := ih r1 k3
      have k4 := Option.some.inj k4
      subst k4 k6
      refine ⟨{ b' with f := v } :: r', ?_, ?_⟩
      · rw [List.mapM_cons, forceOn_forget hat hb, k5, k7]
        rfl
      · rw [List.map_cons, List.map_cons, k8]
        congr 1
        unfold Atom.forgetCaches at hb ⊢
        simp only [Atom.mk.injEq] at hb ⊢
        simp only [hb, and_self]
  obtain ⟨r', h3, h4⟩ := key _ _ _ hat h1
  refine ⟨{ s' with atoms := r' }, ?_, ?_⟩
  · rw [h3]; rfl
  · rw [hrest]
    unfold Structure.forgetCaches
    simp only [h4]

/-! ### The whole evaluation -/

theorem forall₂_mapM {f g : Atom → Option Atom} {r : Atom → Atom → Prop} : ∀ {l : List Atom},
    (∀ a ∈ l, ∃ b b', f a = some b ∧ g a = some b' ∧ r b b') →
    ∃ m m', l.mapM f = some m ∧ l.mapM g = some m' ∧ List.Forall₂ r m m'
  | [], _ => ⟨[], [], rfl, rfl, .nil⟩
  | a :: l, h => by
    obtain ⟨b, b', h1, h2, h3⟩ := h a List.mem_cons_self
    obtain ⟨m, m', h4, h5, h6⟩ := forall₂_mapM fun a ha => h a (List.mem_cons_of_mem _ ha)
    refine ⟨b :: m, b' :: m', ?_, ?_, .cons h3 h6⟩
    · rw [List.mapM_cons, h1, h4]; rfl
    · rw [List.mapM_cons, h2, h5]; rfl

/-- With and without groups. -/
theorem evaluateNNPGroups_eq {srt : List Neighbor → List Neighbor} (hsrt : IsSort srt)
    (hM : M.SetUp P n) (hn : 0 < n) (hs : s.New n) (hap : s.Apart)
    (hT : P.TripletsOK (M.listRadius s) s) {gs : List (List SymGrp)} (hgs : M.GroupsSetUp gs)
    {useForces useDEdG : Bool} (hG : P.Groupable n useForces) {M' : Mode} {s' : Structure}
    (he : M.evaluateNNP srt s useForces useDEdG = some (M', s')) :
    ∃ s'', M.evaluateNNPGroups srt gs s useForces useDEdG = some (M', s'') ∧
      (useForces = true → s''.forgetCaches = s'.forgetCaches) ∧
      s''.energyShort = s'.energyShort ∧ s''.energy = s'.energy ∧
      List.Forall₂ (fun b b' : Atom => b'.G = b.G ∧ b'.energy = b.energy ∧
        (useDEdG = true → b'.dEdG = b.dEdG)) s'.atoms s''.atoms := by
  obtain ⟨s1, h1, r2, r3, r4, hlen, h3⟩ := neighborList_eq hsrt hM hs hap hT
  set d := useForces || useDEdG with hd
  set fix : Atom → Atom := fun b => if d && !useForces then b.resizeDEdG else b with hfix
  obtain ⟨m, m', k1, k2, k3⟩ := forall₂_mapM (l := s1.atoms) (f := M.calculateAtom true)
    (g := M.calculateAtomGroups gs useForces) (r := fun b b' => Alike useForces d b (fix b')) (by
    intro a ha
    obtain ⟨i, hi, rfl⟩ := List.getElem_of_mem ha
    obtain ⟨e, a, g1, h⟩ := h3 i (by omega)
    rw [List.getElem?_eq_getElem hi] at g1
    rw [Option.some.inj g1]
    have hOK := hM.ok h.get
    have hlt : a.element < n := by rw [← hM.count]; exact (List.getElem?_eq_some_iff.1 h.get).1
    have hfun := hM.functions _ e h.get
    obtain ⟨b, c1, c2⟩ := calculateAtom_done h.get hOK hn hfun.2 h.ready true h.flags.1 h.flags.2
    obtain ⟨b', c3, c4⟩ := calculateAtomGroups_done hgs h.get hOK hn hfun.2 h.ready useForces
      (by rw [hfun.1]; exact hG.function _ hlt) (by rw [hfun.1]; exact hG.subtypes _ hlt)
      h.flags.1 h.flags.2
    refine ⟨b, b', c1, c3, ?_⟩
    cases useForces with
    | true =>
      have : fix b' = b' := by simp [hfix]
      rw [this]
      exact Alike.of_forget (c4.trans c2.symm)
    | false =>
      have : fix b' = if d then b'.resizeDEdG else b' := by simp [hfix]
      rw [this]
      exact done_alike hOK h.ready.listR.stored_le h.charge d c2 c4)
  have hk3 : List.Forall₂ (Alike useForces d) m (m'.map fix) := by
    rw [List.forall₂_map_right_iff]; exact k3
  unfold Mode.evaluateNNP at he
  unfold Mode.evaluateNNPGroups
  rw [h1] at he ⊢
  simp only [Option.bind_eq_bind, Option.bind_some] at he ⊢
  have e1 : M.calculateSymmetryFunctions s1 true = some { s1 with
      atoms := m
      hasSymmetryFunctions := true
      hasSymmetryFunctionDerivatives := true } := by
    unfold Mode.calculateSymmetryFunctions
    rw [r3, r4, if_neg (by simp), if_neg (by simp), k1]
    rfl
  have e2 : M.calculateSymmetryFunctionGroups gs s1 useForces = some { s1 with
      atoms := m'
      hasSymmetryFunctions := true
      hasSymmetryFunctionDerivatives := useForces } := by
    unfold Mode.calculateSymmetryFunctionGroups
    rw [r3, r4, if_neg (by simp), if_neg (by simp), k2]
    rfl
  rw [e1] at he
  rw [e2]
  simp only [Option.bind_some] at he ⊢
  obtain ⟨⟨els, c⟩, g1, g2⟩ := Option.bind_eq_some_iff.1 he
  obtain ⟨c', g3, g4⟩ := networks_alike hk3 g1
  have hatoms : (if (useForces || useDEdG) && !useForces then List.map Atom.resizeDEdG m' else m') =
      m'.map fix := by
    simp only [hfix, hd]
    split <;> simp
  rw [hatoms, g3]
  simp only [Option.bind_some]
  have hen : (Structure.calculateEnergy { s1 with
      atoms := c'
      hasSymmetryFunctions := true
      hasSymmetryFunctionDerivatives := useForces }).energyShort =
      (Structure.calculateEnergy { s1 with
        atoms := c
        hasSymmetryFunctions := true
        hasSymmetryFunctionDerivatives := true }).energyShort := by
    show List.foldl _ 0 _ = List.foldl _ 0 _
    rw [foldl_energy, foldl_energy]
    congr 2
    clear g2 g3 g1
    induction g4 with
    | nil => rfl
    | cons h _ ih => rw [List.map_cons, List.map_cons, ih, h.energy]
  have hen2 : (Structure.calculateEnergy { s1 with
      atoms := c'
      hasSymmetryFunctions := true
      hasSymmetryFunctionDerivatives := useForces }).energy =
      (Structure.calculateEnergy { s1 with
        atoms := c
        hasSymmetryFunctions := true
        hasSymmetryFunctionDerivatives := true }).energy := by
    show _ + s1.energyElec = _ + s1.energyElec
    exact congrArg (· + s1.energyElec) hen
  cases useForces with
  | false =>
    simp only [Bool.false_eq_true, if_false, Option.some.injEq, Prod.mk.injEq] at g2 ⊢
    obtain ⟨rfl, rfl⟩ := g2
    refine ⟨_, ⟨rfl, rfl⟩, nofun, hen, hen2, ?_⟩
    refine List.Forall₂.imp (fun b b' h => ⟨h.G, h.energy, fun hu => h.dEdG (by simp [hd, hu])⟩) g4
  | true =>
    simp only [if_true] at g2 ⊢
    obtain ⟨t, g5, g6⟩ := Option.bind_eq_some_iff.1 g2
    have g6 := Option.some.inj g6
    have hs' : t = s' := congrArg Prod.snd g6
    have hM' : { M with elements := els } = M' := congrArg Prod.fst g6
    have hc : c'.map Atom.forgetCaches = c.map Atom.forgetCaches := by
      clear g5 g6 g2 g3 g1 hen hen2
      induction g4 with
      | nil => rfl
      | cons h _ ih => rw [List.map_cons, List.map_cons, ih, h.all rfl]
    obtain ⟨t', g7, g8⟩ := calculateForces_forget (M := { M with elements := els })
      (s := Structure.calculateEnergy { s1 with
        atoms := c
        hasSymmetryFunctions := true
        hasSymmetryFunctionDerivatives := true })
      (s' := Structure.calculateEnergy { s1 with
        atoms := c'
        hasSymmetryFunctions := true
        hasSymmetryFunctionDerivatives := true }) (by
        have h1 : (Structure.calculateEnergy { s1 with
          atoms := c'
          hasSymmetryFunctions := true
          hasSymmetryFunctionDerivatives := true }).energyShort = _ := hen
        unfold Structure.calculateEnergy at h1 ⊢
        unfold Structure.forgetCaches
        simp only at h1 ⊢
        rw [h1, hc]) g5
    rw [g7]
    subst hs' hM'
    have q1 := congrArg Structure.energyShort g8
    have q2 := congrArg Structure.energy g8
    refine ⟨t', rfl, fun _ => g8, q1, q2, ?_⟩
    have hm := congrArg Structure.atoms g8
    change t'.atoms.map Atom.forgetCaches = t.atoms.map Atom.forgetCaches at hm
    rw [List.forall₂_iff_get]
    have hl : t'.atoms.length = t.atoms.length := by simpa using congrArg List.length hm
    refine ⟨hl.symm, fun i i1 i2 => ?_⟩
    have hi := congrArg (fun l => l[i]?) hm
    simp only [List.getElem?_map, List.getElem?_eq_getElem i1, List.getElem?_eq_getElem i2,
      Option.map_some, Option.some.injEq] at hi
    have a := Alike.of_forget (f := true) (d := true) hi
    exact ⟨a.G, a.energy, fun _ => a.dEdG rfl⟩

end N2P2
