import Verif.Lemma.Mode4GRun
import Verif.Lemma.ModeExists
import Verif.Props.QeqResponse

/-! Charges and energies of a potential of the fourth generation. -/

namespace N2P2

variable {P : Potential4G} {q : Qeq} {s : Structure}

/-! ### Environments -/

theorem input_env4G {e : ℕ} {env env' : List Site} (h : P.input e env = P.input e env') (Q : ℝ) :
    P.negativity e env = P.negativity e env' ∧ P.atomicQ e env Q = P.atomicQ e env' Q := by
  refine ⟨?_, ?_⟩
  · have : P.chi.input e env = P.chi.input e env' := h
    unfold Potential4G.negativity Potential.atomic
    rw [this]
  · unfold Potential4G.atomicQ Potential4G.inputQ
    rw [h]

theorem Qeq.Equilibrium.congr_chi {χ χ' J U : ℕ → ℝ} {V : ℕ → ℕ → ℝ} {x : ℕ → ℝ}
    (h : Qeq.Equilibrium s χ J U V x) (he : ∀ i < s.atoms.length, χ' i = χ i) :
    Qeq.Equilibrium s χ' J U V x := by
  obtain ⟨h1, c, h2⟩ := h
  exact ⟨h1, c, fun i hi => by rw [he i hi]; exact h2 i hi⟩

/-- Charges in equilibrium do not depend on the choice of environments. -/
theorem IsState4G.change {R R' : ℝ} {U : ℕ → ℝ} {V : ℕ → ℕ → ℝ} {env env' : ℕ → List Site}
    {x : ℕ → ℝ} (h : IsState4G P q R s U V env x)
    (hV : ∀ i < s.atoms.length, ∀ S ∈ P.functions (s.elementOf i), S.Valid)
    (h1 : P.Within R s) (h2 : P.Within R' s)
    (he : ∀ i < s.atoms.length, IsEnv s R' i (env' i)) :
    IsState4G P q R' s U V env' x ∧
      ∑ i ∈ Finset.range s.atoms.length, P.atomicQ (s.elementOf i) (env' i) (x i) =
        ∑ i ∈ Finset.range s.atoms.length, P.atomicQ (s.elementOf i) (env i) (x i) := by
  have key : ∀ i < s.atoms.length,
      P.input (s.elementOf i) (env' i) = P.input (s.elementOf i) (env i) := fun i hi =>
    input_env (hV i hi) (h2 i hi) (h1 i hi) (he i hi) (h.near i hi)
  refine ⟨⟨he, h.equilibrium.congr_chi fun i hi => (input_env4G (key i hi) 0).1⟩,
    Finset.sum_congr rfl fun i hi => (input_env4G (key i (Finset.mem_range.1 hi)) _).2⟩

/-- There is only one distribution of charges in equilibrium. -/
theorem IsState4G.unique {R R' : ℝ} {U : ℕ → ℝ} {V : ℕ → ℕ → ℝ} {env env' : ℕ → List Site}
    {x x' : ℕ → ℝ} (h : IsState4G P q R s U V env x) (h' : IsState4G P q R' s U V env' x')
    (hV : ∀ i < s.atoms.length, ∀ S ∈ P.functions (s.elementOf i), S.Valid)
    (h1 : P.Within R s) (h2 : P.Within R' s) (hS : q.Solvable s U V) :
    (∀ i < s.atoms.length, x i = x' i) ∧
      ∑ i ∈ Finset.range s.atoms.length, P.atomicQ (s.elementOf i) (env i) (x i) =
        ∑ i ∈ Finset.range s.atoms.length, P.atomicQ (s.elementOf i) (env' i) (x' i) := by
  obtain ⟨g1, g2⟩ := h.change hV h1 h2 h'.near
  have key : ∀ i < s.atoms.length, x i = x' i := fun i hi =>
    g1.equilibrium.unique (qeq_det hS) h'.equilibrium hi
  refine ⟨key, g2.symm.trans (Finset.sum_congr rfl fun i hi => ?_)⟩
  rw [key i (Finset.mem_range.1 hi)]

/-- The energy is well defined. -/
theorem IsEnergy4G.unique {R R' E E' : ℝ} {U : Structure → ℕ → ℝ} {V W : Structure → ℕ → ℕ → ℝ}
    (h : IsEnergy4G P q R U V W s E) (h' : IsEnergy4G P q R' U V W s E')
    (hV : ∀ i < s.atoms.length, ∀ S ∈ P.functions (s.elementOf i), S.Valid)
    (h1 : P.Within R s) (h2 : P.Within R' s) (hS : q.Solvable s (U s) (V s)) : E = E' := by
  obtain ⟨env, x, h3, rfl⟩ := h
  obtain ⟨env', x', h4, rfl⟩ := h'
  obtain ⟨k1, k2⟩ := h3.unique h4 hV h1 h2 hS
  rw [k2, storedEnergy_congr _ _ _ k1]

theorem IsElecEnergy.unique {R R' E E' : ℝ} {U : Structure → ℕ → ℝ} {V W : Structure → ℕ → ℕ → ℝ}
    (h : IsElecEnergy P q R U V W s E) (h' : IsElecEnergy P q R' U V W s E')
    (hV : ∀ i < s.atoms.length, ∀ S ∈ P.functions (s.elementOf i), S.Valid)
    (h1 : P.Within R s) (h2 : P.Within R' s) (hS : q.Solvable s (U s) (V s)) : E = E' := by
  obtain ⟨env, x, h3, rfl⟩ := h
  obtain ⟨env', x', h4, rfl⟩ := h'
  rw [storedEnergy_congr _ _ _ (h3.unique h4 hV h1 h2 hS).1]

/-! ### Results of an evaluation -/

variable {ls : LinSolve} {n : ℕ} {conv : ℝ → ℝ} {f d : Bool} {M' : Mode4G}
  {s3 s4 t : Structure} {U : Structure → ℕ → ℝ} {V W : Structure → ℕ → ℕ → ℝ}

theorem atom_of_get {s : Structure} {i : ℕ} {a : Atom} (h : s.atoms[i]? = some a) : s.atom i = a := by
  unfold Structure.atom
  rw [List.getD_eq_getElem?_getD, h, Option.getD_some]

theorem Run4G.length4 (run : Run4G ls P n conv f d s M' s3 s4 t U V W) :
    s4.atoms.length = s.atoms.length := by
  obtain ⟨buf, buf', h⟩ := run.qeq
  have := congrArg (fun s : Structure => s.atoms.length) (chargeEquilibration_noElec h)
  unfold Structure.noElec at this
  simp only [List.length_map] at this
  rw [this, run.alike.count]

theorem Run4G.atoms (run : Run4G ls P n conv f d s M' s3 s4 t U V W) :
    t.atoms = s4.atoms.map (shortAtom P.toPotential d) := by
  rw [run.after]
  rfl

/-- What is known about atom `i` at the different stages. -/
structure Stage4G (P : Potential4G) (n : ℕ) (conv : ℝ → ℝ) (f d : Bool) (s : Structure) (M' : Mode4G)
    (s3 s4 t : Structure) (i : ℕ) (e : ElementData) (a b c : Atom) : Prop where
  state : State4G M'.mode n s i f d e a b
  get3 : s3.atoms[i]? = some (elecAtom conv P.chi d b)
  get4 : s4.atoms[i]? = some c
  get : t.atoms[i]? = some (shortAtom P.toPotential d c)
  rest : c.noElec = (elecAtom conv P.chi d b).noElec
  input : bufOf b.G = P.input (s.elementOf i) a.env
  inputQ : shortBuf c = P.inputQ (s.elementOf i) a.env c.charge
  element : c.element = s.elementOf i
  lt : s.elementOf i < n
  functions : e.symmetryFunctions = P.functions (s.elementOf i)

theorem Run4G.stage (run : Run4G ls P n conv f d s M' s3 s4 t U V W) {i : ℕ}
    (hi : i < s.atoms.length) : ∃ e a b c, Stage4G P n conv f d s M' s3 s4 t i e a b c := by
  obtain ⟨e, a, b, h1, h2⟩ := run.atom i hi
  obtain ⟨buf, buf', h3⟩ := run.qeq
  obtain ⟨c, k1, k2⟩ := Structure.noElec_get (chargeEquilibration_noElec h3) i h1
  obtain ⟨f1, f2, f3, f4, f5⟩ := h2.facts run.setup.mode
  have g1 : c.element = b.element := by have := congrArg Atom.element k2; exact this
  have g2 : c.G = b.G := by have := congrArg Atom.G k2; exact this
  have hG : bufOf b.G = P.input (s.elementOf i) a.env := by rw [f4, bufOf_map]
  refine ⟨e, a, b, c, h2, h1, k1, ?_, k2, hG, ?_, g1.trans f1, f2, f3⟩
  · rw [run.atoms, List.getElem?_map, k1]
    rfl
  · unfold shortBuf Potential4G.inputQ
    rw [g2, f5, hG]

namespace Stage4G

variable {i : ℕ} {e : ElementData} {a b c : Atom}

theorem chi (h : Stage4G P n conv f d s M' s3 s4 t i e a b c) :
    (s3.atom i).chi = conv (P.chi.atomic (s.elementOf i) a.env) := by
  rw [atom_of_get h.get3]
  show conv _ = _
  have hel : b.element = s.elementOf i := h.state.same.1.trans h.state.element
  rw [hel, h.input]
  rfl

theorem charge (h : Stage4G P n conv f d s M' s3 s4 t i e a b c) : (s4.atom i).charge = c.charge := by
  rw [atom_of_get h.get4]

theorem energy (h : Stage4G P n conv f d s M' s3 s4 t i e a b c) :
    (shortAtom P.toPotential d c).energy = P.atomicQ (s.elementOf i) a.env c.charge := by
  show (P.shape c.element).forward (P.weights c.element) (shortBuf c) (P.shape c.element).out 0 = _
  rw [h.inputQ, h.element]
  rfl

theorem isBall (h : Stage4G P n conv f d s M' s3 s4 t i e a b c) (hi : i < s.atoms.length) :
    IsBall s (M'.mode.listRadius s) i a.env := by
  obtain ⟨imgs, hL⟩ := listOf_of hi h.state.position h.state.list
  exact hL.isBall

end Stage4G

theorem Run4G.within (run : Run4G ls P n conv f d s M' s3 s4 t U V W) :
    P.Within (M'.mode.listRadius s) s := by
  intro i hi S hS
  obtain ⟨e, a, b, c, h⟩ := run.stage hi
  exact (run.setup.mode.valid h.lt hS).2.2.trans (le_max_left _ _)

theorem Run4G.valid (run : Run4G ls P n conv f d s M' s3 s4 t U V W) :
    ∀ i < s.atoms.length, ∀ S ∈ P.functions (s.elementOf i), S.Valid := by
  intro i hi S hS
  obtain ⟨e, a, b, c, h⟩ := run.stage hi
  exact (run.setup.mode.valid h.lt hS).1

theorem Run4G.fields (run : Run4G ls P n conv f d s M' s3 s4 t U V W) :
    U s3 = U s ∧ V s3 = V s ∧ W s3 = W s := run.alike.interacts_eq run.interacts

theorem Run4G.solvable (run : Run4G ls P n conv f d s M' s3 s4 t U V W)
    (hS : M'.qeq.Solvable s (U s) (V s)) : M'.qeq.Solvable s3 (U s3) (V s3) := by
  rw [run.fields.1, run.fields.2.1]
  exact run.alike.solvable hS

/-- The environments of the neighbour lists, with the charges, are in equilibrium. -/
theorem Run4G.state (run : Run4G ls P n conv f d s M' s3 s4 t U V W)
    (hconv : ∀ x, conv x = P.unit * x) (hls : ls.Correct)
    (hS : M'.qeq.Solvable s (U s) (V s)) {A : ℕ → Atom}
    (hA : ∀ i < s.atoms.length, ∃ e b c, Stage4G P n conv f d s M' s3 s4 t i e (A i) b c) :
    IsState4G P M'.qeq (M'.mode.listRadius s) s (U s) (V s) (fun i => (A i).env)
      (fun i => (s4.atom i).charge) := by
  obtain ⟨buf, buf', h3⟩ := run.qeq
  have h := C81_equilibrium hls run.number run.field.interaction (run.solvable hS) h3
  have h := run.alike.symm.equilibrium h
  rw [run.fields.1, run.fields.2.1] at h
  refine ⟨fun i hi => ?_, ?_⟩
  · obtain ⟨e, b, c, hs⟩ := hA i hi
    exact (hs.isBall hi).isEnv le_rfl
  · simp only [run.alike.elementOf] at h
    refine h.congr_chi fun i hi => ?_
    obtain ⟨e, b, c, hs⟩ := hA i hi
    rw [hs.chi, hconv]
    rfl

theorem Run4G.energyElec (run : Run4G ls P n conv f d s M' s3 s4 t U V W) :
    t.energyElec = M'.qeq.storedEnergy s (U s) (V s) (W s) (fun i => (s4.atom i).charge) := by
  obtain ⟨buf, buf', h3⟩ := run.qeq
  rw [run.after]
  show s4.energyElec = _
  rw [C80_energy run.number run.field run.screening h3, run.fields.1, run.fields.2.1,
    run.fields.2.2, run.alike.storedEnergy]

theorem Run4G.energyShort (run : Run4G ls P n conv f d s M' s3 s4 t U V W) {A : ℕ → Atom}
    (hA : ∀ i < s.atoms.length, ∃ e b c, Stage4G P n conv f d s M' s3 s4 t i e (A i) b c) :
    t.energyShort = ∑ i ∈ Finset.range s.atoms.length,
      P.atomicQ (s.elementOf i) (A i).env (s4.atom i).charge := by
  have h1 : t.energyShort = (t.atoms.map Atom.energy).sum := by
    rw [run.atoms, run.after]
    show List.foldl (fun e (a : Atom) => e + a.energy) 0
      (s4.atoms.map (shortAtom P.toPotential d)) = _
    rw [foldl_energy, zero_add]
  rw [h1]
  refine sum_range_getElem _ _ _ (by rw [List.length_map, run.atoms, List.length_map, run.length4])
    fun i hi => ?_
  obtain ⟨e, b, c, hs⟩ := hA i hi
  rw [List.getElem?_map, hs.get, Option.map_some, hs.energy, hs.charge]

theorem Run4G.energy (run : Run4G ls P n conv f d s M' s3 s4 t U V W) :
    t.energy = t.energyShort + t.energyElec := by
  rw [run.after]
  rfl

theorem Run4G.charge (run : Run4G ls P n conv f d s M' s3 s4 t U V W) :
    t.charge = ∑ i ∈ Finset.range s.atoms.length, (s4.atom i).charge := by
  have h1 : ∀ (l : List Atom) (x : ℝ), l.foldl (fun q a => q + a.charge) x =
      x + (l.map Atom.charge).sum := by
    intro l
    induction l with
    | nil => simp
    | cons a l ih => intro x; rw [List.foldl_cons, ih, List.map_cons, List.sum_cons]; ring
  have h2 : t.charge = (t.atoms.map Atom.charge).sum := by
    rw [run.atoms, run.after]
    show List.foldl (fun q (a : Atom) => q + a.charge) 0
      (s4.atoms.map (shortAtom P.toPotential d)) = _
    rw [h1, zero_add]
  rw [h2]
  refine sum_range_getElem _ _ _ (by rw [List.length_map, run.atoms, List.length_map, run.length4])
    fun i hi => ?_
  obtain ⟨e, a, b, c, hs⟩ := run.stage hi
  rw [List.getElem?_map, hs.get, Option.map_some, hs.charge]
  rfl

/-- All atoms at once. -/
theorem Run4G.stages (run : Run4G ls P n conv f d s M' s3 s4 t U V W)
    (h0 : 0 < n) :
    ∃ (El : ℕ → ElementData) (A B C : ℕ → Atom), ∀ i < s.atoms.length,
      Stage4G P n conv f d s M' s3 s4 t i (El i) (A i) (B i) (C i) := by
  have h : ∀ i, ∃ e a b c, i < s.atoms.length → Stage4G P n conv f d s M' s3 s4 t i e a b c := by
    intro i
    by_cases hi : i < s.atoms.length
    · obtain ⟨e, a, b, c, h⟩ := run.stage hi
      exact ⟨e, a, b, c, fun _ => h⟩
    · have hl : 0 < M'.mode.elements.length := by rw [run.setup.mode.count]; exact h0
      exact ⟨M'.mode.elements[0], s.atom i, s.atom i, s.atom i, fun h => absurd h hi⟩
  choose El A B C h using h
  exact ⟨El, A, B, C, h⟩

end N2P2
