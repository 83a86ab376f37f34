import Verif.Lemma.ModeDeriv
import Verif.Spec.Lammps

/-! Energies and forces of one atom with a given neighbour list. -/

namespace N2P2

/-! ### Environments -/

/-- Values do not depend on the choice of environment. -/
theorem formula_envOf {α : Type} {Q : α → Prop} {site : α → Site} {S : SymFnc} (hV : S.Valid)
    {R R' : ℝ} (h1 : S.rc ≤ R) (h2 : S.rc ≤ R') {env env' : List Site}
    (he : IsEnvOf Q site R env) (he' : IsEnvOf Q site R' env') : S.formula env = S.formula env' := by
  classical
  obtain ⟨l, a1, a2, a3, rfl⟩ := he
  obtain ⟨l', b1, b2, b3, rfl⟩ := he'
  have key : (l.filter fun p => decide ((site p).dr.norm < S.rc)).Perm
      (l'.filter fun p => decide ((site p).dr.norm < S.rc)) := by
    refine (List.perm_ext_iff_of_nodup (a1.filter _) (b1.filter _)).2 fun p => ?_
    simp only [List.mem_filter, decide_eq_true_eq]
    constructor
    · rintro ⟨hp, hl⟩
      exact ⟨b3 p (a2 p hp) (hl.le.trans h2), hl⟩
    · rintro ⟨hp, hl⟩
      exact ⟨a3 p (b2 p hp) (hl.le.trans h1), hl⟩
  rw [← formula_filter hV, ← formula_filter hV (List.map _ l'), List.filter_map, List.filter_map]
  refine formula_perm S (List.Perm.map _ ?_)
  convert key using 2 <;>
    · funext p
      simp only [Function.comp_apply]

theorem atomic_envOf {α : Type} {Q : α → Prop} {site : α → Site} {P : Potential} {e : ℕ}
    (hV : ∀ S ∈ P.functions e, S.Valid) {R R' : ℝ} (h1 : ∀ S ∈ P.functions e, S.rc ≤ R)
    (h2 : ∀ S ∈ P.functions e, S.rc ≤ R') {env env' : List Site} (he : IsEnvOf Q site R env)
    (he' : IsEnvOf Q site R' env') : P.atomic e env = P.atomic e env' := by
  have : P.input e env = P.input e env' := by
    funext m
    unfold Potential.input
    cases h : (P.functions e)[m]? with
    | none => rfl
    | some S =>
      have hS := List.mem_of_getElem? h
      simp only
      rw [formula_envOf (hV S hS) (h1 S hS) (h2 S hS) he he']
  unfold Potential.atomic
  rw [this]

theorem IsBallOf.isEnvOf {α : Type} {Q : α → Prop} {site : α → Site} {R R' : ℝ} {env : List Site}
    (h : IsBallOf Q site R env) (hR : R' ≤ R) : IsEnvOf Q site R' env := by
  obtain ⟨l, h1, h2, h3⟩ := h
  exact ⟨l, h1, fun p hp => ((h2 p).1 hp).1, fun p hp hl => (h2 p).2 ⟨hp, hl.trans hR⟩, h3⟩

/-! ### One atom -/

variable {M : Mode} {P : Potential} {n : ℕ} {e : ElementData} {a b : Atom}

/-- An atom with neighbour list (`a`) and with symmetry functions (`b`). -/
structure AtomPair (M : Mode) (n : ℕ) (e : ElementData) (a b : Atom) : Prop where
  get : M.elements[a.element]? = some e
  ready : AtomIn n e M.maxCutoffRadius a
  done : AtomDone e M.maxCutoffRadius true a b
  all : a.getStoredMinNumNeighbors M.maxCutoffRadius = a.neighbors.length

/-- Derivative of the energy of an atom with respect to its function `m`. -/
noncomputable def atomGrad (P : Potential) (a : Atom) (m : ℕ) : ℝ :=
  (P.shape a.element).tangent (P.weights a.element) (P.input a.element a.env) 0 (NetShape.unit m)
    (P.shape a.element).out 0

/-- Derivative of the energy of an atom with respect to its own position, neighbours fixed. -/
noncomputable def ownGrad (P : Potential) (a : Atom) : Vec3 :=
  selfGrad (atomGrad P a) (P.functions a.element) a

/-- Force of an atom on its neighbour `k`. -/
noncomputable def forceOnNb (P : Potential) (a : Atom) (k : ℕ) : Vec3 :=
  pairForce (atomGrad P a) (P.functions a.element) a k

namespace AtomPair

theorem functions (h : AtomPair M n e a b) (hM : M.SetUp P n) :
    e.symmetryFunctions = P.functions a.element := (hM.functions _ _ h.get).1

theorem lt (h : AtomPair M n e a b) (hM : M.SetUp P n) : a.element < n := by
  rw [← hM.count]; exact (List.getElem?_eq_some_iff.1 h.get).1

theorem element (h : AtomPair M n e a b) : b.element = a.element := by rw [h.done.rest]

theorem index (h : AtomPair M n e a b) : b.index = a.index := by rw [h.done.rest]

theorem dEdG_le (h : AtomPair M n e a b) : e.symmetryFunctions.length ≤ b.dEdG.length := by
  rw [h.done.dEdG rfl]
  split <;> omega

theorem input (h : AtomPair M n e a b) (hM : M.SetUp P n) :
    bufOf b.G = P.input a.element a.env := by
  rw [h.done.G, h.functions hM, bufOf_map]

theorem energy (h : AtomPair M n e a b) (hM : M.SetUp P n) (d : Bool) :
    (evaluatedAtom P d b).energy = P.atomic a.element a.env := by
  show (P.shape b.element).forward (P.weights b.element) (bufOf b.G) _ 0 = _
  rw [h.input hM, h.element]
  rfl

theorem netFits (h : AtomPair M n e a b) (hM : M.SetUp P n) (hP : P.Fits n) :
    b.element < M.elements.length ∧ NetFits P true b := by
  obtain ⟨p1, p2, p3⟩ := hP _ (h.lt hM)
  refine ⟨by rw [h.element, hM.count]; exact h.lt hM, ?_⟩
  have h3 := h.dEdG_le
  rw [h.functions hM] at h3
  unfold NetFits
  rw [h.element, h.done.G, h.functions hM, p2, List.length_map]
  exact ⟨p1, p3, le_rfl, fun _ => h3⟩

theorem dEdG (h : AtomPair M n e a b) (hM : M.SetUp P n) (hP : P.Fits n) (m : ℕ)
    (hm : m < (P.functions a.element).length) :
    (evaluatedAtom P true b).dEdG[m]? = some (atomGrad P a m) := by
  obtain ⟨-, h0, -⟩ := hP _ (h.lt hM)
  have h3 := h.dEdG_le
  rw [h.functions hM] at h3
  show (listOf b.dEdG.length fun m => if m < (P.shape b.element).n 0 then
      (P.shape b.element).tangent (P.weights b.element) (bufOf b.G) 0 (NetShape.unit m)
        (P.shape b.element).out 0 else bufOf b.dEdG m)[m]? = _
  unfold listOf
  rw [List.getElem?_map, List.getElem?_range (by omega), Option.map_some, h.element, h.input hM,
    if_pos (by rw [h0]; exact hm)]
  rfl

theorem selfForce (h : AtomPair M n e a b) (hM : M.SetUp P n) (hP : P.Fits n) :
    (evaluatedAtom P true b).calculateSelfForceShort = some (-ownGrad P a) := by
  refine selfForce_eq (Ss := P.functions a.element) ?_ (h.dEdG hM hP) ?_
  · show b.numSymmetryFunctions = _
    rw [← h.functions hM, h.done.rest]
  · show b.dGdr = _
    rw [h.done.self rfl, h.functions hM]

theorem nb_length (h : AtomPair M n e a b) : b.neighbors.length = a.neighbors.length :=
  Atom.length_congr h.done.bare

theorem stored (h : AtomPair M n e a b) :
    (evaluatedAtom P true b).getStoredMinNumNeighbors M.maxCutoffRadius = a.neighbors.length := by
  rw [← h.all]
  show b.getStoredMinNumNeighbors M.maxCutoffRadius = _
  rw [h.done.rest]
  rfl

theorem pair (h : AtomPair M n e a b) (hM : M.SetUp P n) (hP : P.Fits n) {k : ℕ} {nb : Neighbor}
    (hk : b.neighbors[k]? = some nb) :
    (evaluatedAtom P true b).calculatePairForceShort nb e.symmetryFunctionTable =
      some (forceOnNb P a k) ∧ nb.index = nbIndex a k := by
  obtain ⟨nb0, g1, g2, g3, -⟩ := bare_get h.done.bare k nb hk
  have hlt : nb.element < n := by
    rw [← g2]; exact h.ready.elements nb0 (List.mem_of_getElem? g1)
  have hk' : k < a.neighbors.length := (List.getElem?_eq_some_iff.1 g1).1
  have hok := hM.ok h.get
  constructor
  · refine pairForce_eq (Ss := P.functions a.element) ?_ (h.dEdG hM hP) hlt ?_ ?_ g1 g2
    · rw [← h.functions hM]; exact hok.index
    · rw [← h.functions hM]
      exact h.done.neighbor rfl k nb hk (by rw [h.all]; exact hk')
    · rw [← h.functions hM]; exact hok.table
  · unfold nbIndex
    rw [g1]
    exact g3.symm

/-- The energy of the atom changes at the rate given by the forces. -/
theorem deriv (h : AtomPair M n e a b) (hM : M.SetUp P n) (hP : P.Fits n)
    (hS : ∀ S ∈ P.functions a.element, S.Smooth a.env)
    (hreg : (P.shape a.element).RegularAt (P.weights a.element) (P.input a.element a.env))
    {rk : ℕ → ℝ → Vec3} {v0 : Vec3} {w : ℕ → Vec3} {t0 : ℝ}
    (hr : ∀ (k : ℕ) (nb : Neighbor), a.neighbors[k]? = some nb → rk k t0 = nb.dr)
    (hdk : ∀ k < a.neighbors.length, HasDerivAt (rk k) (v0 - w k) t0) :
    HasDerivAt (fun t => P.atomic a.element (a.envAt fun k => rk k t))
      ((ownGrad P a).dot v0 -
        ∑ k ∈ Finset.range a.neighbors.length, (forceOnNb P a k).dot (w k)) t0 := by
  obtain ⟨-, hn0, hn1⟩ := hP _ (h.lt hM)
  have henv : (a.envAt fun k => rk k t0) = a.env := by
    refine List.ext_getElem (by simp [Atom.envAt, Atom.env]) fun k h1 h2 => ?_
    have hk : k < a.neighbors.length := by simpa [Atom.env] using h2
    simp only [Atom.envAt, Atom.env, List.getElem_mapIdx, List.getElem_map]
    rw [hr k _ (List.getElem?_eq_getElem hk)]
  have hin : ∀ m, HasDerivAt (fun t => P.input a.element (a.envAt fun k => rk k t) m)
      (Contrib.rate a.neighbors.length v0 w (totalOf (P.functions a.element) a m)) t0 := by
    intro m
    unfold Potential.input totalOf
    cases hm : (P.functions a.element)[m]? with
    | none =>
      simp only
      have : Contrib.rate a.neighbors.length v0 w 0 = 0 := by simp [Contrib.rate, zero_dot]
      rw [this]
      exact hasDerivAt_const _ _
    | some S =>
      have hmem := List.mem_of_getElem? hm
      obtain ⟨q1, q2, -⟩ := hM.valid (h.lt hM) hmem
      have hmem' : S ∈ e.symmetryFunctions := by rw [h.functions hM]; exact hmem
      refine scale_hasDerivAt q2 ?_
      exact SymFnc.formula_deriv q1 (h.ready.list S hmem') (h.ready.triplets S hmem') (hS S hmem)
        hr hdk
  have key := NetShape.hasDerivAt_forward (T := P.shape a.element)
    (c := fun _ => P.weights a.element) (c' := 0) (s := t0)
    (fun p => hasDerivAt_const _ _) hin (by rw [henv]; exact hreg) _
    le_rfl 0 (by rw [hn1]; norm_num)
  refine key.congr_deriv ?_
  rw [NetShape.tangent_linear _ _ _ _ _ (by rw [hn1]; norm_num), hn0, henv]
  exact input_rate (atomGrad P a) (P.functions a.element) a v0 w

end AtomPair

end N2P2
