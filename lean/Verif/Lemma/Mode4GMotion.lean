import Verif.Lemma.Mode4GForce
import Verif.Lemma.ElecMotion
import Mathlib.Topology.Instances.Matrix

/-! Charges and energy of a potential of the fourth generation along a motion of the atoms. -/

namespace N2P2

open Filter Topology

variable {P : Potential4G} {n : ℕ} {s : Structure} {ls : LinSolve} {conv : ℝ → ℝ} {M' : Mode4G}
  {s3 s4 t : Structure} {U : Structure → ℕ → ℝ} {V W : Structure → ℕ → ℕ → ℝ}
  {El : ℕ → ElementData} {A B C : ℕ → Atom} {r : ℕ → ℝ → Vec3} {v : ℕ → Vec3} {t0 : ℝ}

theorem within_at {P : Potential} {R : ℝ} (h : P.Within R s) (r : ℕ → ℝ → Vec3) (t : ℝ) :
    P.Within R (s.at r t) := by
  intro i hi S hS
  rw [at_length] at hi
  rw [at_elementOf] at hS
  exact h i hi S hS

/-- Shortly after the start, the lists of neighbours still describe the environments. -/
theorem Run4G.moved_state (run : Run4G ls P n conv true true s M' s3 s4 t U V W)
    {imgs : ℕ → List (ℕ × (Fin 3 → ℤ))}
    (hL : ∀ i < s.atoms.length, ListOf s (M'.mode.listRadius s) i (A i) (imgs i))
    (hs : s.New n) (hm : s.Moves r v t0) {R : ℝ} (hR : P.Within R s) :
    ∀ᶠ t in 𝓝 t0, ∀ env x,
      IsState4G P M'.qeq R (s.at r t) (U (s.at r t)) (V (s.at r t)) env x →
      IsState4G P M'.qeq (M'.mode.listRadius s) (s.at r t) (U (s.at r t)) (V (s.at r t))
        (fun i => movedEnv r (A i) i s.box (imgs i) t) x ∧
      ∑ i ∈ Finset.range s.atoms.length, P.atomicQ (s.elementOf i) (env i) (x i) =
        ∑ i ∈ Finset.range s.atoms.length, P.atomicQ (s.elementOf i)
          (movedEnv r (A i) i s.box (imgs i) t) (x i) := by
  have hev := eventually_images (s := s) (r := r) (t0 := t0) hs.boxed (fun a ha => by
      obtain ⟨⟨g1, g2, g3, g4, -, -⟩, -⟩ := hs.fresh a ha
      exact ⟨g1, g2, g3, g4⟩) (R := M'.mode.listRadius s)
    (le_max_of_le_left run.setup.mode.max_nonneg) hm.start
    (fun i hi => (hm.velocity i hi).continuousAt)
  filter_upwards [hev] with t ht env x h
  obtain ⟨h1, h2⟩ := h.change (R' := M'.mode.listRadius s)
    (env' := fun i => movedEnv r (A i) i s.box (imgs i) t)
    (by
      intro i hi S hS
      rw [at_length] at hi
      rw [at_elementOf] at hS
      exact run.valid i hi S hS) (within_at hR r t) (within_at run.within r t) (by
      intro i hi
      rw [at_length] at hi
      refine ⟨imgs i, (hL i hi).1, ?_, ?_, (hL i hi).movedEnv hi t⟩
      · intro p hp
        rw [at_isPartner]
        exact (((hL i hi).2.1 p).1 hp).1
      · intro p hp hl
        rw [at_isPartner] at hp
        exact ((hL i hi).2.1 p).2 ⟨hp, ht i hi p hp hl⟩)
  refine ⟨h1, ?_⟩
  simp only [at_length, at_elementOf] at h2
  exact h2.symm

/-- The electronegativity of an atom changes at the rate given by the derivatives in the buffers. -/
theorem Stage4G.negativity_deriv {i : ℕ}
    (h : Stage4G P n conv true true s M' s3 s4 t i (El i) (A i) (B i) (C i))
    (hM : M'.mode.SetUp P.toPotential n) (hP : P.Fits4G n) {imgs} (hi : i < s.atoms.length)
    (hL : ListOf s (M'.mode.listRadius s) i (A i) imgs) {x : ℕ → ℝ}
    (hS : P.Smooth4G (M'.mode.listRadius s) s x) (hm : s.Moves r v t0) :
    HasDerivAt (fun t => P.negativity (s.elementOf i) (movedEnv r (A i) i s.box imgs t))
      (∑ k ∈ Finset.range s.atoms.length,
        (gradFrom P.toPotential s A (chiGrad P s A) k i).dot (v k)) t0 := by
  obtain ⟨hSens, hn0, hn1⟩ := hP.chi _ h.lt
  have henv := hL.movedEnv_start (r := r) hi hm.start
  obtain ⟨hsm, hreg, -⟩ := hS i hi _ hL.isBall
  have hin := input_deriv hM h.state.atomState hi hL hsm hm.start hm.velocity
  have key := NetShape.hasDerivAt_forward (T := P.chiShape (s.elementOf i))
    (c := fun _ => P.chiWeights (s.elementOf i)) (c' := 0) (s := t0)
    (fun p => hasDerivAt_const _ _) hin (by rw [henv]; exact hreg) _
    le_rfl 0 (by
      have : (P.chiShape (s.elementOf i)).n (P.chiShape (s.elementOf i)).out = 1 := hn1
      rw [this]; norm_num)
  refine (key.const_mul P.unit).congr_deriv ?_
  rw [NetShape.tangent_linear _ _ _ _ _ (by
    have : (P.chiShape (s.elementOf i)).n (P.chiShape (s.elementOf i)).out = 1 := hn1
    rw [this]; norm_num), henv]
  have hn0' : (P.chiShape (s.elementOf i)).n 0 = (P.functions (s.elementOf i)).length := hn0
  rw [hn0', gradFrom_sum hi hL, Finset.mul_sum]
  refine Eq.trans (Finset.sum_congr rfl fun m _ => ?_)
    (input_rate (chiGrad P s A i) (P.functions (s.elementOf i)) (A i) (v i)
      (fun k => v (nbIndex (A i) k)))
  show P.unit * (_ * inputGrad P.chi s A i m) = _ * (P.unit * inputGrad P.chi s A i m)
  ring

/-- The short-range energy of an atom changes at the rate given by the derivatives in the buffers. -/
theorem Stage4G.short_deriv {i : ℕ}
    (h : Stage4G P n conv true true s M' s3 s4 t i (El i) (A i) (B i) (C i))
    (hM : M'.mode.SetUp P.toPotential n) (hP : P.Fits4G n) {imgs} (hi : i < s.atoms.length)
    (hL : ListOf s (M'.mode.listRadius s) i (A i) imgs)
    (hS : P.Smooth4G (M'.mode.listRadius s) s fun i => (s4.atom i).charge) (hm : s.Moves r v t0)
    {z : ℝ → ℝ} {y : ℝ} (hz0 : z t0 = (s4.atom i).charge) (hz : HasDerivAt z y t0) :
    HasDerivAt (fun t => P.atomicQ (s.elementOf i) (movedEnv r (A i) i s.box imgs t) (z t))
      (shortGrad P s A (fun i => (s4.atom i).charge) i (P.functions (s.elementOf i)).length * y +
        ∑ k ∈ Finset.range s.atoms.length, (gradFrom P.toPotential s A
          (shortGrad P s A fun i => (s4.atom i).charge) k i).dot (v k)) t0 := by
  obtain ⟨hSens, hn0, hn1⟩ := hP.short _ h.lt
  have henv := hL.movedEnv_start (r := r) hi hm.start
  obtain ⟨hsm, -, hreg⟩ := hS i hi _ hL.isBall
  have hin := input_deriv hM h.state.atomState hi hL hsm hm.start hm.velocity
  have hinQ : ∀ m, HasDerivAt (fun t => P.inputQ (s.elementOf i)
      (movedEnv r (A i) i s.box imgs t) (z t) m)
      (if m = (P.functions (s.elementOf i)).length then y else
        Contrib.rate (A i).neighbors.length (v i) (fun k => v (nbIndex (A i) k))
        (totalOf (P.functions (s.elementOf i)) (A i) m)) t0 := by
    intro m
    unfold Potential4G.inputQ
    by_cases hm : m = (P.functions (s.elementOf i)).length
    · simp only [if_pos hm]
      exact hz
    · simp only [if_neg hm]
      exact hin m
  have key := NetShape.hasDerivAt_forward (T := P.shape (s.elementOf i))
    (c := fun _ => P.weights (s.elementOf i)) (c' := 0) (s := t0)
    (fun p => hasDerivAt_const _ _) hinQ (by
      rw [henv, hz0]; exact hreg) _ le_rfl 0 (by rw [hn1]; norm_num)
  refine key.congr_deriv ?_
  rw [NetShape.tangent_linear _ _ _ _ _ (by rw [hn1]; norm_num), henv, hz0, hn0,
    Finset.sum_range_succ, gradFrom_sum hi hL, if_pos rfl, add_comm]
  congr 1
  · show y * shortGrad P s A (fun i => (s4.atom i).charge) i _ = _
    ring
  · refine Eq.trans (Finset.sum_congr rfl fun m hm' => ?_)
      (input_rate (shortGrad P s A (fun i => (s4.atom i).charge) i) (P.functions (s.elementOf i))
        (A i) (v i) (fun k => v (nbIndex (A i) k)))
    rw [if_neg (Finset.mem_range.1 hm').ne]
    rfl

/-- The matrix and its determinant. -/
theorem Run4G.matrix (run : Run4G ls P n conv true true s M' s3 s4 t U V W)
    (hS : M'.qeq.Solvable s (U s) (V s)) :
    (Matrix.of fun i j : Fin (s.atoms.length + 1) => s4.A i j).det ≠ 0 ∧
    ∀ a b, a < s.atoms.length + 1 → b < s.atoms.length + 1 → s4.A a b =
      borderMatrix s.atoms.length (symMat (fun i => M'.qeq.J (s.elementOf i) + U s i) (V s)) a b := by
  obtain ⟨buf, buf', h3⟩ := run.qeq
  obtain ⟨-, -, -, -, F, hF, hA⟩ := qeq_matrix run.number run.field.interaction h3
  obtain ⟨e1, e2, -⟩ := run.fields
  have key : ∀ a b, a < s.atoms.length + 1 → b < s.atoms.length + 1 → s4.A a b =
      borderMatrix s.atoms.length (symMat (fun i => M'.qeq.J (s.elementOf i) + U s i) (V s)) a b := by
    intro a b ha hb
    rw [hA, run.alike.count]
    refine border_congr (fun a b ha hb => ?_) a b ha hb
    have := hF a b (by rw [run.alike.count]; exact ha) (by rw [run.alike.count]; exact hb)
    rw [this, e1, e2]
    simp only [run.alike.elementOf]
  refine ⟨?_, key⟩
  have := qeq_det hS
  have e : (Matrix.of fun i j : Fin (s.atoms.length + 1) => s4.A i j) =
      Matrix.of fun i j : Fin (s.atoms.length + 1) => borderMatrix s.atoms.length
        (symMat (fun i => M'.qeq.J (s.elementOf i) + U s i) (V s)) i j := by
    ext i j
    exact key i j i.2 j.2
  rw [e]
  exact this

/-- Interactions along a motion. -/
theorem Run4G.field_motion (run : Run4G ls P n conv true true s M' s3 s4 t U V W)
    (hm : s.Moves r v t0) : (∃ V' : ℕ → ℕ → ℝ, ∀ i j, i < j → j < s.atoms.length →
      HasDerivAt (fun t => V (s.at r t) i j) (V' i j) t0) ∧
    ∀ i < s.atoms.length, ∀ t, U (s.at r t) i = U s i := by
  obtain ⟨buf, buf', h3⟩ := run.qeq
  obtain ⟨ri, ro, hfs⟩ := run.setup.screening
  obtain ⟨s5, buf5, F, Q, g, T, k1, k2⟩ := qeq_run (ls := ls) run.number run.covers run.field
    run.screening hfs run.apart run.fresh buf
  have hm3 := run.alike.moves hm
  have hfield : ∀ t, U (s3.at r t) = U (s.at r t) ∧ V (s3.at r t) = V (s.at r t) := fun t =>
    let h := (run.alike.at r t).interacts_eq run.interacts
    ⟨h.1, h.2.1⟩
  refine ⟨⟨fun i j => (g i j).dot (v i - v j), fun i j hij hj => ?_⟩, fun i hi t => ?_⟩
  · have := k2.grad r v t0 hm3 i j hij (by rw [run.alike.count]; exact hj)
    simp only [fun t => (hfield t).2] at this
    exact this
  · rw [← (hfield t).1, field_self run.field r t (by rw [run.alike.count]; exact hi), run.fields.1]

/-- Charges in equilibrium exist if the equations are not singular. -/
theorem exists_equilibrium {χ J U : ℕ → ℝ} {V : ℕ → ℕ → ℝ}
    (hd : (Matrix.of fun i j : Fin (s.atoms.length + 1) =>
      borderMatrix s.atoms.length (symMat (fun i => J i + U i) V) i j).det ≠ 0) :
    ∃ x, Qeq.Equilibrium s χ J U V x := by
  set x := invSolve.run (s.atoms.length + 1)
    (borderMatrix s.atoms.length (symMat (fun i => J i + U i) V))
    (fun i => if i = s.atoms.length then s.chargeRef else -χ i) with hx
  have h := fun i (hi : i < s.atoms.length + 1) => LinSolve.run_spec invSolve_correct
    (fun i => if i = s.atoms.length then s.chargeRef else -χ i) hd hi
  rw [← hx] at h
  refine ⟨x, ?_, -x s.atoms.length, fun i hi => ?_⟩
  · have := h s.atoms.length (by omega)
    rw [border_last, if_pos rfl] at this
    exact this
  · have := h i (by omega)
    rw [border_row _ _ _ hi, symMat_row _ _ _ _ hi, if_neg hi.ne] at this
    unfold Qeq.potential
    linarith

/-- The equations stay solvable for a short time. -/
theorem Run4G.det_near (run : Run4G ls P n conv true true s M' s3 s4 t U V W)
    (hm : s.Moves r v t0) (hS : M'.qeq.Solvable s (U s) (V s)) :
    ∀ᶠ t in 𝓝 t0, (Matrix.of fun i j : Fin (s.atoms.length + 1) =>
      borderMatrix s.atoms.length (symMat (fun i => M'.qeq.J (s.elementOf i) + U (s.at r t) i)
        (V (s.at r t))) i j).det ≠ 0 := by
  obtain ⟨⟨V', hV⟩, hU⟩ := run.field_motion hm
  have hat0 : s.Alike (s.at r t0) := by
    refine ⟨at_length t0, rfl, rfl, rfl, fun k => ?_, at_elementOf t0⟩
    by_cases hk : k < s.atoms.length
    · rw [at_position t0 hk, hm.start k hk]
    · unfold Structure.position Structure.at Structure.move
      simp only [List.getElem?_mapIdx]
      rw [List.getElem?_eq_none (by omega)]
      rfl
  obtain ⟨u1, u2, -⟩ := hat0.interacts_eq run.interacts
  have hc : ContinuousAt (fun t => (Matrix.of fun i j : Fin (s.atoms.length + 1) =>
      borderMatrix s.atoms.length (symMat (fun i => M'.qeq.J (s.elementOf i) + U (s.at r t) i)
        (V (s.at r t))) i j : Matrix (Fin (s.atoms.length + 1)) (Fin (s.atoms.length + 1)) ℝ)) t0 := by
    refine continuousAt_pi.2 fun i => continuousAt_pi.2 fun j => ?_
    simp only [Matrix.of_apply, borderMatrix_apply]
    by_cases hi : (i : ℕ) = s.atoms.length
    · simp only [if_pos hi]
      exact continuousAt_const
    · by_cases hj : (j : ℕ) = s.atoms.length
      · simp only [if_neg hi, if_pos hj]
        exact continuousAt_const
      · simp only [if_neg hi, if_neg hj]
        have hi' : (i : ℕ) < s.atoms.length := by omega
        have hj' : (j : ℕ) < s.atoms.length := by omega
        unfold symMat
        rcases lt_trichotomy (i : ℕ) j with h | h | h
        · simp only [if_neg h.ne, if_pos h]
          exact (hV _ _ h hj').continuousAt
        · simp only [if_pos h, hU _ hi']
          exact continuousAt_const
        · simp only [if_neg h.ne', if_neg (not_lt.2 h.le)]
          exact (hV _ _ h hi').continuousAt
  have hdet := (continuous_id.matrix_det.continuousAt.comp hc :
    ContinuousAt (fun t => (Matrix.of fun i j : Fin (s.atoms.length + 1) =>
      borderMatrix s.atoms.length (symMat (fun i => M'.qeq.J (s.elementOf i) + U (s.at r t) i)
        (V (s.at r t))) i j : Matrix (Fin (s.atoms.length + 1)) (Fin (s.atoms.length + 1)) ℝ).det) t0)
  refine hdet.eventually_ne ?_
  simp only [Function.comp_apply, id, u1, u2]
  exact qeq_det hS

/-- There are charges in equilibrium for a short time. -/
theorem Run4G.state_near (run : Run4G ls P n conv true true s M' s3 s4 t U V W)
    (hm : s.Moves r v t0) (hS : M'.qeq.Solvable s (U s) (V s)) (hs : s.New n) (R : ℝ) :
    ∀ᶠ t in 𝓝 t0, ∃ env x,
      IsState4G P M'.qeq R (s.at r t) (U (s.at r t)) (V (s.at r t)) env x := by
  filter_upwards [run.det_near hm hS] with t ht
  choose env henv using exists_isBall (s := s.at r t) (fun hp => (hs.boxed hp).1) R
  obtain ⟨x, hx⟩ := exists_equilibrium (s := s.at r t)
    (χ := fun i => P.negativity ((s.at r t).elementOf i) (env i))
    (J := fun i => M'.qeq.J ((s.at r t).elementOf i)) (U := U (s.at r t)) (V := V (s.at r t)) (by
      simp only [at_elementOf]
      rw [at_length]
      exact ht)
  exact ⟨env, x, fun i _ => (henv i).isEnv le_rfl, hx⟩

/-- Charges in equilibrium start at those of the evaluation, and change with the rates `y` if these
solve the derived equations. -/
theorem Run4G.charge_deriv (run : Run4G ls P n conv true true s M' s3 s4 t U V W) (hP : P.Fits4G n)
    (hconv : ∀ x, conv x = P.unit * x) (hls : ls.Correct) (hS : M'.qeq.Solvable s (U s) (V s))
    (h : ∀ i < s.atoms.length, Stage4G P n conv true true s M' s3 s4 t i (El i) (A i) (B i) (C i))
    (hsm : P.Smooth4G (M'.mode.listRadius s) s fun i => (s4.atom i).charge)
    (hs : s.New n) (hm : s.Moves r v t0) {R : ℝ} (hR : P.Within R s)
    {env : ℝ → ℕ → List Site} {x : ℝ → ℕ → ℝ} (hx : ∀ᶠ t in 𝓝 t0,
      IsState4G P M'.qeq R (s.at r t) (U (s.at r t)) (V (s.at r t)) (env t) (x t))
    {y : ℕ → ℝ} (hy : ∀ a < s.atoms.length + 1, ∑ j ∈ Finset.range (s.atoms.length + 1),
      s4.A a j * y j = if a = s.atoms.length then 0 else
        -∑ i ∈ Finset.range s.atoms.length, (equationGrad P s s4 A i a).dot (v i))
    {i : ℕ} (hi : i < s.atoms.length) :
    x t0 i = (s4.atom i).charge ∧ HasDerivAt (fun t => x t i) (y i) t0 := by
  have hl : ∀ i, ∃ imgs, i < s.atoms.length →
      ListOf s (M'.mode.listRadius s) i (A i) imgs := by
    intro i
    by_cases hi : i < s.atoms.length
    · obtain ⟨imgs, hL⟩ := listOf_of hi (h i hi).state.position (h i hi).state.list
      exact ⟨imgs, fun _ => hL⟩
    · exact ⟨[], fun h => absurd h hi⟩
  choose imgs hL using hl
  have hmoved := run.moved_state (A := A) hL hs hm hR
  have hat0 : s.Alike (s.at r t0) := by
    refine ⟨at_length t0, rfl, rfl, rfl, fun k => ?_, at_elementOf t0⟩
    by_cases hk : k < s.atoms.length
    · rw [at_position t0 hk, hm.start k hk]
    · unfold Structure.position Structure.at Structure.move
      simp only [List.getElem?_mapIdx]
      rw [List.getElem?_eq_none (by omega)]
      rfl
  obtain ⟨u1, u2, -⟩ := hat0.interacts_eq run.interacts
  -- charges at the start
  have hstate := run.state hconv hls hS (A := A) fun i hi => ⟨_, _, _, h i hi⟩
  have hx0 : ∀ k < s.atoms.length, x t0 k = (s4.atom k).charge := by
    have h1 := hat0.symm.state hx.self_of_nhds
    rw [u1, u2] at h1
    exact (h1.unique hstate run.valid hR run.within hS).1
  refine ⟨hx0 i hi, ?_⟩
  -- the equilibration
  obtain ⟨buf, buf', h3⟩ := run.qeq
  obtain ⟨ri, ro, hfs⟩ := run.setup.screening
  obtain ⟨s5, buf5, F, Q, g, T, k1, k2⟩ := qeq_run (ls := ls) run.number run.covers run.field
    run.screening hfs run.apart run.fresh buf
  rw [h3] at k1
  cases k1
  have hm3 := run.alike.moves hm
  have hfield : ∀ t, U (s3.at r t) = U (s.at r t) ∧ V (s3.at r t) = V (s.at r t) := fun t =>
    let h := (run.alike.at r t).interacts_eq run.interacts
    ⟨h.1, h.2.1⟩
  have hV : ∀ i j, i < j → j < s.atoms.length →
      HasDerivAt (fun t => V (s.at r t) i j) ((g i j).dot (v i - v j)) t0 := by
    intro i j hij hj
    have := k2.grad r v t0 hm3 i j hij (by rw [run.alike.count]; exact hj)
    simp only [fun t => (hfield t).2] at this
    exact this
  have hU : ∀ i < s.atoms.length, HasDerivAt (fun t => M'.qeq.J (s.elementOf i) + U (s.at r t) i)
      0 t0 := by
    intro i hi
    have e : (fun t => M'.qeq.J (s.elementOf i) + U (s.at r t) i) =
        fun _ => M'.qeq.J (s.elementOf i) + U s3 i := by
      funext t
      rw [← (hfield t).1, field_self run.field r t (by rw [run.alike.count]; exact hi)]
    rw [e]
    exact hasDerivAt_const _ _
  -- the potential
  have hpot : ∀ j < s.atoms.length,
      Qeq.potential s (fun i j => (g i j).dot (v i - v j)) (x t0) j =
        ∑ i ∈ Finset.range s.atoms.length, ((s4.atom i).dAdrQ.getD j 0).dot (v i) := by
    intro j hj
    have h1 := (C79_potential_partial run.number run.covers run.field run.screening hfs run.apart
      run.fresh h3).2 r v t0 hm3 j (by rw [run.alike.count]; exact hj)
    have h2 : HasDerivAt (fun t => Qeq.potential s3 (V (s3.at r t))
        (fun i => (s4.atom i).charge) j)
        (Qeq.potential s (fun i j => (g i j).dot (v i - v j)) (x t0) j) t0 := by
      unfold Qeq.potential
      rw [run.alike.count]
      refine HasDerivAt.fun_sum fun k hk => ?_
      obtain ⟨g1, g2⟩ := Finset.mem_erase.1 hk
      have g2 := Finset.mem_range.1 g2
      rw [hx0 k g2]
      simp only [fun t => (hfield t).2]
      exact (hV _ _ (by rcases Nat.lt_or_ge j k with h | h <;> omega) (max_lt hj g2)).mul_const _
    rw [h2.unique h1, run.alike.count]
  -- the rates
  have hsol : ∀ a < s.atoms.length + 1, ∑ j ∈ Finset.range (s.atoms.length + 1),
      borderMatrix s.atoms.length (symMat (fun i => M'.qeq.J (s.elementOf i) + U s i) (V s)) a j *
        y j = if a = s.atoms.length then 0 else
        -∑ i ∈ Finset.range s.atoms.length, (equationGrad P s s4 A i a).dot (v i) := by
    intro a ha
    rw [← hy a ha]
    exact Finset.sum_congr rfl fun j hj => by
      rw [(run.matrix hS).2 a j ha (Finset.mem_range.1 hj)]
  refine equilibrium_deriv (s := s)
    (χ := fun t i => P.negativity (s.elementOf i) (movedEnv r (A i) i s.box (imgs i) t))
    (J := fun _ i => M'.qeq.J (s.elementOf i)) (U := fun t => U (s.at r t))
    (V := fun t => V (s.at r t)) (x := x) (D' := 0)
    (V' := fun i j => (g i j).dot (v i - v j)) (t0 := t0)
    (χ' := fun i => ∑ k ∈ Finset.range s.atoms.length,
        (gradFrom P.toPotential s A (chiGrad P s A) k i).dot (v k))
    (fun i hi => (h i hi).negativity_deriv run.setup.mode hP hi (hL i hi) hsm hm) hU hV ?_ ?_ ?_ ?_ hi
  · filter_upwards [hmoved, hx] with t h1 h2
    have h4 := (h1 _ _ h2).1.equilibrium
    simp only [at_elementOf] at h4
    obtain ⟨q1, c, q2⟩ := h4
    rw [at_length] at q1 q2
    refine ⟨q1, c, fun i hi => ?_⟩
    have := q2 i hi
    unfold Qeq.potential at this ⊢
    rw [at_length] at this
    exact this
  · rw [u1, u2]
    exact qeq_det hS
  · intro a ha
    rw [u1, u2, hsol a (by omega), if_neg ha.ne, hpot a ha, Pi.zero_apply, zero_mul]
    unfold equationGrad
    simp only [add_dot]
    rw [Finset.sum_add_distrib]
    ring
  · have := hsol s.atoms.length (by omega)
    rw [if_pos rfl] at this
    rw [← this, border_last]

/-- Rates of the charges, and the change of a function of the charges through the adjoint charges. -/
theorem Run4G.rates (run : Run4G ls P n conv true true s M' s3 s4 t U V W) (hls : ls.Correct)
    (hS : M'.qeq.Solvable s (U s) (V s)) (A : ℕ → Atom) (v : ℕ → Vec3) :
    ∃ y : ℕ → ℝ, (∀ a < s.atoms.length + 1, ∑ j ∈ Finset.range (s.atoms.length + 1),
      s4.A a j * y j = if a = s.atoms.length then 0 else
        -∑ i ∈ Finset.range s.atoms.length, (equationGrad P s s4 A i a).dot (v i)) ∧
      ∀ g : ℕ → ℝ, ∑ i ∈ Finset.range s.atoms.length, g i * y i =
        ∑ i ∈ Finset.range s.atoms.length, (∑ j ∈ Finset.range s.atoms.length,
          adjoint ls s s4 g j • equationGrad P s s4 A i j).dot (v i) := by
  set N := s.atoms.length with hN
  obtain ⟨hdet, hA⟩ := run.matrix hS
  set b : ℕ → ℝ := fun a => if a = N then 0 else
    -∑ i ∈ Finset.range N, (equationGrad P s s4 A i a).dot (v i) with hb
  refine ⟨ls.run (N + 1) s4.A b, fun a ha => LinSolve.run_spec hls b hdet ha, fun g => ?_⟩
  set F := borderMatrix N (symMat (fun i => M'.qeq.J (s.elementOf i) + U s i) (V s)) with hF
  have hsw : ∀ (z : ℕ → ℝ), ∀ a < N + 1, ∑ j ∈ Finset.range (N + 1), F a j * z j =
      ∑ j ∈ Finset.range (N + 1), s4.A a j * z j := fun z a ha =>
    Finset.sum_congr rfl fun j hj => by rw [hA a j ha (Finset.mem_range.1 hj)]
  have key := lambda_trick (N := N + 1) (A := F) (borderMatrix_symm N (symMat_symm _ _))
    (l := adjoint ls s s4 g) (y := ls.run (N + 1) s4.A b) (g := fun i => if i < N then g i else 0)
    (b := b)
    (fun a ha => by rw [hsw _ a ha]; exact LinSolve.run_spec hls _ hdet ha)
    (fun a ha => by rw [hsw _ a ha]; exact LinSolve.run_spec hls b hdet ha)
  rw [Finset.sum_range_succ, Finset.sum_range_succ, if_neg (lt_irrefl _), zero_mul, add_zero] at key
  have hbN : b N = 0 := if_pos rfl
  rw [hbN, mul_zero, add_zero] at key
  have e1 : ∑ i ∈ Finset.range N, g i * ls.run (N + 1) s4.A b i =
      ∑ i ∈ Finset.range N, (if i < N then g i else 0) * ls.run (N + 1) s4.A b i :=
    Finset.sum_congr rfl fun i hi => by rw [if_pos (Finset.mem_range.1 hi)]
  rw [e1, key, ← Finset.sum_neg_distrib]
  simp only [sum_dot, smul_dot]
  rw [Finset.sum_comm]
  refine Finset.sum_congr rfl fun j hj => ?_
  rw [hb]
  dsimp only
  rw [if_neg (Finset.mem_range.1 hj).ne, mul_neg, neg_neg, Finset.mul_sum]

/-- The electrostatic energy changes at the rate given by the electrostatic forces. -/
theorem Run4G.elec_deriv (run : Run4G ls P n conv true true s M' s3 s4 t U V W) (hP : P.Fits4G n)
    (hconv : ∀ x, conv x = P.unit * x) (hls : ls.Correct) (hS : M'.qeq.Solvable s (U s) (V s))
    (h : ∀ i < s.atoms.length, Stage4G P n conv true true s M' s3 s4 t i (El i) (A i) (B i) (C i))
    (hsm : P.Smooth4G (M'.mode.listRadius s) s fun i => (s4.atom i).charge)
    (hs : s.New n) (hm : s.Moves r v t0) {R : ℝ} (hR : P.Within R s)
    {env : ℝ → ℕ → List Site} {x : ℝ → ℕ → ℝ} (hx : ∀ᶠ t in 𝓝 t0,
      IsState4G P M'.qeq R (s.at r t) (U (s.at r t)) (V (s.at r t)) (env t) (x t))
    {y : ℕ → ℝ} (hy : ∀ a < s.atoms.length + 1, ∑ j ∈ Finset.range (s.atoms.length + 1),
      s4.A a j * y j = if a = s.atoms.length then 0 else
        -∑ i ∈ Finset.range s.atoms.length, (equationGrad P s s4 A i a).dot (v i)) :
    HasDerivAt (fun t => M'.qeq.storedEnergy (s.at r t) (U (s.at r t)) (V (s.at r t)) (W (s.at r t))
      (x t)) (∑ i ∈ Finset.range s.atoms.length, (s4.atom i).pEelecpr.dot (v i) +
        ∑ i ∈ Finset.range s.atoms.length, (s4.atom i).dEelecdQ * y i) t0 := by
  obtain ⟨buf, buf', h3⟩ := run.qeq
  obtain ⟨ri, ro, hfs⟩ := run.setup.screening
  have key := storedEnergy_deriv run.number run.covers run.field run.screening hfs run.apart
    run.fresh h3 (run.alike.moves hm) (x := fun i t => x t i) (y := y) (fun i hi =>
      run.charge_deriv hP hconv hls hS h hsm hs hm hR hx hy (by rw [← run.alike.count]; exact hi))
  rw [run.alike.count] at key
  have e : (fun t => M'.qeq.storedEnergy (s.at r t) (U (s.at r t)) (V (s.at r t)) (W (s.at r t))
      (x t)) = fun t => M'.qeq.storedEnergy s3 (U (s3.at r t)) (V (s3.at r t)) (W (s3.at r t))
        (fun i => x t i) := by
    funext t
    obtain ⟨e1, e2, e3⟩ := (run.alike.at r t).interacts_eq run.interacts
    rw [e1, e2, e3]
    unfold Qeq.storedEnergy
    rw [run.alike.count, at_length]
    congr 1
    funext i
    rw [run.alike.elementOf, at_elementOf]
  rw [e]
  exact key

theorem chargeForce_dot (l : ℕ → ℝ) (v : ℕ → Vec3) (s4 : Structure) (A : ℕ → Atom) :
    -∑ i ∈ Finset.range s.atoms.length, (chargeForce P s s4 A l i).dot (v i) =
      ∑ i ∈ Finset.range s.atoms.length, (s4.atom i).pEelecpr.dot (v i) +
        ∑ i ∈ Finset.range s.atoms.length, (∑ j ∈ Finset.range s.atoms.length,
          l j • equationGrad P s s4 A i j).dot (v i) := by
  unfold chargeForce
  rw [← Finset.sum_neg_distrib, ← Finset.sum_add_distrib]
  refine Finset.sum_congr rfl fun i _ => ?_
  rw [sub_dot, neg_dot]
  ring

/-- Electrostatic forces. -/
theorem Run4G.elecForce (run : Run4G ls P n conv true true s M' s3 s4 t U V W) (hP : P.Fits4G n)
    (hconv : ∀ x, conv x = P.unit * x) (hls : ls.Correct) (hS : M'.qeq.Solvable s (U s) (V s))
    (h : ∀ i < s.atoms.length, Stage4G P n conv true true s M' s3 s4 t i (El i) (A i) (B i) (C i))
    (hsm : P.Smooth4G (M'.mode.listRadius s) s fun i => (s4.atom i).charge)
    (hs : s.New n) {R : ℝ} (hR : P.Within R s) :
    s.IsForce (IsElecEnergy P M'.qeq R U V W)
      (chargeForce P s s4 A (adjoint ls s s4 fun i => (s4.atom i).dEelecdQ)) := by
  intro r v t0 hm
  refine ⟨(run.state_near hm hS hs R).mono fun t ⟨env, x, h⟩ => ⟨_, env, x, h, rfl⟩, fun E hE => ?_⟩
  have hch : ∀ t, ∃ env x, IsElecEnergy P M'.qeq R U V W (s.at r t) (E t) →
      IsState4G P M'.qeq R (s.at r t) (U (s.at r t)) (V (s.at r t)) env x ∧
      E t = M'.qeq.storedEnergy (s.at r t) (U (s.at r t)) (V (s.at r t)) (W (s.at r t)) x := by
    intro t
    by_cases ht : IsElecEnergy P M'.qeq R U V W (s.at r t) (E t)
    · obtain ⟨env, x, h1, h2⟩ := ht
      exact ⟨env, x, fun _ => ⟨h1, h2⟩⟩
    · exact ⟨fun _ => [], fun _ => 0, fun h => absurd h ht⟩
  choose env x hch using hch
  obtain ⟨y, hy1, hy2⟩ := run.rates hls hS A v
  have key := run.elec_deriv hP hconv hls hS h hsm hs hm hR (x := x) (env := env)
    (hE.mono fun t ht => (hch t ht).1) hy1
  rw [chargeForce_dot, ← hy2]
  exact key.congr_of_eventuallyEq (hE.mono fun t ht => (hch t ht).2)

/-- Forces, if no atom sees its own images. -/
theorem Run4G.force (run : Run4G ls P n conv true true s M' s3 s4 t U V W) (hP : P.Fits4G n)
    (hconv : ∀ x, conv x = P.unit * x) (hls : ls.Correct) (hS : M'.qeq.Solvable s (U s) (V s))
    (h : ∀ i < s.atoms.length, Stage4G P n conv true true s M' s3 s4 t i (El i) (A i) (B i) (C i))
    (hsm : P.Smooth4G (M'.mode.listRadius s) s fun i => (s4.atom i).charge)
    (hs : s.New n) (hown : P.NoOwnImages s) {R : ℝ} (hR : P.Within R s) :
    s.IsForce (IsEnergy4G P M'.qeq R U V W) (fun i => shortForce P s s4 A i +
      chargeForce P s s4 A (adjoint ls s s4 (chargeGrad P s s4 A)) i) := by
  intro r v t0 hm
  refine ⟨(run.state_near hm hS hs R).mono fun t ⟨env, x, h⟩ => ⟨_, env, x, h, rfl⟩, fun E hE => ?_⟩
  have hch : ∀ t, ∃ env x, IsEnergy4G P M'.qeq R U V W (s.at r t) (E t) →
      IsState4G P M'.qeq R (s.at r t) (U (s.at r t)) (V (s.at r t)) env x ∧
      E t = M'.qeq.storedEnergy (s.at r t) (U (s.at r t)) (V (s.at r t)) (W (s.at r t)) x +
        ∑ i ∈ Finset.range s.atoms.length, P.atomicQ (s.elementOf i) (env i) (x i) := by
    intro t
    by_cases ht : IsEnergy4G P M'.qeq R U V W (s.at r t) (E t)
    · obtain ⟨env, x, h1, h2⟩ := ht
      simp only [at_length, at_elementOf] at h2
      exact ⟨env, x, fun _ => ⟨h1, h2⟩⟩
    · exact ⟨fun _ => [], fun _ => 0, fun h => absurd h ht⟩
  choose env x hch using hch
  have hx := hE.mono fun t ht => (hch t ht).1
  obtain ⟨y, hy1, hy2⟩ := run.rates hls hS A v
  have k1 := run.elec_deriv hP hconv hls hS h hsm hs hm hR hx hy1
  have hl : ∀ i, ∃ imgs, i < s.atoms.length →
      ListOf s (M'.mode.listRadius s) i (A i) imgs := by
    intro i
    by_cases hi : i < s.atoms.length
    · obtain ⟨imgs, hL⟩ := listOf_of hi (h i hi).state.position (h i hi).state.list
      exact ⟨imgs, fun _ => hL⟩
    · exact ⟨[], fun h => absurd h hi⟩
  choose imgs hL using hl
  have k2 : HasDerivAt (fun t => ∑ i ∈ Finset.range s.atoms.length,
      P.atomicQ (s.elementOf i) (movedEnv r (A i) i s.box (imgs i) t) (x t i))
      (∑ i ∈ Finset.range s.atoms.length, (shortGrad P s A (fun i => (s4.atom i).charge) i
        (P.functions (s.elementOf i)).length * y i +
        ∑ k ∈ Finset.range s.atoms.length, (gradFrom P.toPotential s A
          (shortGrad P s A fun i => (s4.atom i).charge) k i).dot (v k))) t0 := by
    refine HasDerivAt.fun_sum fun i hi => ?_
    have hi := Finset.mem_range.1 hi
    obtain ⟨q1, q2⟩ := run.charge_deriv hP hconv hls hS h hsm hs hm hR hx hy1 hi
    exact (h i hi).short_deriv run.setup.mode hP hi (hL i hi) hsm hm q1 q2
  have hfun : E =ᶠ[𝓝 t0] fun t => M'.qeq.storedEnergy (s.at r t) (U (s.at r t)) (V (s.at r t))
      (W (s.at r t)) (x t) + ∑ i ∈ Finset.range s.atoms.length,
        P.atomicQ (s.elementOf i) (movedEnv r (A i) i s.box (imgs i) t) (x t i) := by
    filter_upwards [hE, run.moved_state (A := A) hL hs hm hR] with t h1 h2
    obtain ⟨q1, q2⟩ := hch t h1
    rw [q2, (h2 _ _ q1).2]
  refine ((k1.fun_add k2).congr_of_eventuallyEq hfun).congr_deriv ?_
  simp only [add_dot]
  rw [Finset.sum_add_distrib, Finset.sum_add_distrib, neg_add, chargeForce_dot, ← hy2]
  have e1 : ∑ i ∈ Finset.range s.atoms.length, chargeGrad P s s4 A i * y i =
      ∑ i ∈ Finset.range s.atoms.length, (s4.atom i).dEelecdQ * y i +
      ∑ i ∈ Finset.range s.atoms.length, shortGrad P s A (fun i => (s4.atom i).charge) i
        (P.functions (s.elementOf i)).length * y i := by
    rw [← Finset.sum_add_distrib]
    exact Finset.sum_congr rfl fun i _ => by unfold chargeGrad; ring
  have e2 : -∑ i ∈ Finset.range s.atoms.length, (shortForce P s s4 A i).dot (v i) =
      ∑ i ∈ Finset.range s.atoms.length, ∑ k ∈ Finset.range s.atoms.length,
        (gradFrom P.toPotential s A (shortGrad P s A fun i => (s4.atom i).charge) k i).dot (v k) := by
    rw [Finset.sum_comm, ← Finset.sum_neg_distrib]
    refine Finset.sum_congr rfl fun k hk => ?_
    have hk := Finset.mem_range.1 hk
    have hself : forceFrom P.toPotential s A (shortGrad P s A fun i => (s4.atom i).charge) k k = 0 :=
      forceFrom_self (h k hk).state.atomState hk (hown k hk)
    rw [← sum_dot, ← neg_dot]
    congr 1
    unfold shortForce gradFrom
    rw [Finset.sum_sub_distrib, Finset.sum_ite_eq, if_pos (Finset.mem_range.2 hk), neg_add, neg_neg,
      sub_eq_add_neg]
    congr 2
    refine Finset.sum_congr rfl fun j _ => ?_
    by_cases hj : j = k
    · rw [if_pos hj, hj, hself]
    · rw [if_neg hj]
  rw [e1, e2]
  ring

end N2P2
