import Verif.Lemma.Mode4GResponse

/-! Results of `evaluateNNP` for a potential of the fourth generation. -/

namespace N2P2

open Filter Topology

variable {M : Mode4G} {P : Potential4G} {n : ℕ} {s s' : Structure} {ls : LinSolve}

theorem withOverall_alike (s : Structure) (R : ℝ) : s.Alike (s.withOverall R) :=
  ⟨rfl, rfl, rfl, rfl, fun _ => rfl, fun _ => rfl⟩

theorem IsForce.alike (h : s.Alike s') {IsE : Structure → ℝ → Prop}
    (hE : ∀ s s' E, s.Alike s' → IsE s E → IsE s' E) {f f' : ℕ → Vec3}
    (hf : ∀ i < s.atoms.length, f' i = f i) (hF : s.IsForce IsE f) : s'.IsForce IsE f' := by
  intro r v t0 hm
  obtain ⟨h1, h2⟩ := hF r v t0 (h.symm.moves hm)
  refine ⟨h1.mono fun t ⟨E, ht⟩ => ⟨E, hE _ _ _ (h.at r t) ht⟩, fun E hEt => ?_⟩
  refine (h2 E (hEt.mono fun t ht => hE _ _ _ (h.symm.at r t) ht)).congr_deriv ?_
  rw [h.count]
  congr 1
  exact Finset.sum_congr rfl fun i hi => by rw [hf i (Finset.mem_range.1 hi)]

theorem smooth4G_congr {R : ℝ} {x y : ℕ → ℝ} (h : ∀ i < s.atoms.length, y i = x i)
    (hS : P.Smooth4G R s x) : P.Smooth4G R s y := by
  intro i hi env he
  rw [h i hi]
  exact hS i hi env he

theorem Qeq.Equilibrium.congr_charge {χ J U : ℕ → ℝ} {V : ℕ → ℕ → ℝ} {x y : ℕ → ℝ}
    (h : Qeq.Equilibrium s χ J U V x) (he : ∀ i < s.atoms.length, y i = x i) :
    Qeq.Equilibrium s χ J U V y := by
  obtain ⟨h1, c, h2⟩ := h
  refine ⟨?_, c, fun i hi => ?_⟩
  · rw [← h1]
    exact Finset.sum_congr rfl fun i hi => he i (Finset.mem_range.1 hi)
  · rw [← h2 i hi, he i hi]
    congr 1
    unfold Qeq.potential
    refine Finset.sum_congr rfl fun j hj => ?_
    rw [he j (Finset.mem_range.1 (Finset.mem_of_mem_erase hj))]

/-- All that is known after an evaluation. -/
structure Result4G (ls : LinSolve) (P : Potential4G) (n : ℕ) (conv : ℝ → ℝ) (f d : Bool)
    (s : Structure) (M' : Mode4G) (s3 s4 t t' : Structure) (U : Structure → ℕ → ℝ)
    (V W : Structure → ℕ → ℕ → ℝ) (El : ℕ → ElementData) (A B C : ℕ → Atom) : Prop where
  run : Run4G ls P n conv f d s M' s3 s4 t U V W
  stage : ∀ i < s.atoms.length, Stage4G P n conv f d s M' s3 s4 t i (El i) (A i) (B i) (C i)
  rest : t' = t.withAtoms t'.atoms
  length : t'.atoms.length = s.atoms.length
  charge : ∀ i < s.atoms.length, (t'.atom i).charge = (s4.atom i).charge
  forces : f = true → ∀ i < s.atoms.length, t'.atoms[i]? =
    some ((shortAtom P.toPotential true (C i)).withForces
      (shortForce P s s4 A i + chargeForce P s s4 A (adjoint ls s s4 (chargeGrad P s s4 A)) i)
      (chargeForce P s s4 A (adjoint ls s s4 fun i => (s4.atom i).dEelecdQ) i))

theorem evaluated4G {srt : List Neighbor → List Neighbor} (hsrt : IsSort srt) (hM : M.SetUp P n)
    (hP : P.Fits4G n) (hn : 0 < n) (f g : Bool) (hs : s.Evaluable4G M P n f) :
    ∃ p, (s.isPeriodic = true → M.ewaldSetup s.volume s.numAtoms M.qeq.ewald = some p) ∧
      ∃ M' t', M.evaluateNNP srt ls s f g = some (M', t') ∧ M'.qeq = { M.qeq with ewald := p } ∧
        M'.mode.listRadius (s.withOverall (M.listRadius s p)) = M.listRadius s p ∧
        ∃ s3 s4 t U V W El A B C, Result4G ls P n M.negativity f (f || g)
          (s.withOverall (M.listRadius s p)) M' s3 s4 t t' U V W El A B C := by
  obtain ⟨p, hp, M', s3, s4, t, U, V, W, hq, hmax, he, run⟩ :=
    evaluate4G (ls := ls) hsrt hM hP hn f g hs
  obtain ⟨El, A, B, C, h⟩ := run.stages hn
  have hlen : t.atoms.length = s.atoms.length := by
    rw [run.atoms, List.length_map, run.length4]
    rfl
  have hr : M'.mode.listRadius (s.withOverall (M.listRadius s p)) = M.listRadius s p := by
    unfold Mode.listRadius
    rw [hmax]
    refine max_eq_right ?_
    show _ ≤ M.listRadius s p
    unfold Mode4G.listRadius
    split_ifs
    · exact le_max_of_le_left (le_max_right _ _)
    · exact le_max_right _ _
  refine ⟨p, hp, M', ?_⟩
  cases f with
  | false =>
    refine ⟨t, ?_, hq, hr, s3, s4, t, U, V, W, El, A, B, C, run, h, rfl, hlen, fun i hi => ?_, nofun⟩
    · rw [he]
      rfl
    · rw [atom_of_get (h i hi).get, atom_of_get (h i hi).get4]
      rfl
  | true =>
    obtain ⟨t', k1, k2, k3, k4⟩ := run.forces hP hM.conv h
    refine ⟨t', ?_, hq, hr, s3, s4, t, U, V, W, El, A, B, C, run, h, k2, k3, fun i hi => ?_,
      fun _ => k4⟩
    · rw [he, if_pos rfl, k1]
      rfl
    · rw [atom_of_get (k4 i hi), atom_of_get (h i hi).get4]
      rfl

section

variable {conv : ℝ → ℝ} {f d : Bool} {M' : Mode4G} {s3 s4 t t' : Structure}
  {U : Structure → ℕ → ℝ} {V W : Structure → ℕ → ℕ → ℝ} {El : ℕ → ElementData} {A B C : ℕ → Atom}

theorem Result4G.state (h : Result4G ls P n conv f d s M' s3 s4 t t' U V W El A B C)
    (hconv : ∀ x, conv x = P.unit * x) (hls : ls.Correct)
    (hS : M'.qeq.Solvable s (U s) (V s)) (hbox : s.isPeriodic = true → NonSingular s.box) {R : ℝ}
    (hR : P.Within R s) : ∃ env, IsState4G P M'.qeq R s (U s) (V s) env
      (fun i => (t'.atom i).charge) ∧
      t'.energyElec = M'.qeq.storedEnergy s (U s) (V s) (W s) (fun i => (t'.atom i).charge) ∧
      t'.energy = t'.energyElec + ∑ i ∈ Finset.range s.atoms.length,
        P.atomicQ (s.elementOf i) (env i) (t'.atom i).charge ∧
      t'.charge = s.chargeRef := by
  have hA : ∀ i < s.atoms.length, ∃ e b c, Stage4G P n conv f d s M' s3 s4 t i e (A i) b c :=
    fun i hi => ⟨_, _, _, h.stage i hi⟩
  have hst := h.run.state hconv hls hS hA
  choose env henv using exists_isBall (s := s) hbox R
  obtain ⟨g1, g2⟩ := hst.change h.run.valid h.run.within hR fun i _ => (henv i).isEnv le_rfl
  have e1 : t'.energyElec = t.energyElec := by rw [h.rest]; rfl
  have e2 : t'.energy = t.energy := by rw [h.rest]; rfl
  have e3 : t'.charge = t.charge := by rw [h.rest]; rfl
  have g3 : IsState4G P M'.qeq R s (U s) (V s) env (fun i => (t'.atom i).charge) :=
    ⟨g1.near, g1.equilibrium.congr_charge h.charge⟩
  refine ⟨env, g3, ?_, ?_, ?_⟩
  · rw [e1, h.run.energyElec]
    exact storedEnergy_congr _ _ _ fun i hi => (h.charge i hi).symm
  · rw [e2, h.run.energy, h.run.energyShort hA, e1, add_comm, ← g2]
    congr 1
    exact Finset.sum_congr rfl fun i hi => by rw [h.charge i (Finset.mem_range.1 hi)]
  · rw [e3, h.run.charge]
    exact g1.equilibrium.1

end

end N2P2
