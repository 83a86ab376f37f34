import Verif.Lemma.ModeExample
import Verif.Lemma.QeqExample
import Verif.Lemma.Mode4GRun
import Verif.Props.Qeq

/-! A small potential of the fourth generation. -/

namespace N2P2

/-- Two inputs, identity activation. -/
def exNetQ : NetShape where
  numLayers := 3
  n := fun k => if k = 0 then 2 else 1
  af := fun _ => .IDENTITY
  norm := false

/-- The functions of `exPotential`. The electronegativity of an H atom is two plus the value of its
function, that of an O atom is zero; the energies are sums of function values and charges. -/
noncomputable def exPotential4G : Potential4G where
  functions e := [exFn e]
  shape _ := exNetQ
  weights _ := 1
  chiShape _ := exNet
  chiWeights e := if e = 0 then 1 else 0
  unit := 1

theorem exPotential4G_fits : exPotential4G.Fits4G 2 := by
  refine ⟨fun e _ => ?_, fun e _ => ?_⟩
  · exact ⟨⟨le_rfl, fun _ _ => Nat.one_pos, fun _ _ _ => by simp [exPotential4G, Potential4G.chi, exNet]⟩,
      rfl, rfl⟩
  · refine ⟨⟨le_rfl, fun k _ => ?_, fun _ _ _ => by simp [exPotential4G, exNetQ]⟩, rfl, rfl⟩
    simp only [exPotential4G, exNetQ]
    split_ifs <;> norm_num

/-- Large hardnesses, screening as in `exQeq`. -/
noncomputable def exQeq4G (p : EwaldParameters) : Qeq :=
  { hardness := [10, 10]
    qsigma := [1, 1]
    fs := exQeq.fs
    ewald := p
    fourPiEps := 1 }

theorem exists_exMode4G : ∃ M : Mode4G, M.SetUp exPotential4G 2 ∧ M.qeq = exQeq4G ⟨1, 1, 1⟩ ∧
    M.groups = none := by
  obtain ⟨N, hN, -⟩ := exists_exModeOf exPotential4G.toPotential (fun _ => rfl) fun _ => ⟨_, rfl⟩
  have hc : ∃ nn0, NeuralNetwork.create exNet.numLayers exNet.n exNet.af = some nn0 := ⟨_, rfl⟩
  obtain ⟨nn0, h0⟩ := hc
  set net : ℕ → NeuralNetwork := fun e =>
    (nn0.setConnections (exPotential4G.chiWeights e)).setNormalizeNeurons false with hnet
  refine ⟨⟨N, [net 0, net 1], none, exQeq4G ⟨1, 1, 1⟩, fun _ _ p => some ⟨1, 1, 1⟩,
    setupCutoffMatrix N.elements (3 / 2), .init, false, 1, 1⟩, ⟨hN, nofun, rfl, ?_, ⟨_, rfl⟩,
    ⟨le_rfl, le_rfl⟩, ⟨_, _, exQeq_configured⟩, rfl, ?_⟩, rfl, rfl⟩
  · intro k nn hk
    have key : ∀ e, NeuralNetwork.Loaded exNet (exPotential4G.chiWeights e) (net e) := fun e =>
      ⟨nn0, .create h0, .setNormalizeNeurons false (.refl _), rfl⟩
    match k with
    | 0 => rw [← Option.some.inj hk]; exact key 0
    | 1 => rw [← Option.some.inj hk]; exact key 1
    | k + 2 => cases hk
  · intro v N p p' h
    rw [← Option.some.inj h]
    norm_num

theorem exCluster_evaluable4G {M : Mode4G} (hg : M.groups = none) (f : Bool) :
    exCluster.Evaluable4G M exPotential4G 2 f := by
  refine ⟨exCluster_new, ?_, ?_, exCluster_apart, nofun, ?_, fun h => absurd hg h⟩
  · exact exSystem_length.symm
  · intro a ha
    obtain ⟨i, hi⟩ := List.getElem?_of_mem ha
    rw [exCluster, exSystem_get] at hi
    obtain ⟨p, hp, rfl⟩ := Option.map_eq_some_iff.1 hi
    rfl
  · intro p _ i _ S hS env _ h
    rw [List.mem_singleton.1 hS] at h
    exact absurd (Or.inr (Or.inr (Or.inl rfl))) h

theorem exPotential4G_smooth {s : Structure} (ha : s.Apart) (R : ℝ) (x : ℕ → ℝ) :
    exPotential4G.Smooth4G R s x := by
  intro i _ env henv
  refine ⟨fun S hS => ?_, fun _ _ _ _ => trivial, fun _ _ _ _ => trivial⟩
  rw [List.mem_singleton.1 hS]
  exact ⟨fun _ => nofun, fun _ => ha.pairwise henv,
    fun _ _ => Or.inr (Or.inl ⟨le_rfl, by show |(1 : ℝ)| ≤ 1; norm_num⟩)⟩

theorem coulomb_le_one {q : Qeq} (hε : q.fourPiEps = 1) {e f : ℕ} {r : ℝ} (hr : 1 ≤ r) :
    0 ≤ q.coulomb e f r ∧ q.coulomb e f r ≤ 1 := by
  refine ⟨coulomb_nonneg (by rw [hε]; norm_num) (Real.sqrt_nonneg _) (by linarith), ?_⟩
  unfold Qeq.coulomb
  rw [hε, one_mul, div_le_one (by linarith)]
  exact (erf_lt_one _).le.trans hr

theorem exCluster_solvable (p : EwaldParameters) :
    (exQeq4G p).Solvable exCluster ((exQeq4G p).openU exCluster) ((exQeq4G p).openV exCluster) := by
  refine Qeq.Positive.solvable ⟨by simp [exCluster, exSystem_length], fun y hy h0 => ?_⟩
  have e : exCluster.atoms.length = 3 := rfl
  rw [e] at hy h0 ⊢
  have hV : ∀ i j, i < 3 → j < 3 → i ≠ j → 0 ≤ (exQeq4G p).openV exCluster i j ∧
      (exQeq4G p).openV exCluster i j ≤ 1 := by
    intro i j hi hj hij
    refine coulomb_le_one rfl ?_
    unfold len
    refine Real.le_sqrt_of_sq_le ?_
    rw [Fin.sum_univ_three]
    have key : 1 ≤ ((exCluster.position i - exCluster.position j) 0) ^ 2 +
        ((exCluster.position i - exCluster.position j) 1) ^ 2 := by
      simp only [exCluster, exSystem_position]
      interval_cases i <;> interval_cases j <;> first | exact absurd rfl hij | norm_num
    have := sq_nonneg ((exCluster.position i - exCluster.position j) 2)
    linarith
  have hU : ∀ i, 0 ≤ (exQeq4G p).openU exCluster i := by
    intro i
    unfold Qeq.openU Qeq.self Qeq.σ
    have : (0 : ℝ) ≤ [(1 : ℝ), 1].getD (exCluster.elementOf i) 0 := by
      rcases exCluster.elementOf i with _ | _ | k <;> simp
    have h1 : (exQeq4G p).qsigma = [1, 1] := rfl
    have h2 : (exQeq4G p).fourPiEps = 1 := rfl
    rw [h1, h2]
    positivity
  have hJ : ∀ i < 3, (exQeq4G p).J (exCluster.elementOf i) = 10 := by
    intro i hi
    interval_cases i <;> rfl
  have hpos : 0 < y 0 ^ 2 + y 1 ^ 2 + y 2 ^ 2 := by
    obtain ⟨i, hi, h⟩ := h0
    have := sq_nonneg (y 0)
    have := sq_nonneg (y 1)
    have := sq_nonneg (y 2)
    have := pow_pos (abs_pos.2 h) 2
    rw [sq_abs] at this
    interval_cases i <;> linarith
  have pair : ∀ v a b : ℝ, 0 ≤ v ∧ v ≤ 1 → -(a ^ 2 + b ^ 2) / 2 ≤ v * a * b := by
    intro v a b hv
    nlinarith [mul_nonneg hv.1 (sq_nonneg (a + b)), mul_nonneg (sub_nonneg.2 hv.2)
      (add_nonneg (sq_nonneg a) (sq_nonneg b))]
  unfold Qeq.coulombEnergy
  simp only [Finset.sum_range_succ, Finset.sum_range_zero, zero_add]
  rw [hJ 0 (by norm_num), hJ 1 (by norm_num), hJ 2 (by norm_num)]
  have p1 := pair _ (y 0) (y 1) (hV 0 1 (by norm_num) (by norm_num) (by norm_num))
  have p2 := pair _ (y 0) (y 2) (hV 0 2 (by norm_num) (by norm_num) (by norm_num))
  have p3 := pair _ (y 1) (y 2) (hV 1 2 (by norm_num) (by norm_num) (by norm_num))
  have u0 := mul_nonneg (hU 0) (sq_nonneg (y 0))
  have u1 := mul_nonneg (hU 1) (sq_nonneg (y 1))
  have u2 := mul_nonneg (hU 2) (sq_nonneg (y 2))
  linarith

theorem exCluster_noOwnImages {P : Potential} : P.NoOwnImages exCluster := by
  intro i _ q hq
  obtain ⟨-, h1 | h1, h2⟩ := hq
  · cases h1
  · exact absurd (by rw [show q = 0 from h1]) h2

theorem exPotential4G_within {s : Structure} : exPotential4G.Within 3 s := by
  intro i _ S hS
  rw [List.mem_singleton.1 hS]
  exact le_rfl

end N2P2
