import Mathlib.Algebra.BigOperators.Group.Finset.Basic
import Mathlib.Tactic.NormNum
import Mathlib.Analysis.Real.Pi.Bounds
import Verif.Lemma.Kspace
import Verif.Lemma.ErfcBuf

/-! Properties C39 (reciprocal grid) and C40 (buffer of values of the error function). -/

namespace N2P2

/-! ### C39 -/

theorem HalfPos.xor {m : ℤ × ℤ × ℤ} (h : bcVec m ≠ 0) :
    (HalfPos m ∧ ¬ HalfPos (-m)) ∨ (HalfPos (-m) ∧ ¬ HalfPos m) := by
  obtain ⟨i, j, k⟩ := m
  have h : ¬ (i = 0 ∧ j = 0 ∧ k = 0) := fun ⟨a, b, c⟩ => h (by subst a b c; funext x; fin_cases x <;> rfl)
  simp only [HalfPos, Prod.neg_mk]
  omega

theorem bcVec_neg (m : ℤ × ℤ × ℤ) : bcVec (-m) = -bcVec m := by
  funext k; fin_cases k <;> rfl

variable {box : Fin 3 → Vec3} {p : EwaldParameters}

/-- C39: for every box with non-zero volume the setup of the grid succeeds. The grid contains
reciprocal lattice vectors only, none of them zero or as long as the cutoff, no vector twice, and of
each such vector and its negative exactly one. -/
theorem C39_grid (hbox : NonSingular box) (hk : 0 ≤ p.kCut) :
    ∃ g, KspaceGrid.init.setup box p = some g ∧ (g.kvectors.map Kvector.k).Nodup ∧
      (∀ K ∈ g.kvectors.map Kvector.k, K ∈ recipBall box p.kCut) ∧
      ∀ K ∈ recipBall box p.kCut,
        (K ∈ g.kvectors.map Kvector.k ∧ -K ∉ g.kvectors.map Kvector.k) ∨
        (-K ∈ g.kvectors.map Kvector.k ∧ K ∉ g.kvectors.map Kvector.k) := by
  classical
  obtain ⟨g, n, hg, hv, hn⟩ := setup_eq hbox p KspaceGrid.init
  have hr := recipBox_nonSingular hbox
  have e : g.kvectors.map Kvector.k =
      ((kLoop n).map fun m => shift (recipBox box) (bcVec m)).filter
        fun K => K.norm2 < p.kCut * p.kCut := by
    rw [hv, List.map_append, List.map_map]
    exact List.map_id _
  have hmem : ∀ m : ℤ × ℤ × ℤ, len (shift (recipBox box) (bcVec m)) < p.kCut →
      (shift (recipBox box) (bcVec m) ∈ g.kvectors.map Kvector.k ↔ HalfPos m) := by
    intro m hm
    rw [e, List.mem_filter, List.mem_map]
    constructor
    · rintro ⟨⟨m', h1, h2⟩, -⟩
      rw [← bcVec_inj (shift_inj hr h2)]
      exact (mem_kLoop.1 h1).1
    · intro h
      have := hn _ hm
      refine ⟨⟨m, mem_kLoop.2 ⟨h, (this 0).2, this 1, this 2⟩, rfl⟩, ?_⟩
      simpa using (norm2_lt_kCut _ hk).2 hm
  refine ⟨g, hg, ?_, ?_, ?_⟩
  · rw [e]
    refine ((kLoop_nodup n).map ?_).filter _
    intro m m' h
    exact bcVec_inj (shift_inj hr h)
  · intro K hK
    rw [e, List.mem_filter, List.mem_map] at hK
    obtain ⟨⟨m, h1, rfl⟩, h2⟩ := hK
    refine ⟨(isReciprocal_iff hbox _).2 ⟨_, rfl⟩, ?_, (norm2_lt_kCut _ hk).1 (by simpa using h2)⟩
    intro h0
    rw [← shift_zero (recipBox box)] at h0
    have h3 := (bcVec_eq_zero m).1 (shift_inj hr h0)
    have h4 := (mem_kLoop.1 h1).1
    obtain ⟨a, b, c⟩ := m
    simp only [HalfPos] at h3 h4
    omega
  · rintro K ⟨h1, h2, h3⟩
    obtain ⟨n', rfl⟩ := (isReciprocal_iff hbox K).1 h1
    rw [← bcVec_surj n'] at h2 h3 ⊢
    set m : ℤ × ℤ × ℤ := (n' 0, n' 1, n' 2)
    have hm := hmem m h3
    have hm' := hmem (-m) (by rw [bcVec_neg, shift_neg, len_eq, norm_neg, ← len_eq]; exact h3)
    rw [bcVec_neg, shift_neg] at hm'
    rw [hm, hm']
    refine HalfPos.xor fun h0 => h2 ?_
    rw [h0, shift_zero]

/-- C39: each vector `K` of the grid is stored with the weight `4 π exp(-η² K² / 2) / (V K²)`, where
`V` is the volume of the box. -/
theorem C39_coefficient (hbox : NonSingular box) {g : KspaceGrid}
    (hg : KspaceGrid.init.setup box p = some g) :
    ∀ v ∈ g.kvectors, v.knorm2 = len v.k ^ 2 ∧
      v.coeff = 4 * Real.pi / |Matrix.det (Matrix.of box)| *
        (Real.exp (-(p.eta ^ 2 * len v.k ^ 2) / 2) / len v.k ^ 2) := by
  classical
  obtain ⟨g', n, hg', hv, -⟩ := setup_eq hbox p KspaceGrid.init
  rw [hg] at hg'
  cases hg'
  intro v hmem
  rw [hv] at hmem
  simp only [KspaceGrid.init, List.nil_append, List.mem_map] at hmem
  obtain ⟨K, -, rfl⟩ := hmem
  have e : K.norm2 = len K ^ 2 := by
    rw [len_eq, norm_eq, Real.sq_sqrt (norm2_nonneg K)]
  refine ⟨e, ?_⟩
  simp only [kEntry, e, det_eq]
  rw [show (-0.5 * p.eta * p.eta * len K ^ 2 : ℝ) = -(p.eta ^ 2 * len K ^ 2) / 2 by
    norm_num; ring, show (2.0 : ℝ) = 2 by norm_num]
  ring

/-- C39: twice the sum over the grid is the sum over all non-zero reciprocal lattice vectors shorter
than the cutoff, for every function which has the same value at `K` and `-K`. -/
theorem C39_sum (hbox : NonSingular box) (hk : 0 ≤ p.kCut) {g : KspaceGrid}
    (hg : KspaceGrid.init.setup box p = some g) (F : Vec3 → ℝ) (hF : ∀ K, F (-K) = F K) :
    ∃ S : Finset Vec3, (∀ K, K ∈ S ↔ K ∈ recipBall box p.kCut) ∧
      ∑ K ∈ S, F K = 2 * (g.kvectors.map fun v => F v.k).sum := by
  classical
  obtain ⟨g', hg', h1, h2, h3⟩ := C39_grid hbox hk
  rw [hg] at hg'
  cases hg'
  set l := g.kvectors.map Kvector.k with hl
  have hneg : ∀ K, -K ∈ recipBall box p.kCut → K ∈ recipBall box p.kCut := by
    rintro K ⟨a, b, c⟩
    refine ⟨fun j => ?_, fun h => b (by rw [h, neg_zero]), ?_⟩
    · obtain ⟨m, hm⟩ := a j
      refine ⟨-m, ?_⟩
      simp only [Pi.neg_apply, neg_mul, Finset.sum_neg_distrib] at hm
      push_cast
      linarith
    · rwa [len_eq, norm_neg, ← len_eq] at c
  have hd : Disjoint l.toFinset (l.toFinset.image fun K => -K) := by
    rw [Finset.disjoint_left]
    intro K hK hK'
    simp only [Finset.mem_image, List.mem_toFinset] at hK hK'
    obtain ⟨K', hK', rfl⟩ := hK'
    have := h3 _ (h2 _ hK)
    rw [neg_neg] at this
    tauto
  refine ⟨l.toFinset ∪ l.toFinset.image fun K => -K, fun K => ?_, ?_⟩
  · simp only [Finset.mem_union, Finset.mem_image, List.mem_toFinset]
    constructor
    · rintro (h | ⟨K', h, rfl⟩)
      · exact h2 _ h
      · exact hneg _ (by rw [neg_neg]; exact h2 _ h)
    · intro h
      rcases h3 _ h with h | h
      · exact Or.inl h.1
      · exact Or.inr ⟨-K, h.1, neg_neg K⟩
  · rw [Finset.sum_union hd, Finset.sum_image (fun x _ y _ h => neg_injective h)]
    simp only [hF]
    rw [List.sum_toFinset _ h1, hl, List.map_map]
    simp only [Function.comp_def]
    ring

/-- A cubic box of edge 1 and a cutoff which holds the six shortest vectors: the conditions of the
theorems are met and the ball is not empty. -/
example : NonSingular (fun i => Pi.single i 1) ∧ (0 : ℝ) ≤ 7 ∧
    (![2 * Real.pi, 0, 0] : Vec3) ∈ recipBall (fun i => Pi.single i 1) 7 := by
  refine ⟨?_, by norm_num, ?_, ?_, ?_⟩
  · rw [nonSingular_iff]
    simp [boxDet]
  · intro j
    fin_cases j
    · exact ⟨1, by simp [Fin.sum_univ_three]⟩
    · exact ⟨0, by simp [Fin.sum_univ_three]⟩
    · exact ⟨0, by simp [Fin.sum_univ_three]⟩
  · intro h
    have := congrFun h 0
    have := Real.pi_pos
    simp at *
  · have h : len (![2 * Real.pi, 0, 0] : Vec3) = 2 * Real.pi := by
      simp only [len, Fin.sum_univ_three]
      simp
      exact Real.sqrt_sq (by linarith [Real.pi_pos])
    rw [h]
    linarith [Real.pi_lt_d2]

/-! ### C40 -/

/-- A sequence of accesses (atom, neighbour, value index, argument) to the buffer: the values
returned. -/
noncomputable def ErfcBuf.run : ErfcBuf → List (ℕ × ℕ × ℕ × ℝ) → Option (List ℝ)
  | _, [] => some []
  | b, (i, k, v, x) :: l => do
    let r ← b.getf i k v x
    let rs ← r.2.run l
    return r.1 :: rs

/-- C40: after a reset, in every sequence of accesses within the lists of neighbours, every access
returns `erfc` of its argument, provided that the argument is determined by atom, neighbour and value
index (`X`, here the scaled distance). Nothing is assumed about the buffer before the reset. -/
theorem C40_transparent (b : ErfcBuf) (atoms : List Atom) (vpp : ℕ) (X : ℕ → ℕ → ℕ → ℝ)
    (l : List (ℕ × ℕ × ℕ × ℝ))
    (hl : ∀ q ∈ l, (∃ a, atoms[q.1]? = some a ∧ q.2.1 < a.numNeighbors) ∧ q.2.2.1 < vpp ∧
      q.2.2.2 = X q.1 q.2.1 q.2.2.1) :
    (b.reset atoms vpp).run l = some (l.map fun q => erfc q.2.2.2) := by
  have key : ∀ (l : List (ℕ × ℕ × ℕ × ℝ)) (b : ErfcBuf), b.Holds atoms vpp X →
      (∀ q ∈ l, (∃ a, atoms[q.1]? = some a ∧ q.2.1 < a.numNeighbors) ∧ q.2.2.1 < vpp ∧
        q.2.2.2 = X q.1 q.2.1 q.2.2.1) → b.run l = some (l.map fun q => erfc q.2.2.2) := by
    intro l
    induction l with
    | nil => intro b _ _; rfl
    | cons q l ih =>
      intro b hb hq
      obtain ⟨i, k, v, x⟩ := q
      obtain ⟨⟨a, ha, hk⟩, hv, hx⟩ := hq _ List.mem_cons_self
      dsimp only at ha hk hv hx
      obtain ⟨b', e, hb'⟩ := hb.getf ha hk hv
      unfold ErfcBuf.run
      rw [hx, e]
      simp only [Option.bind_eq_bind, Option.bind_some]
      rw [ih b' hb' fun q h => hq q (List.mem_cons_of_mem _ h)]
      rfl
  exact key l _ (b.reset_holds atoms vpp X) hl

/-- The condition on the arguments is needed: a second access with another argument returns the
first value. -/
theorem C40_first_argument_wins (b : ErfcBuf) {x y : ℝ} :
    (b.reset [{ Atom.init with numNeighbors := 1 }] 1).run [(0, 0, 0, x), (0, 0, 0, y)] =
      some [erfc x, erfc x] := by
  have h := C40_transparent b [{ Atom.init with numNeighbors := 1 }] 1 (fun _ _ _ => x)
    [(0, 0, 0, x)] (by simp)
  simp [ErfcBuf.run, ErfcBuf.getf, ErfcBuf.reset, erfc_ne]

/-- Two atoms with two and one neighbours, two values per pair, repeated and mixed accesses. -/
example (X : ℕ → ℕ → ℕ → ℝ) : ∀ q ∈ [(0, 1, 0, X 0 1 0), (1, 0, 1, X 1 0 1), (0, 1, 0, X 0 1 0),
      (0, 0, 1, X 0 0 1)],
    (∃ a, [{ Atom.init with numNeighbors := 2 }, { Atom.init with numNeighbors := 1 }][q.1]? =
        some a ∧ q.2.1 < a.numNeighbors) ∧ q.2.2.1 < 2 ∧ q.2.2.2 = X q.1 q.2.1 q.2.2.1 := by
  simp

end N2P2
