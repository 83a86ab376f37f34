import Mathlib.LinearAlgebra.Matrix.ToLinearEquiv
import Mathlib.LinearAlgebra.Matrix.NonsingularInverse
import Verif.Spec.Electrostatics
import Verif.Lemma.ElecMatrix
import Verif.Props.Ewald

/-! Charge equilibration: the equations which the charges satisfy. -/

namespace N2P2

theorem Structure.atom_r (s : Structure) (i : ℕ) : (s.atom i).r = s.position i := by
  unfold Structure.atom Structure.position
  rw [List.getD_eq_getElem?_getD]
  cases s.atoms[i]? <;> rfl

theorem Structure.atom_element (s : Structure) (i : ℕ) : (s.atom i).element = s.elementOf i := by
  unfold Structure.atom Structure.elementOf
  rw [List.getD_eq_getElem?_getD]
  cases s.atoms[i]? <;> rfl

theorem Structure.atom_get {s : Structure} {i : ℕ} (hi : i < s.atoms.length) :
    s.atoms[i]? = some (s.atom i) := by
  unfold Structure.atom
  rw [List.getD_eq_getElem?_getD, List.getElem?_eq_getElem hi]
  rfl

theorem Structure.atom_mem {s : Structure} {i : ℕ} (hi : i < s.atoms.length) :
    s.atom i ∈ s.atoms := List.mem_of_getElem? (Structure.atom_get hi)

/-! ### Closed forms -/

variable {q : Qeq} {s : Structure}

theorem Qeq.gammaSqrt2_eq (q : Qeq) (e f : ℕ) : q.params.gammaSqrt2 e f = √2 * q.γ e f := by
  show √(2 * (q.σ e * q.σ e + q.σ f * q.σ f)) = _
  rw [Qeq.γ, ← Real.sqrt_mul (by norm_num), pow_two, pow_two]

theorem openDiag_eq (q : Qeq) (s : Structure) (i : ℕ) :
    openDiag q.params s i = q.J (s.elementOf i) + q.openU s i := by
  unfold openDiag Qeq.openU Qeq.self
  rw [Structure.atom_element]
  show q.J _ + 1 / (√Real.pi * q.σ _ * q.fourPiEps) = _
  rw [mul_comm (√Real.pi * q.σ (s.elementOf i))]

theorem openPair_eq (q : Qeq) (s : Structure) (i j : ℕ) :
    openPair q.params s i j = q.openV s i j := by
  unfold openPair Qeq.openV Qeq.coulomb
  rw [Structure.atom_element, Structure.atom_element, Structure.atom_r, Structure.atom_r,
    q.gammaSqrt2_eq, ← len_eq]
  show _ / (_ * q.fourPiEps) = _
  rw [mul_comm q.fourPiEps]

theorem Structure.Stored.listsOK {full imgs : ℕ → List (ℕ × (Fin 3 → ℤ))} {R : ℝ}
    (hn : s.numAtoms = s.atoms.length) (hl : s.Listed full) (hi : s.Stored full R imgs)
    (p : EwaldParameters) (hp : p.rCut = R) : ListsOK p s := by
  have hd : ∀ i < s.numAtoms, ∀ n ∈ (s.atom i).neighbors,
      ∃ j m, n.Describes s.box s.atoms (s.atom i).r j m := by
    intro i hi n hnn
    obtain ⟨k, hk⟩ := List.getElem?_of_mem hnn
    have h2 := hl.describes i _ (Structure.atom_get (hn ▸ hi))
    have hlen := h2.length_eq
    have hk' := (List.getElem?_eq_some_iff.1 hk).1
    have := (List.forall₂_iff_get.1 h2).2 k hk' (hlen ▸ hk')
    rw [List.get_eq_getElem, (List.getElem?_eq_some_iff.1 hk).2] at this
    exact ⟨_, _, this⟩
  refine ⟨hn, fun i h => ?_, fun i h => hl.number _ (Structure.atom_mem (hn ▸ h)),
    fun i h n hnn => ?_, fun i h n hnn => ?_⟩
  · rw [hp]
    exact hi.le _ (Structure.atom_mem (hn ▸ h))
  · obtain ⟨j, m, b, hb, -, ht, -⟩ := hd i h n hnn
    have := (List.getElem?_eq_some_iff.1 hb).1
    omega
  · obtain ⟨j, m, b, hb, -, ht, he, -⟩ := hd i h n hnn
    rw [he, ht, Int.toNat_natCast]
    have := (List.getElem?_eq_some_iff.1 hb).1
    rw [Structure.atom_get this] at hb
    cases hb
    rfl

/-- The images which belong to the first neighbours. -/
theorem Structure.Stored.forall₂ {full imgs : ℕ → List (ℕ × (Fin 3 → ℤ))} {R : ℝ}
    (hl : s.Listed full) (hi : s.Stored full R imgs) {i : ℕ} (h : i < s.atoms.length) :
    List.Forall₂ (fun nb p => nb.Describes s.box s.atoms (s.atom i).r p.1 p.2)
      ((s.atom i).neighbors.take ((s.atom i).getStoredMinNumNeighbors R)) (imgs i) := by
  rw [hi.take i h]
  exact List.forall₂_take _ (hl.describes i _ (Structure.atom_get h))

theorem describes_at {nb : Neighbor} {i : ℕ} {p : ℕ × (Fin 3 → ℤ)}
    (h : nb.Describes s.box s.atoms (s.atom i).r p.1 p.2) :
    nb.tag = (p.1 : ℤ) ∧ nb.element = s.elementOf p.1 ∧ nb.dr = s.separation i p ∧
      nb.d = len (s.separation i p) := by
  obtain ⟨b, hb, -, ht, he, hd, hl⟩ := h
  have e : nb.dr = s.separation i p := by
    rw [hd, Structure.separation, Structure.atom_r]
    congr 2
    rw [Structure.position, hb]
    rfl
  refine ⟨ht, ?_, e, by rw [hl, e]⟩
  rw [he, Structure.elementOf, hb]
  rfl

theorem realSum_eq {full imgs : ℕ → List (ℕ × (Fin 3 → ℤ))}
    (hl : s.Listed full) (hi : s.Stored full q.ewald.rCut imgs) {i : ℕ} (h : i < s.atoms.length)
    (j : ℕ) : realSum q.params q.ewald s i j ((s.atom i).getStoredMinNumNeighbors q.ewald.rCut) =
      q.ewaldReal s imgs i j := by
  unfold realSum Qeq.ewaldReal
  have hf := hi.forall₂ hl h
  generalize (s.atom i).neighbors.take ((s.atom i).getStoredMinNumNeighbors q.ewald.rCut) = l at hf
  generalize imgs i = l' at hf
  induction hf with
  | nil => rfl
  | @cons nb p l l' hp _ ih =>
    obtain ⟨ht, he, -, hd⟩ := describes_at hp
    rw [List.map_cons, List.sum_cons, ih, List.filter_cons]
    by_cases hj : p.1 = j
    · rw [if_pos (by rw [ht, hj]), if_pos (by simpa using hj), List.map_cons, List.sum_cons]
      congr 1
      unfold realTerm
      rw [hd, he, q.gammaSqrt2_eq, Structure.atom_element, hj]
      show _ / (_ * q.fourPiEps) = _
      rw [mul_comm q.fourPiEps]
    · rw [if_neg (by rw [ht]; exact_mod_cast hj), if_neg (by simpa using hj), zero_add]

theorem recipSum_eq (hbox : NonSingular s.box) (hk : 0 ≤ q.ewald.kCut) {g : KspaceGrid}
    (hg : KspaceGrid.init.setup s.box q.ewald = some g) {S : Finset Vec3}
    (hS : ∀ K, K ∈ S ↔ K ∈ recipBall s.box q.ewald.kCut) (i j : ℕ) :
    recipSum q.params g.kvectors s i j = q.ewaldRecip s S i j := by
  obtain ⟨S', hS', e⟩ := C39_sum hbox hk hg (fun K =>
    Real.exp (-(q.ewald.eta ^ 2 * len K ^ 2) / 2) / len K ^ 2 *
      Real.cos (∑ c, K c * (s.position i - s.position j) c)) (fun K => by
    simp only [len_eq, norm_neg, Pi.neg_apply, neg_mul, Finset.sum_neg_distrib, Real.cos_neg])
  have : S = S' := by ext K; rw [hS, hS']
  subst this
  unfold recipSum Qeq.ewaldRecip
  rw [e, ← mul_assoc, ← List.sum_map_mul_left]
  congr 1
  refine List.map_congr_left fun v hv => ?_
  rw [(C39_coefficient hbox hg v hv).2, Structure.atom_r, Structure.atom_r]
  have hd : v.k.dot (s.position i - s.position j) = ∑ c, v.k c * (s.position i - s.position j) c := by
    simp [Vec3.dot, Fin.sum_univ_three]
  rw [hd]
  show _ / q.fourPiEps = _
  rw [div_mul_eq_div_div_swap (4 * Real.pi)]
  ring

theorem ewaldDiag_eq {full imgs : ℕ → List (ℕ × (Fin 3 → ℤ))}
    (hl : s.Listed full) (hi : s.Stored full q.ewald.rCut imgs) (hbox : NonSingular s.box)
    (hk : 0 ≤ q.ewald.kCut) {g : KspaceGrid} (hg : KspaceGrid.init.setup s.box q.ewald = some g)
    {S : Finset Vec3} (hS : ∀ K, K ∈ S ↔ K ∈ recipBall s.box q.ewald.kCut) {i : ℕ}
    (h : i < s.atoms.length) :
    ewaldDiag q.params q.ewald g.kvectors s i = q.J (s.elementOf i) + q.ewaldU s imgs S i := by
  unfold ewaldDiag Qeq.ewaldU
  rw [realSum_eq hl hi h, recipSum_eq hbox hk hg hS, Structure.atom_element]
  show q.J _ + (1 / (√Real.pi * q.σ _) - _) / q.fourPiEps + _ + _ = _
  rw [Qeq.self, sub_div, div_div, div_div, mul_comm _ q.fourPiEps, mul_comm _ q.fourPiEps,
    mul_comm _ (√Real.pi)]
  ring

theorem ewaldPair_eq {full imgs : ℕ → List (ℕ × (Fin 3 → ℤ))}
    (hl : s.Listed full) (hi : s.Stored full q.ewald.rCut imgs) (hbox : NonSingular s.box)
    (hk : 0 ≤ q.ewald.kCut) {g : KspaceGrid} (hg : KspaceGrid.init.setup s.box q.ewald = some g)
    {S : Finset Vec3} (hS : ∀ K, K ∈ S ↔ K ∈ recipBall s.box q.ewald.kCut) {i : ℕ}
    (h : i < s.atoms.length) (j : ℕ) :
    ewaldPair q.params q.ewald g.kvectors s i j = q.ewaldV s imgs S i j := by
  unfold ewaldPair Qeq.ewaldV
  rw [realSum_eq hl hi h, recipSum_eq hbox hk hg hS]

/-- The matrix before the last row and column are set. -/
theorem matrix_eq {U : ℕ → ℝ} {V : ℕ → ℕ → ℝ} (hn : s.numAtoms = s.atoms.length)
    (hUV : q.IsInteraction s U V) (buf : ErfcBuf) :
    ∃ B buf', electrostaticMatrix q.params q.ewald s (buf.reset s.atoms 2) = some (B, buf') ∧
      buf'.Holds s.atoms 2 (erfcArg q.params q.ewald s) ∧
      ∀ a b, a < s.atoms.length → b < s.atoms.length →
        B a b = symMat (fun i => q.J (s.elementOf i) + U i) V a b := by
  unfold electrostaticMatrix
  cases hUV with
  | cluster h =>
    refine ⟨_, _, by rw [if_neg (by simp [h])], ErfcBuf.reset_holds _ _ _ _, fun a b ha hb => ?_⟩
    rw [openMatrix_eq _ _ _ (hn ▸ ha) (hn ▸ hb)]
    unfold symMat
    simp only [openDiag_eq, openPair_eq]
  | ewald h hbox hk full imgs hl hi S hS =>
    obtain ⟨g, hg, -⟩ := C39_grid (p := q.ewald) hbox hk
    obtain ⟨B, buf', e, hb, hB⟩ := periodicMatrix_eq (P := q.params)
      (hi.listsOK hn hl q.ewald rfl) hl.sorted hg
      (ErfcBuf.reset_holds buf s.atoms 2 (erfcArg q.params q.ewald s))
    refine ⟨B, buf', by rw [if_pos (by simp [h])]; exact e, hb, fun a b ha hb => ?_⟩
    rw [hB a b (hn ▸ ha) (hn ▸ hb)]
    unfold symMat
    rw [ewaldDiag_eq hl hi hbox hk hg hS ha, ewaldPair_eq hl hi hbox hk hg hS ha,
      ewaldPair_eq hl hi hbox hk hg hS hb]

/-! ### Solution of the equations -/

theorem LinSolve.run_spec {ls : LinSolve} (hls : ls.Correct) {n : ℕ} {A : ℕ → ℕ → ℝ} (b : ℕ → ℝ)
    (hd : (Matrix.of fun i j : Fin n => A i j).det ≠ 0) {i : ℕ} (hi : i < n) :
    ∑ j ∈ Finset.range n, A i j * ls.run n A b j = b i := by
  have := congrFun (hls n _ (fun i => b i) hd) ⟨i, hi⟩
  rw [Matrix.mulVec, dotProduct] at this
  rw [Finset.sum_range]
  refine Eq.trans (Finset.sum_congr rfl fun j _ => ?_) this
  rw [LinSolve.run, dif_pos j.2]
  rfl

/-- Two solutions agree. -/
theorem unique_of_det {n : ℕ} {A : ℕ → ℕ → ℝ} (hd : (Matrix.of fun i j : Fin n => A i j).det ≠ 0)
    {x y : ℕ → ℝ} (h : ∀ i < n, ∑ j ∈ Finset.range n, A i j * x j = ∑ j ∈ Finset.range n, A i j * y j)
    {i : ℕ} (hi : i < n) : x i = y i := by
  have h1 : (Matrix.of fun i j : Fin n => A i j).mulVec (fun j => x j - y j) = 0 := by
    funext k
    have := h k k.2
    rw [Finset.sum_range, Finset.sum_range] at this
    rw [Matrix.mulVec, dotProduct]
    simp only [Matrix.of_apply, mul_sub, Finset.sum_sub_distrib, this, sub_self, Pi.zero_apply]
  have := congrFun (Matrix.eq_zero_of_mulVec_eq_zero hd h1) ⟨i, hi⟩
  simpa [sub_eq_zero] using this

theorem borderMatrix_apply (n : ℕ) (A : ℕ → ℕ → ℝ) (i j : ℕ) :
    borderMatrix n A i j = if i = n then (if j = n then 0 else 1) else
      if j = n then 1 else A i j := by
  unfold borderMatrix
  simp only [mset_apply]
  split_ifs <;> simp_all

theorem border_row (n : ℕ) (A : ℕ → ℕ → ℝ) (x : ℕ → ℝ) {i : ℕ} (hi : i < n) :
    ∑ j ∈ Finset.range (n + 1), borderMatrix n A i j * x j =
      ∑ j ∈ Finset.range n, A i j * x j + x n := by
  rw [Finset.sum_range_succ]
  congr 1
  · refine Finset.sum_congr rfl fun j hj => ?_
    have := Finset.mem_range.1 hj
    rw [borderMatrix_apply, if_neg (by omega), if_neg (by omega)]
  · rw [borderMatrix_apply, if_neg (by omega), if_pos rfl, one_mul]

theorem border_last (n : ℕ) (A : ℕ → ℕ → ℝ) (x : ℕ → ℝ) :
    ∑ j ∈ Finset.range (n + 1), borderMatrix n A n j * x j = ∑ j ∈ Finset.range n, x j := by
  rw [Finset.sum_range_succ]
  have : borderMatrix n A n n = 0 := by rw [borderMatrix_apply, if_pos rfl, if_pos rfl]
  rw [this, zero_mul, add_zero]
  refine Finset.sum_congr rfl fun j hj => ?_
  have := Finset.mem_range.1 hj
  rw [borderMatrix_apply, if_pos rfl, if_neg (by omega), one_mul]

theorem border_congr {n : ℕ} {A B : ℕ → ℕ → ℝ} (h : ∀ i j, i < n → j < n → A i j = B i j) (i j : ℕ)
    (hi : i < n + 1) (hj : j < n + 1) : borderMatrix n A i j = borderMatrix n B i j := by
  rw [borderMatrix_apply, borderMatrix_apply]
  split_ifs with h1 h2 h2
  · rfl
  · rfl
  · rfl
  · exact h i j (by omega) (by omega)

theorem border_det {n : ℕ} {M : ℕ → ℕ → ℝ} (h0 : 0 < n)
    (h : ∀ (x : ℕ → ℝ) (c : ℝ), (∀ i < n, ∑ j ∈ Finset.range n, M i j * x j = c) →
      ∑ i ∈ Finset.range n, x i = 0 → ∀ i < n, x i = 0) :
    (Matrix.of fun i j : Fin (n + 1) => borderMatrix n M i j).det ≠ 0 := by
  intro hd
  obtain ⟨v, hv, hz⟩ := Matrix.exists_mulVec_eq_zero_iff.2 hd
  set x : ℕ → ℝ := fun i => if hi : i < n + 1 then v ⟨i, hi⟩ else 0 with hx
  have row : ∀ i < n + 1, ∑ j ∈ Finset.range (n + 1), borderMatrix n M i j * x j = 0 := by
    intro i hi
    have := congrFun hz ⟨i, hi⟩
    rw [Matrix.mulVec, dotProduct] at this
    rw [Finset.sum_range]
    refine Eq.trans (Finset.sum_congr rfl fun j _ => ?_) this
    rw [hx]
    dsimp only
    rw [dif_pos j.2]
    rfl
  have hsum : ∑ i ∈ Finset.range n, x i = 0 := by
    have := row n (by omega)
    rwa [border_last] at this
  have hrow : ∀ i < n, ∑ j ∈ Finset.range n, M i j * x j = -x n := by
    intro i hi
    have := row i (by omega)
    rw [border_row _ _ _ hi] at this
    linarith
  have hall := h x (-x n) hrow hsum
  have hlast : x n = 0 := by
    have := hrow 0 h0
    rw [Finset.sum_eq_zero fun j hj => by rw [hall j (Finset.mem_range.1 hj), mul_zero]] at this
    linarith
  refine hv (funext fun i => ?_)
  have e : v i = x i := by rw [hx]; dsimp only; rw [dif_pos i.2]
  rw [e]
  rcases lt_or_eq_of_le (Nat.lt_succ_iff.1 i.2) with h' | h'
  · exact hall _ h'
  · rw [h']; exact hlast

theorem symMat_row (d : ℕ → ℝ) (V : ℕ → ℕ → ℝ) (n : ℕ) (x : ℕ → ℝ) {i : ℕ} (hi : i < n) :
    ∑ j ∈ Finset.range n, symMat d V i j * x j =
      d i * x i + ∑ j ∈ (Finset.range n).erase i, V (min i j) (max i j) * x j := by
  rw [← Finset.add_sum_erase _ _ (Finset.mem_range.2 hi)]
  congr 1
  · rw [symMat, if_pos rfl]
  · refine Finset.sum_congr rfl fun j hj => ?_
    have hne := (Finset.mem_erase.1 hj).1
    unfold symMat
    rw [if_neg (Ne.symm hne)]
    rcases lt_or_gt_of_ne hne with h | h
    · rw [if_neg (by omega), min_eq_right h.le, max_eq_left h.le]
    · rw [if_pos h, min_eq_left h.le, max_eq_right h.le]

theorem Qeq.Solvable.det {U : ℕ → ℝ} {V : ℕ → ℕ → ℝ} (h : q.Solvable s U V) {B : ℕ → ℕ → ℝ}
    (hB : ∀ a b, a < s.atoms.length → b < s.atoms.length →
      B a b = symMat (fun i => q.J (s.elementOf i) + U i) V a b) :
    (Matrix.of fun i j : Fin (s.atoms.length + 1) => borderMatrix s.atoms.length B i j).det ≠ 0 := by
  refine border_det h.1 fun x c hx h0 => h.2 x c (fun i hi => ?_) h0
  rw [← hx i hi, ← symMat_row (fun i => q.J (s.elementOf i) + U i) V s.atoms.length x hi]
  exact Finset.sum_congr rfl fun j hj => by rw [hB i j hi (Finset.mem_range.1 hj)]

/-! ### Energy as a quadratic form -/

theorem sum_symMat (d : ℕ → ℝ) (V : ℕ → ℕ → ℝ) (n : ℕ) (x y : ℕ → ℝ) :
    ∑ i ∈ Finset.range n, y i * ∑ j ∈ Finset.range n, symMat d V i j * x j =
      ∑ i ∈ Finset.range n, d i * x i * y i +
      ∑ j ∈ Finset.range n, ∑ i ∈ Finset.range j, V i j * (x i * y j + x j * y i) := by
  induction n with
  | zero => simp
  | succ n ih =>
    have h1 : ∀ i ∈ Finset.range n, y i * ∑ j ∈ Finset.range (n + 1), symMat d V i j * x j =
        y i * ∑ j ∈ Finset.range n, symMat d V i j * x j + V i n * (x n * y i) := by
      intro i hi
      have := Finset.mem_range.1 hi
      rw [Finset.sum_range_succ, mul_add, symMat, if_neg (by omega), if_pos (by omega)]
      ring
    have h2 : ∑ j ∈ Finset.range (n + 1), symMat d V n j * x j =
        ∑ j ∈ Finset.range n, V j n * x j + d n * x n := by
      rw [Finset.sum_range_succ]
      congr 1
      · refine Finset.sum_congr rfl fun j hj => ?_
        have := Finset.mem_range.1 hj
        rw [symMat, if_neg (by omega), if_neg (by omega)]
      · rw [symMat, if_pos rfl]
    rw [Finset.sum_range_succ, Finset.sum_congr rfl h1, Finset.sum_add_distrib, ih, h2,
      Finset.sum_range_succ (fun i => d i * x i * y i),
      Finset.sum_range_succ (fun j => ∑ i ∈ Finset.range j, V i j * (x i * y j + x j * y i))]
    have h3 : ∑ i ∈ Finset.range n, V i n * (x i * y n + x n * y i) =
        y n * ∑ j ∈ Finset.range n, V j n * x j + ∑ i ∈ Finset.range n, V i n * (x n * y i) := by
      rw [Finset.mul_sum, ← Finset.sum_add_distrib]
      exact Finset.sum_congr rfl fun i _ => by ring
    rw [h3]
    ring

/-- The quadratic part of the energy. -/
theorem quadratic_eq (d : ℕ → ℝ) (V : ℕ → ℕ → ℝ) (n : ℕ) (x : ℕ → ℝ) :
    1 / 2 * ∑ i ∈ Finset.range n, x i * ∑ j ∈ Finset.range n, symMat d V i j * x j =
      Qeq.coulombEnergy n d V x := by
  rw [sum_symMat, Qeq.coulombEnergy, mul_add]
  congr 1
  · congr 1
    exact Finset.sum_congr rfl fun i _ => by ring
  · rw [Finset.mul_sum]
    refine Finset.sum_congr rfl fun j _ => ?_
    rw [Finset.mul_sum]
    exact Finset.sum_congr rfl fun i _ => by ring

theorem Qeq.total_eq (q : Qeq) (s : Structure) (U : ℕ → ℝ) (V : ℕ → ℕ → ℝ) (x : ℕ → ℝ) :
    q.total s U V x = ∑ i ∈ Finset.range s.atoms.length, (s.atom i).chi * x i +
      Qeq.coulombEnergy s.atoms.length (fun i => q.J (s.elementOf i) + U i) V x := by
  unfold Qeq.total Qeq.coulombEnergy
  rw [← add_assoc, ← add_assoc]
  congr 1
  rw [Finset.mul_sum, Finset.mul_sum, ← Finset.sum_add_distrib, ← Finset.sum_add_distrib]
  exact Finset.sum_congr rfl fun i _ => by ring

end N2P2
