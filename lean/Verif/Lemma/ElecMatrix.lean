import Mathlib.Algebra.BigOperators.Ring.Finset
import Mathlib.Tactic.Linarith
import Mathlib.Tactic.Ring
import Verif.Model.Electrostatics
import Verif.Lemma.ErfcBuf

/-! The matrix of the charge equilibration in closed form. -/

namespace N2P2

theorem loopFrom_induction {S : Type*} {a b : ℕ} {body : ℕ → S → S} {s : S} (P : ℕ → S → Prop)
    (hab : a ≤ b) (h0 : P a s) (hs : ∀ i, a ≤ i → i < b → ∀ t, P i t → P (i + 1) (body i t)) :
    P b (loopFrom a b body s) := by
  have := loop_induction (n := b - a) (b := fun k => body (a + k)) (s := s)
    (fun k t => P (a + k) t) h0 (fun k hk t ht => by
      have := hs (a + k) (by omega) (by omega) t ht
      rwa [show a + (k + 1) = a + k + 1 by omega])
  rwa [Nat.add_sub_cancel' hab] at this

theorem mset_apply {α : Type*} (A : ℕ → ℕ → α) (i j a b : ℕ) (v : α) :
    mset A i j v a b = if a = i ∧ b = j then v else A a b := rfl

/-- Symmetric matrix with given diagonal and upper half. -/
def symMat (d : ℕ → ℝ) (V : ℕ → ℕ → ℝ) : ℕ → ℕ → ℝ := fun a b =>
  if a = b then d a else if a < b then V a b else V b a

theorem symMat_comm (d : ℕ → ℝ) (V : ℕ → ℕ → ℝ) (a b : ℕ) : symMat d V a b = symMat d V b a := by
  unfold symMat
  rcases lt_trichotomy a b with h | h | h
  · rw [if_neg h.ne, if_pos h, if_neg h.ne', if_neg h.not_gt]
  · subst h; rfl
  · rw [if_neg h.ne', if_neg h.not_gt, if_neg h.ne, if_pos h]

/-! ### Without periodic boundary conditions -/

/-- Diagonal entry. -/
noncomputable def openDiag (P : ElecParams) (s : Structure) (i : ℕ) : ℝ :=
  P.hardness (s.atom i).element + 1 / (P.sigmaSqrtPi (s.atom i).element * P.fourPiEps)

/-- Entry of the upper half. -/
noncomputable def openPair (P : ElecParams) (s : Structure) (i j : ℕ) : ℝ :=
  erf (((s.atom i).r - (s.atom j).r).norm / P.gammaSqrt2 (s.atom i).element (s.atom j).element) /
    (((s.atom i).r - (s.atom j).r).norm * P.fourPiEps)

theorem openMatrix_eq (P : ElecParams) (s : Structure) (A : ℕ → ℕ → ℝ) {a b : ℕ}
    (ha : a < s.numAtoms) (hb : b < s.numAtoms) :
    openMatrix P s A a b = symMat (openDiag P s) (openPair P s) a b := by
  have key : ∀ a b, a < s.numAtoms → b < s.numAtoms → min a b < s.numAtoms →
      openMatrix P s A a b = symMat (openDiag P s) (openPair P s) a b := by
    refine loop_induction (fun i (A : ℕ → ℕ → ℝ) => ∀ a b, a < s.numAtoms → b < s.numAtoms →
      min a b < i → A a b = symMat (openDiag P s) (openPair P s) a b) (fun a b _ _ h => by omega) ?_
    intro i hi A ih
    dsimp only
    have := loopFrom_induction (a := i + 1) (b := s.numAtoms)
      (body := fun j A =>
        mset (mset A i j (erf (((s.atom i).r - (s.atom j).r).norm /
            P.gammaSqrt2 (s.atom i).element (s.atom j).element) /
            (((s.atom i).r - (s.atom j).r).norm * P.fourPiEps))) j i
          (mset A i j (erf (((s.atom i).r - (s.atom j).r).norm /
            P.gammaSqrt2 (s.atom i).element (s.atom j).element) /
            (((s.atom i).r - (s.atom j).r).norm * P.fourPiEps)) i j))
      (s := mset A i i (P.hardness (s.atom i).element
        + 1 / (P.sigmaSqrtPi (s.atom i).element * P.fourPiEps)))
      (fun j (B : ℕ → ℕ → ℝ) => ∀ a b, a < s.numAtoms → b < s.numAtoms →
        (min a b < i ∨ (min a b = i ∧ max a b < j)) →
        B a b = symMat (openDiag P s) (openPair P s) a b) (by omega) ?_ ?_
    · intro a b ha hb h
      exact this a b ha hb (by omega)
    · intro a b ha hb h
      rw [mset_apply]
      by_cases h' : a = i ∧ b = i
      · rw [if_pos h']
        obtain ⟨rfl, rfl⟩ := h'
        rw [symMat, if_pos rfl]
        rfl
      · rw [if_neg h']
        exact ih a b ha hb (by omega)
    · intro j h1 h2 B hB a b ha hb h
      simp only [mset_apply]
      by_cases h3 : a = j ∧ b = i
      · rw [if_pos h3, if_pos ⟨trivial, trivial⟩, h3.1, h3.2, symMat_comm, symMat,
          if_neg (by omega), if_pos (by omega)]
        rfl
      · rw [if_neg h3]
        by_cases h4 : a = i ∧ b = j
        · rw [if_pos h4, h4.1, h4.2, symMat, if_neg (by omega), if_pos (by omega)]
          rfl
        · rw [if_neg h4]
          exact hB a b ha hb (by omega)
  exact key a b ha hb (by omega)

/-! ### With periodic boundary conditions -/

/-- Contribution of a neighbour. -/
noncomputable def realTerm (P : ElecParams) (p : EwaldParameters) (e : ℕ) (n : Neighbor) : ℝ :=
  (erfc (n.d / (√2 * p.eta)) - erfc (n.d / P.gammaSqrt2 e n.element)) / (n.d * P.fourPiEps)

/-- The argument of the error function for neighbour `k` of atom `i`. -/
noncomputable def erfcArg (P : ElecParams) (p : EwaldParameters) (s : Structure) (i k v : ℕ) : ℝ :=
  match (s.atom i).neighbors[k]? with
  | none => 0
  | some n => if v = 0 then n.d / (√2 * p.eta)
    else n.d / P.gammaSqrt2 (s.atom i).element n.element

/-- Sum over the first neighbours of atom `i` which belong to atom `j`. -/
noncomputable def realSum (P : ElecParams) (p : EwaldParameters) (s : Structure) (i j m : ℕ) : ℝ :=
  (((s.atom i).neighbors.take m).map fun n =>
    if n.tag = (j : ℤ) then realTerm P p (s.atom i).element n else 0).sum

/-- Reciprocal part. -/
noncomputable def recipSum (P : ElecParams) (kv : List Kvector) (s : Structure) (i j : ℕ) : ℝ :=
  (kv.map fun gv => 2 * gv.coeff * Real.cos (gv.k.dot ((s.atom i).r - (s.atom j).r)) /
    P.fourPiEps).sum

/-- What is needed of the neighbour lists. -/
structure ListsOK (p : EwaldParameters) (s : Structure) : Prop where
  count : s.numAtoms = s.atoms.length
  stored : ∀ i < s.numAtoms, (s.atom i).getStoredMinNumNeighbors p.rCut ≤ (s.atom i).neighbors.length
  num : ∀ i < s.numAtoms, (s.atom i).numNeighbors = (s.atom i).neighbors.length
  tag : ∀ i < s.numAtoms, ∀ n ∈ (s.atom i).neighbors, 0 ≤ n.tag ∧ n.tag < (s.numAtoms : ℤ)
  element : ∀ i < s.numAtoms, ∀ n ∈ (s.atom i).neighbors,
    n.element = (s.atom n.tag.toNat).element

theorem ListsOK.get {p : EwaldParameters} {s : Structure} (h : ListsOK p s) {i : ℕ}
    (hi : i < s.numAtoms) : s.atoms[i]? = some (s.atom i) := by
  have : i < s.atoms.length := h.count ▸ hi
  unfold Structure.atom
  rw [List.getD_eq_getElem?_getD, List.getElem?_eq_getElem this]
  rfl

theorem realSum_succ (P : ElecParams) (p : EwaldParameters) (s : Structure) (i j m : ℕ)
    {n : Neighbor} (hn : (s.atom i).neighbors[m]? = some n) :
    realSum P p s i j (m + 1) = realSum P p s i j m +
      if n.tag = (j : ℤ) then realTerm P p (s.atom i).element n else 0 := by
  unfold realSum
  rw [List.take_add_one, hn]
  simp

theorem foldlM_range_induction {S : Type*} {f : S → ℕ → Option S} (P : ℕ → S → Prop) (n : ℕ) (s : S)
    (h0 : P 0 s) (hs : ∀ i < n, ∀ t, P i t → ∃ t', f t i = some t' ∧ P (i + 1) t') :
    ∃ t, (List.range n).foldlM f s = some t ∧ P n t := by
  induction n with
  | zero => exact ⟨s, rfl, h0⟩
  | succ n ih =>
    obtain ⟨t, h1, h2⟩ := ih fun i hi => hs i (by omega)
    obtain ⟨t', h3, h4⟩ := hs n (by omega) t h2
    refine ⟨t', ?_, h4⟩
    rw [List.range_succ, List.foldlM_append, h1]
    simp [h3]

theorem realPart_eq {P : ElecParams} {p : EwaldParameters} {s : Structure} (h : ListsOK p s) {i : ℕ}
    (hi : i < s.numAtoms) (A : ℕ → ℕ → ℝ) {buf : ErfcBuf}
    (hb : buf.Holds s.atoms 2 (erfcArg P p s)) :
    ∃ B buf', (List.range ((s.atom i).getStoredMinNumNeighbors p.rCut)).foldlM
        (realStep P (√2 * p.eta) s.numAtoms i (s.atom i)) (A, buf) = some (B, buf') ∧
      buf'.Holds s.atoms 2 (erfcArg P p s) ∧
      ∀ a b, B a b = if a = i ∧ i ≤ b then
        A a b + realSum P p s i b ((s.atom i).getStoredMinNumNeighbors p.rCut) else A a b := by
  refine Exists.elim (foldlM_range_induction
    (f := realStep P (√2 * p.eta) s.numAtoms i (s.atom i))
    (fun m (st : (ℕ → ℕ → ℝ) × ErfcBuf) => st.2.Holds s.atoms 2 (erfcArg P p s) ∧
      ∀ a b, st.1 a b = if a = i ∧ i ≤ b then A a b + realSum P p s i b m else A a b)
    ((s.atom i).getStoredMinNumNeighbors p.rCut) (A, buf)
    ⟨hb, fun a b => by simp [realSum]⟩ ?_) ?_
  rotate_left
  · rintro ⟨B, buf'⟩ ⟨h1, h2⟩
    exact ⟨B, buf', h1, h2⟩
  rintro m hm ⟨C, c⟩ ⟨hc, hC⟩
  dsimp only at hc hC
  have hl : m < (s.atom i).neighbors.length := lt_of_lt_of_le hm (h.stored i hi)
  have hn := List.getElem?_eq_getElem hl
  set n := (s.atom i).neighbors[m] with hnd
  have hmem : n ∈ (s.atom i).neighbors := List.getElem_mem hl
  obtain ⟨t0, t1⟩ := h.tag i hi n hmem
  unfold realStep
  rw [hn]
  simp only [Option.bind_eq_bind, Option.bind_some]
  rw [if_neg (by omega)]
  by_cases hlt : n.tag.toNat < i
  · rw [if_pos hlt]
    refine ⟨_, rfl, hc, fun a b => ?_⟩
    dsimp only
    rw [hC, realSum_succ P p s i b m hn]
    by_cases hab : a = i ∧ i ≤ b
    · rw [if_pos hab, if_pos hab, if_neg (by omega), add_zero]
    · rw [if_neg hab, if_neg hab]
  · rw [if_neg hlt]
    have hk : m < (s.atom i).numNeighbors := by rw [h.num i hi]; exact hl
    obtain ⟨c1, e1, hc1⟩ := hc.getf (h.get hi) hk (v := 0) (by norm_num)
    obtain ⟨c2, e2, hc2⟩ := hc1.getf (h.get hi) hk (v := 1) (by norm_num)
    have x0 : erfcArg P p s i m 0 = n.d / (√2 * p.eta) := by
      unfold erfcArg; rw [hn]; rfl
    have x1 : erfcArg P p s i m 1 = n.d / P.gammaSqrt2 (s.atom i).element n.element := by
      unfold erfcArg; rw [hn]; rfl
    rw [x0] at e1
    rw [x1] at e2
    simp only [e1, Option.bind_some, e2]
    refine ⟨_, rfl, hc2, fun a b => ?_⟩
    dsimp only
    rw [mset_apply, realSum_succ P p s i b m hn]
    by_cases hab : a = i ∧ b = n.tag.toNat
    · obtain ⟨rfl, rfl⟩ := hab
      rw [if_pos ⟨rfl, rfl⟩, hC, if_pos ⟨rfl, by omega⟩, if_pos ⟨rfl, by omega⟩,
        if_pos (by omega)]
      unfold realTerm
      ring
    · rw [if_neg hab, hC]
      by_cases hab' : a = i ∧ i ≤ b
      · rw [if_pos hab', if_pos hab', if_neg (by omega), add_zero]
      · rw [if_neg hab', if_neg hab']

theorem recipFold (P : ElecParams) (kv : List Kvector) (s : Structure) (i j : ℕ) (A : ℕ → ℕ → ℝ) :
    kv.foldl (fun A gv => mset A i j (A i j + 2 * gv.coeff *
      Real.cos (gv.k.dot ((s.atom i).r - (s.atom j).r)) / P.fourPiEps)) A =
    mset A i j (A i j + recipSum P kv s i j) := by
  induction kv generalizing A with
  | nil =>
    funext a b
    simp only [List.foldl_nil, recipSum, List.map_nil, List.sum_nil, add_zero, mset_apply]
    by_cases h : a = i ∧ b = j
    · rw [if_pos h, h.1, h.2]
    · rw [if_neg h]
  | cons g kv ih =>
    rw [List.foldl_cons, ih]
    funext a b
    simp only [mset_apply, recipSum, List.map_cons, List.sum_cons]
    by_cases h : a = i ∧ b = j
    · rw [if_pos h, if_pos h, if_pos ⟨trivial, trivial⟩]
      ring
    · rw [if_neg h, if_neg h, if_neg h]

theorem recipRow_eq (P : ElecParams) (kv : List Kvector) (s : Structure) {i : ℕ}
    (hi : i < s.numAtoms) (A : ℕ → ℕ → ℝ) (a b : ℕ) (ha : a < s.numAtoms) (hb : b < s.numAtoms) :
    recipRow P kv s i A a b =
      if a = i ∧ i ≤ b then A i b + recipSum P kv s i b
      else if b = i ∧ i ≤ a then A i a + recipSum P kv s i a else A a b := by
  have := loopFrom_induction (a := i) (b := s.numAtoms) (s := A)
    (body := fun j A =>
      mset (kv.foldl (fun A gv => mset A i j (A i j + 2 * gv.coeff *
        Real.cos (gv.k.dot ((s.atom i).r - (s.atom j).r)) / P.fourPiEps)) A) j i
      ((kv.foldl (fun A gv => mset A i j (A i j + 2 * gv.coeff *
        Real.cos (gv.k.dot ((s.atom i).r - (s.atom j).r)) / P.fourPiEps)) A) i j))
    (fun j (B : ℕ → ℕ → ℝ) => ∀ a b, B a b =
      if a = i ∧ i ≤ b ∧ b < j then A i b + recipSum P kv s i b
      else if b = i ∧ i ≤ a ∧ a < j then A i a + recipSum P kv s i a else A a b) (by omega)
    (fun a b => by rw [if_neg (by omega), if_neg (by omega)]) ?_
  · have h := this a b
    unfold recipRow
    dsimp only
    rw [h]
    simp only [ha, hb, and_true]
  · intro j h1 h2 B hB a b
    rw [recipFold]
    simp only [mset_apply, and_self, if_true]
    by_cases c1 : a = j ∧ b = i
    · obtain ⟨rfl, rfl⟩ := c1
      rw [if_pos ⟨rfl, rfl⟩]
      have e : B b a = A b a := by rw [hB, if_neg (by omega), if_neg (by omega)]
      rw [e]
      by_cases c2 : a = b
      · subst c2
        rw [if_pos ⟨rfl, le_rfl, by omega⟩]
      · rw [if_neg (by omega), if_pos ⟨rfl, h1, by omega⟩]
    · rw [if_neg c1]
      by_cases c2 : a = i ∧ b = j
      · obtain ⟨rfl, rfl⟩ := c2
        rw [if_pos ⟨rfl, rfl⟩, hB, if_neg (by omega), if_neg (by omega),
          if_pos ⟨rfl, h1, by omega⟩]
      · rw [if_neg c2, hB]
        by_cases c3 : a = i ∧ i ≤ b ∧ b < j
        · rw [if_pos c3, if_pos (by omega)]
        · rw [if_neg c3]
          by_cases c4 : b = i ∧ i ≤ a ∧ a < j
          · rw [if_pos c4, if_neg (by omega), if_pos (by omega)]
          · rw [if_neg c4, if_neg (by omega), if_neg (by omega)]

/-- Diagonal entry, with the sum over own images. -/
noncomputable def ewaldDiag (P : ElecParams) (p : EwaldParameters) (kv : List Kvector)
    (s : Structure) (i : ℕ) : ℝ :=
  P.hardness (s.atom i).element + (1 / P.sigmaSqrtPi (s.atom i).element
    - 2 / (√2 * p.eta * √Real.pi)) / P.fourPiEps
  + realSum P p s i i ((s.atom i).getStoredMinNumNeighbors p.rCut) + recipSum P kv s i i

/-- Entry of the upper half. -/
noncomputable def ewaldPair (P : ElecParams) (p : EwaldParameters) (kv : List Kvector)
    (s : Structure) (i j : ℕ) : ℝ :=
  realSum P p s i j ((s.atom i).getStoredMinNumNeighbors p.rCut) + recipSum P kv s i j

theorem periodicMatrix_eq {P : ElecParams} {p : EwaldParameters} {s : Structure} (h : ListsOK p s)
    (hsort : s.neighborListIsSorted = true) {g : KspaceGrid}
    (hg : KspaceGrid.init.setup s.box p = some g) {buf : ErfcBuf}
    (hb : buf.Holds s.atoms 2 (erfcArg P p s)) :
    ∃ B buf', periodicMatrix P p s (fun _ _ => 0) buf = some (B, buf') ∧
      buf'.Holds s.atoms 2 (erfcArg P p s) ∧ ∀ a b, a < s.numAtoms → b < s.numAtoms →
      B a b = symMat (ewaldDiag P p g.kvectors s) (ewaldPair P p g.kvectors s) a b := by
  refine Exists.elim (foldlM_range_induction
    (f := periodicRow P p g.kvectors s)
    (fun i (st : (ℕ → ℕ → ℝ) × ErfcBuf) => st.2.Holds s.atoms 2 (erfcArg P p s) ∧
      ∀ a b, a < s.numAtoms → b < s.numAtoms → st.1 a b = if min a b < i then
        symMat (ewaldDiag P p g.kvectors s) (ewaldPair P p g.kvectors s) a b else 0)
    s.numAtoms ((fun _ _ => 0), buf) ⟨hb, fun a b _ _ => by rw [if_neg (by omega)]⟩ ?_) ?_
  rotate_left
  · rintro ⟨B, buf'⟩ ⟨h1, h2, h3⟩
    refine ⟨B, buf', ?_, h2, fun a b ha hb' => ?_⟩
    · unfold periodicMatrix
      rw [if_neg (by simp [hsort]), hg]
      exact h1
    · exact (h3 a b ha hb').trans (if_pos (by omega))
  rintro i hi ⟨C, c⟩ ⟨hc, hC⟩
  dsimp only at hc hC
  unfold periodicRow
  dsimp only
  obtain ⟨B, c', e, hc', hB⟩ := realPart_eq (P := P) h hi (mset C i i (C i i +
    (P.hardness (s.atom i).element + (1 / P.sigmaSqrtPi (s.atom i).element
      - 2 / (√2 * p.eta * √Real.pi)) / P.fourPiEps))) hc
  rw [e]
  refine ⟨_, rfl, hc', fun a b ha hb' => ?_⟩
  dsimp only
  rw [recipRow_eq _ _ _ hi _ _ _ ha hb']
  have row : ∀ b, b < s.numAtoms → i ≤ b → B i b + recipSum P g.kvectors s i b =
      symMat (ewaldDiag P p g.kvectors s) (ewaldPair P p g.kvectors s) i b := by
    intro b hb' hib
    rw [hB, if_pos ⟨rfl, hib⟩, mset_apply]
    have z : C i b = 0 := by rw [hC i b hi hb', if_neg (by omega)]
    by_cases hbi : b = i
    · subst hbi
      rw [if_pos ⟨rfl, rfl⟩, symMat, if_pos rfl, z]
      unfold ewaldDiag
      ring
    · rw [if_neg (by omega), symMat, if_neg (by omega), if_pos (by omega), z]
      unfold ewaldPair
      ring
  by_cases c1 : a = i ∧ i ≤ b
  · obtain ⟨rfl, h2⟩ := c1
    rw [if_pos ⟨rfl, h2⟩, if_pos (by omega), row b hb' h2]
  · rw [if_neg c1]
    by_cases c2 : b = i ∧ i ≤ a
    · obtain ⟨rfl, h2⟩ := c2
      rw [if_pos ⟨rfl, h2⟩, if_pos (by omega), row a ha h2, symMat_comm]
    · rw [if_neg c2, hB, if_neg c1, mset_apply, if_neg (by omega), hC a b ha hb']
      by_cases c3 : min a b < i
      · rw [if_pos c3, if_pos (by omega)]
      · rw [if_neg c3, if_neg (by omega)]

end N2P2
