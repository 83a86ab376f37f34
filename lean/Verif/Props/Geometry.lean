import Mathlib.Tactic.NormNum
import Verif.Lemma.ListAux
import Verif.Lemma.NeighborRebuild

/-! Properties C23 - C29 and C61: box geometry and neighbour lists. -/

namespace N2P2

/-- A cubic box, used in the examples. -/
def cube (l : ℝ) : Fin 3 → Vec3 := ![![l, 0, 0], ![0, l, 0], ![0, 0, l]]

theorem nonSingular_cube {l : ℝ} (h : l ≠ 0) : NonSingular (cube l) := by
  rw [nonSingular_iff]
  simp [boxDet, cube, h]

/-- C23: the computed inverse box converts between Cartesian and fractional coordinates, in both
directions. -/
theorem C23_inverse_box (s : Structure) (h : NonSingular s.box) :
    (∀ r, cartesian s.box (matVec s.calculateInverseBox.invbox r) = r) ∧
    (∀ f, matVec s.calculateInverseBox.invbox (cartesian s.box f) = f) :=
  ⟨box_inv s h, inv_box s h⟩

/-- C23: the reported volume is the absolute determinant of the box vectors. -/
theorem C23_volume (s : Structure) :
    s.calculateVolume.volume = |Matrix.det (Matrix.of s.box)| := by
  rw [det_eq, ← triple_eq]
  rfl

example : NonSingular ({ Structure.init with box := cube 10 } : Structure).box :=
  nonSingular_cube (by norm_num)

/-- C24: after remapping every atom lies in the box and has moved by a lattice vector; everything
else is unchanged. -/
theorem C24_remap (s s' : Structure) (h : NonSingular s.box)
    (hr : s.calculateInverseBox.remap = some s') :
    s'.atoms.length = s.atoms.length ∧
    ∀ (i : ℕ) a, s.atoms[i]? = some a → ∃ a' n, s'.atoms[i]? = some a' ∧
      InBox s.box a'.r ∧ a'.r = a.r + shift s.box n ∧ a' = { a with r := a'.r } := by
  unfold Structure.remap at hr
  obtain ⟨atoms, h1, rfl⟩ := Option.map_eq_some_iff.1 hr
  obtain ⟨hl, hm⟩ := mapM_some h1
  refine ⟨hl, fun i a ha => ?_⟩
  obtain ⟨a', g1, g2⟩ := hm i a ha
  obtain ⟨r', g3, rfl⟩ := Option.map_eq_some_iff.1 g2
  obtain ⟨k1, n, k2⟩ := remapPosition_spec s h g3
  exact ⟨_, n, g1, k1, k2, rfl⟩

/-- C24: remapping twice is the same as remapping once. -/
theorem C24_idempotent (s s' : Structure) (h : NonSingular s.box)
    (hr : s.calculateInverseBox.remap = some s') : s'.remap = some s' := by
  obtain ⟨hl, hat⟩ := C24_remap s s' h hr
  have hbox : s'.box = s.box ∧ s'.invbox = s.calculateInverseBox.invbox := by
    unfold Structure.remap at hr
    obtain ⟨atoms, -, rfl⟩ := Option.map_eq_some_iff.1 hr
    exact ⟨rfl, rfl⟩
  have hpos : ∀ r, s'.remapPosition r = s.calculateInverseBox.remapPosition r := by
    intro r
    unfold Structure.remapPosition
    rw [hbox.1, hbox.2]; rfl
  unfold Structure.remap
  rw [mapM_id]
  · rfl
  · intro a ha
    obtain ⟨i, hi⟩ := List.mem_iff_getElem?.1 ha
    have hlt : i < s.atoms.length := by
      rw [← hl]; exact (List.getElem?_eq_some_iff.1 hi).1
    obtain ⟨a', n, g1, g2, -⟩ := hat i _ (List.getElem?_eq_getElem hlt)
    rw [hi] at g1; cases g1
    rw [hpos, remapPosition_id s h g2]
    rfl

/-- C24: remapping is well defined as long as all fractional coordinates can be truncated to an
`int`. -/
theorem C24_defined (s : Structure) (h : NonSingular s.box)
    (hr : ∀ a ∈ s.atoms, ∃ f, a.r = cartesian s.box f ∧
      ∀ k, -2147483649 < f k ∧ f k < 2147483648) :
    ∃ s', s.calculateInverseBox.remap = some s' := by
  unfold Structure.remap
  obtain ⟨m, hm⟩ := mapM_exists (f := fun a : Atom =>
      (s.calculateInverseBox.remapPosition a.r).map (fun r => { a with r := r }))
    (l := s.calculateInverseBox.atoms) (by
      intro a ha
      obtain ⟨f, hf, hb⟩ := hr a ha
      have e : (a.r 0 • s.calculateInverseBox.invbox 0 + a.r 1 • s.calculateInverseBox.invbox 1 +
          a.r 2 • s.calculateInverseBox.invbox 2) = f := by
        rw [cartesian_three]
        conv_rhs => rw [← inv_box s h f, ← hf]
        rw [matVec_eq]
        congr 1; funext k; fin_cases k <;> rfl
      obtain ⟨g0, h0⟩ := wrapCoord_defined (hb 0).1 (hb 0).2
      obtain ⟨g1, h1⟩ := wrapCoord_defined (hb 1).1 (hb 1).2
      obtain ⟨g2, h2⟩ := wrapCoord_defined (hb 2).1 (hb 2).2
      unfold Structure.remapPosition
      simp only [e, h0, h1, h2]
      exact ⟨_, rfl⟩)
  rw [hm]
  exact ⟨_, rfl⟩

/-- A cubic box with an atom outside. -/
noncomputable def outside : Structure :=
  { Structure.init with box := cube 10, atoms := [{ Atom.init with r := ![25, -3, 10] }] }

/-- Example: an atom outside a cubic box is remapped. -/
example : ∃ s', (outside).calculateInverseBox.remap = some s' :=
  C24_defined _ (nonSingular_cube (by norm_num)) (by
    intro a ha
    simp only [outside, List.mem_singleton] at ha
    subst ha
    refine ⟨![2.5, -0.3, 1], ?_, ?_⟩
    · funext k; fin_cases k <;> simp [outside, cartesian, cube, Fin.sum_univ_three] <;> norm_num
    · intro k; fin_cases k <;> simp <;> norm_num)

/-- C25: if the check allows the minimum image convention for a cutoff, the routine returns the
image of `dr` that is within the cutoff, whenever there is one. -/
theorem C25_minimum_image (s : Structure) (h : NonSingular s.box) (cutoff : ℝ)
    (hc : s.calculateInverseBox.canMinimumImageConventionBeApplied cutoff) (dr : Vec3)
    (n : Fin 3 → ℤ) (hn : len (dr + shift s.box n) ≤ cutoff) :
    s.calculateInverseBox.applyMinimumImageConvention dr = dr + shift s.box n := by
  have hf := box_inv s h dr
  set f := matVec s.calculateInverseBox.invbox dr with hfdef
  have hdr : dr + shift s.box n = cartesian s.box (f + fun k => (n k : ℝ)) := by
    rw [cartesian_add, hf, shift_eq]
  have hk : ∀ k, |f k - ((-n k : ℤ) : ℝ)| < 1 / 2 := by
    intro k
    have hp := boxProj_pos h k
    have hb := boxProj_bound h (f + fun k => (n k : ℝ)) k
    rw [len_eq, hdr] at hn
    have hcut : cutoff < boxProj s.box k / 2 := by
      have h0 : cutoff < min (boxProj s.box 0) (min (boxProj s.box 1) (boxProj s.box 2)) / 2 := hc
      have h1 : min (boxProj s.box 0) (min (boxProj s.box 1) (boxProj s.box 2)) ≤
          boxProj s.box k := by
        fin_cases k
        · exact min_le_left _ _
        · exact (min_le_right _ _).trans (min_le_left _ _)
        · exact (min_le_right _ _).trans (min_le_right _ _)
      linarith
    have : |f k + n k| * boxProj s.box k < 1 / 2 * boxProj s.box k := by
      have : |f k + n k| * boxProj s.box k ≤ cutoff := hb.trans hn
      linarith
    have := lt_of_mul_lt_mul_right this hp.le
    push_cast
    rwa [sub_neg_eq_add]
  unfold Structure.applyMinimumImageConvention
  simp only
  rw [matVec_eq, ← hfdef]
  show cartesian s.box _ = _
  rw [hdr]
  congr 1
  funext k
  simp only [Pi.sub_apply, Pi.add_apply]
  rw [cround_eq (hk k)]
  push_cast; ring

/-- C25: in that case the image within the cutoff is unique and is the shortest of all images. -/
theorem C25_unique_nearest (s : Structure) (h : NonSingular s.box) (cutoff : ℝ)
    (hc : s.calculateInverseBox.canMinimumImageConventionBeApplied cutoff) (dr : Vec3)
    (n : Fin 3 → ℤ) (hn : len (dr + shift s.box n) ≤ cutoff) (m : Fin 3 → ℤ) (hm : m ≠ n) :
    cutoff < len (dr + shift s.box m) ∧
      len (s.calculateInverseBox.applyMinimumImageConvention dr) < len (dr + shift s.box m) := by
  have h1 : cutoff < len (dr + shift s.box m) := by
    by_contra hle
    push Not at hle
    have e1 := C25_minimum_image s h cutoff hc dr n hn
    have e2 := C25_minimum_image s h cutoff hc dr m hle
    rw [e1] at e2
    exact hm (shift_inj h (add_left_cancel e2)).symm
  refine ⟨h1, ?_⟩
  rw [C25_minimum_image s h cutoff hc dr n hn]
  exact lt_of_le_of_lt hn h1

/-- C25: for any distance vector the routine returns some image. -/
theorem C25_returns_image (s : Structure) (h : NonSingular s.box) (dr : Vec3) :
    ∃ n, s.calculateInverseBox.applyMinimumImageConvention dr = dr + shift s.box n := by
  have hf := box_inv s h dr
  set f := matVec s.calculateInverseBox.invbox dr with hfdef
  choose n hn using fun k => cround_int (f k)
  refine ⟨fun k => -n k, ?_⟩
  unfold Structure.applyMinimumImageConvention
  simp only
  rw [matVec_eq, ← hfdef, shift_eq]
  conv_rhs => rw [← hf]
  rw [← cartesian_add]
  show cartesian s.box _ = _
  congr 1
  funext k
  simp only [Pi.sub_apply, Pi.add_apply]
  rw [hn]; push_cast; ring

/-- Heights of a cubic box. -/
theorem boxProj_cube {l : ℝ} (h : 0 < l) (k : Fin 3) : boxProj (cube l) k = l := by
  have e : √(l * l * (l * l)) = l * l := Real.sqrt_mul_self (by positivity)
  have hl : l ≠ 0 := h.ne'
  fin_cases k <;>
    simp [boxProj, cube, Vec3.dot, Vec3.cross, Vec3.normalize, Vec3.norm, e] <;>
    field_simp <;> simp [abs_of_pos h]

example : ({ Structure.init with box := cube 10 } : Structure).calculateInverseBox
    |>.canMinimumImageConventionBeApplied 4 := by
  show (4 : ℝ) < min (boxProj (cube 10) 0) (min (boxProj (cube 10) 1) (boxProj (cube 10) 2)) / 2
  rw [boxProj_cube (by norm_num), boxProj_cube (by norm_num), boxProj_cube (by norm_num)]
  norm_num

example : len ((![9, 0, 0] : Vec3) + shift (cube 10) ![-1, 0, 0]) ≤ 4 := by
  have e : (∑ k, ((![9, 0, 0] : Vec3) + shift (cube 10) ![-1, 0, 0]) k ^ 2) = 1 := by
    simp [shift, cube, Fin.sum_univ_three]; norm_num
  unfold len
  rw [e, Real.sqrt_one]; norm_num

theorem fresh_cleared {s : Structure} (hf : s.Fresh) : ∀ a ∈ s.atoms, Cleared a := by
  intro a ha
  obtain ⟨⟨h1, h2, h3, h4, -, -⟩, -⟩ := hf a ha
  exact ⟨h1, h2, h3, h4⟩

/-- C26: building a neighbour list ends, and the list of atom `i` describes each image within the
cutoff exactly once, and nothing else. This covers periodic structures (with all atoms in the box)
and non-periodic ones. -/
theorem C26_complete_and_sound (srt : List Neighbor → List Neighbor) (hsrt : IsSort srt)
    (s : Structure) (hf : s.Fresh) (hb : Boxed s) (rc : ℝ)
    (hrc : 0 ≤ max rc s.maxCutoffRadiusOverall) (sortByDistance : Bool) :
    ∃ s', s.calculateNeighborList srt rc sortByDistance = some s' ∧
      s'.atoms.length = s.atoms.length ∧
      ∀ (i : ℕ) a', s'.atoms[i]? = some a' →
        ∃ imgs : List (ℕ × (Fin 3 → ℤ)), imgs.Nodup ∧
          (∀ p, p ∈ imgs ↔ IsImage s (max rc s.maxCutoffRadiusOverall) i p) ∧
          List.Forall₂ (fun nb p => nb.Describes s.box s.atoms a'.r p.1 p.2) a'.neighbors imgs := by
  obtain ⟨s', e, hsame, -, -, hat⟩ := build_cleared hsrt hrc hb (fresh_cleared hf) sortByDistance
  refine ⟨s', e, by simpa using congrArg List.length hsame.atoms, fun i a' ha' => ?_⟩
  obtain ⟨a, ha, -⟩ := hsame.symm.get ha'
  obtain ⟨a'', h1, -, -, -, -, h2, -⟩ := hat i a ha
  rw [ha'] at h1; cases h1
  exact h2.imgs

/-- C26: no entry occurs twice: two entries of a list differ in the atom or the distance vector. -/
theorem C26_no_duplicates (srt : List Neighbor → List Neighbor) (hsrt : IsSort srt)
    (s : Structure) (hf : s.Fresh) (hb : Boxed s) (rc : ℝ)
    (hrc : 0 ≤ max rc s.maxCutoffRadiusOverall) (sortByDistance : Bool) (s' : Structure)
    (hs' : s.calculateNeighborList srt rc sortByDistance = some s') (a' : Atom)
    (ha' : a' ∈ s'.atoms) : (a'.neighbors.map (fun nb => (nb.index, nb.dr))).Nodup := by
  obtain ⟨s'', e, -, hat⟩ := C26_complete_and_sound srt hsrt s hf hb rc hrc sortByDistance
  rw [hs'] at e; cases e
  obtain ⟨i, hi⟩ := List.mem_iff_getElem?.1 ha'
  obtain ⟨imgs, hnd, hmem, hd⟩ := hat i a' hi
  have key : ∀ (l : List Neighbor) (m : List (ℕ × (Fin 3 → ℤ))), m.Nodup →
      (∀ p ∈ m, IsImage s (max rc s.maxCutoffRadiusOverall) i p) →
      List.Forall₂ (fun nb p => nb.Describes s.box s.atoms a'.r p.1 p.2) l m →
      (l.map (fun nb => (nb.index, nb.dr))).Nodup := by
    intro l m hm him hl
    induction hl with
    | nil => simp
    | cons hx ht ih =>
      rename_i nb p l' m'
      rw [List.nodup_cons] at hm
      rw [List.map_cons, List.nodup_cons]
      refine ⟨?_, ih hm.2 (fun q hq => him q (List.mem_cons_of_mem _ hq))⟩
      intro hmem'
      obtain ⟨nb', hnb', e⟩ := List.mem_map.1 hmem'
      obtain ⟨q, hq, b', g1, g2, -, -, g3, -⟩ := forall₂_fwd ht nb' hnb'
      obtain ⟨b, k1, k2, -, -, k3, -⟩ := hx
      simp only [Prod.mk.injEq] at e
      have hpq : p.1 = q.1 := by rw [← k2, ← g2, e.1]
      have hbb : b = b' := by
        rw [hpq, g1] at k1; exact (Option.some.inj k1).symm
      subst hbb
      have hsh : shift s.box p.2 = shift s.box q.2 := by
        have := e.2
        rw [g3, k3] at this
        exact (add_left_cancel this).symm
      have hp2 : p.2 = q.2 := by
        cases hper : s.isPeriodic with
        | true => exact shift_inj (hb hper).1 hsh
        | false =>
          obtain ⟨_, _, -, -, z1, -⟩ := him p List.mem_cons_self
          obtain ⟨_, _, -, -, z2, -⟩ := him q (List.mem_cons_of_mem _ hq)
          simp only [hper, Bool.false_eq_true, false_or] at z1 z2
          rw [z1, z2]
      exact hm.1 (by rw [show p = q from Prod.ext hpq hp2]; exact hq)
  exact key _ _ hnd (fun p hp => (hmem p).1 hp) hd

/-- C27: atom `j` is a neighbour of atom `i` with distance vector `v` exactly if atom `i` is a
neighbour of atom `j` with distance vector `-v`. -/
theorem C27_symmetric (srt : List Neighbor → List Neighbor) (hsrt : IsSort srt)
    (s : Structure) (hf : s.Fresh) (hb : Boxed s) (rc : ℝ)
    (hrc : 0 ≤ max rc s.maxCutoffRadiusOverall) (sortByDistance : Bool) (s' : Structure)
    (hs' : s.calculateNeighborList srt rc sortByDistance = some s') (i j : ℕ) (a b : Atom)
    (ha : s'.atoms[i]? = some a) (hb' : s'.atoms[j]? = some b) (v : Vec3) :
    (∃ nb ∈ a.neighbors, nb.index = j ∧ nb.dr = v) ↔
      (∃ nb ∈ b.neighbors, nb.index = i ∧ nb.dr = -v) := by
  have half : ∀ (i j : ℕ) (a b : Atom) (v : Vec3), s'.atoms[i]? = some a →
      s'.atoms[j]? = some b → (∃ nb ∈ a.neighbors, nb.index = j ∧ nb.dr = v) →
      (∃ nb ∈ b.neighbors, nb.index = i ∧ nb.dr = -v) := by
    intro i j a b v ha hb' hex
    obtain ⟨s'', e, hsame, -, -, hat⟩ :=
      build_cleared hsrt hrc hb (fresh_cleared hf) sortByDistance
    rw [hs'] at e; cases e
    obtain ⟨a0, ha0, hra, -⟩ := hsame.symm.get ha
    obtain ⟨b0, hb0, hrb, -⟩ := hsame.symm.get hb'
    obtain ⟨a1, x1, -, -, -, -, lok, -⟩ := hat i a0 ha0
    rw [ha] at x1; cases x1
    obtain ⟨b1, y1, -, -, -, -, lok', -⟩ := hat j b0 hb0
    rw [hb'] at y1; cases y1
    obtain ⟨imgs, -, hmem, hd⟩ := lok.imgs
    obtain ⟨imgs', -, hmem', hd'⟩ := lok'.imgs
    obtain ⟨nb, hnb, hj, hv⟩ := hex
    obtain ⟨⟨j', n⟩, hp, c, c1, c2, -, -, c3, -⟩ := forall₂_fwd hd nb hnb
    have hj' : j' = j := c2.symm.trans hj
    subst hj'
    have himg := isImage_symm ((hmem _).1 hp)
    obtain ⟨nb', hnb', d, d1, d2, -, -, d3, -⟩ := forall₂_bwd hd' _ ((hmem' _).2 himg)
    refine ⟨nb', hnb', d2, ?_⟩
    simp only at c1 c3 d1 d3
    rw [hb0] at c1; cases c1
    rw [ha0] at d1; cases d1
    rw [d3, ← hv, c3, shift_neg, hra, hrb]
    abel
  refine ⟨half i j a b v ha hb', fun h => ?_⟩
  have := half j i b a (-v) hb' ha h
  rwa [neg_neg] at this

/-- A fresh structure with two atoms of one element, one unit apart. -/
noncomputable def twoAtoms (x : ℝ) : Structure :=
  { Structure.init with
    numAtoms := 2, numElements := 1, numElementsPresent := 1
    numAtomsPerElement := [2]
    atoms := [{ Atom.init with numNeighborsPerElement := [0] },
      { Atom.init with index := 1, tag := 1, r := ![x, 0, 0], numNeighborsPerElement := [0] }] }

theorem twoAtoms_fresh (x : ℝ) : (twoAtoms x).Fresh := by
  intro a ha
  simp only [twoAtoms, List.mem_cons, List.not_mem_nil, or_false] at ha
  rcases ha with rfl | rfl
  all_goals exact ⟨⟨rfl, rfl, rfl, rfl, rfl, rfl⟩, Nat.zero_lt_one⟩

/-- The same two atoms in a cubic box. -/
noncomputable def twoAtomsBox : Structure :=
  { twoAtoms 1 with isPeriodic := true, box := cube 10 }

example : twoAtomsBox.Fresh := twoAtoms_fresh 1

example : Boxed twoAtomsBox := by
  intro _
  refine ⟨nonSingular_cube (by norm_num), ?_⟩
  intro a ha
  simp only [twoAtomsBox, twoAtoms, List.mem_cons, List.not_mem_nil, or_false] at ha
  rcases ha with rfl | rfl
  · exact ⟨0, fun k => ⟨le_refl _, by simp⟩, by simp [cartesian, Atom.init]⟩
  · refine ⟨![1 / 10, 0, 0], fun k => ?_, ?_⟩
    · fin_cases k
      · simp; norm_num
      · simp
      · simp
    · funext k
      fin_cases k <;> simp [cartesian, cube, Fin.sum_univ_three, twoAtomsBox]

theorem twoAtoms_boxed (x : ℝ) : Boxed (twoAtoms x) := by
  intro h; cases h

/-- There is a sorting function. -/
theorem exists_isSort : ∃ srt, IsSort srt := by
  classical
  refine ⟨fun l => l.insertionSort (fun a b => a.d ≤ b.d), fun l => ⟨List.perm_insertionSort _ _, ?_⟩⟩
  have : Std.Total (fun a b : Neighbor => a.d ≤ b.d) := ⟨fun a b => le_total _ _⟩
  have : IsTrans Neighbor (fun a b : Neighbor => a.d ≤ b.d) := ⟨fun a b c => le_trans⟩
  exact List.pairwise_insertionSort _ _

/-- C28: on a fresh structure the number of neighbours is the list length, the per-element counters
count the entries of each element, and the unique-neighbour list consists of the atom itself
followed by each other neighbouring atom once. -/
theorem C28_counters (srt : List Neighbor → List Neighbor) (hsrt : IsSort srt)
    (s : Structure) (hf : s.Fresh) (hb : Boxed s) (rc : ℝ)
    (hrc : 0 ≤ max rc s.maxCutoffRadiusOverall) (sortByDistance : Bool) (s' : Structure)
    (hs' : s.calculateNeighborList srt rc sortByDistance = some s') (i : ℕ) (a : Atom)
    (ha : s'.atoms[i]? = some a) :
    a.numNeighbors = a.neighbors.length ∧
    (∀ e < s.numElements, a.numNeighborsPerElement[e]? =
      some (a.neighbors.countP (fun nb => nb.element = e))) ∧
    ∃ U : List ℕ, a.neighborsUnique = i :: U ∧ a.numNeighborsUnique = U.length + 1 ∧
      (i :: U).Nodup ∧ ∀ k, k ∈ U ↔ k ≠ i ∧ ∃ nb ∈ a.neighbors, nb.index = k := by
  obtain ⟨s'', e, hsame, -, -, hat⟩ :=
    build_cleared hsrt hrc hb (fresh_cleared hf) sortByDistance
  rw [hs'] at e; cases e
  obtain ⟨a0, ha0, -⟩ := hsame.symm.get ha
  obtain ⟨a1, x1, -, -, -, -, lok, hcnt⟩ := hat i a0 ha0
  rw [ha] at x1; cases x1
  refine ⟨lok.num, fun e he => ?_, lok.uniq⟩
  obtain ⟨⟨-, -, -, -, h5, -⟩, -⟩ := hf a0 (List.mem_of_getElem? ha0)
  rw [hcnt, h5, List.getElem?_replicate, if_pos he]
  simp

/-- `k` times "clear the neighbour list and build it again", after a first build. -/
noncomputable def rebuilds (srt : List Neighbor → List Neighbor) (s : Structure) (rc : ℝ)
    (sortByDistance : Bool) : ℕ → Option Structure
  | 0 => s.calculateNeighborList srt rc sortByDistance
  | k + 1 => (rebuilds srt s rc sortByDistance k).bind
      (fun t => t.clearNeighborList.calculateNeighborList srt rc sortByDistance)

/-- C28, rebuilding. After any number of rebuilds the number of neighbours and the unique-neighbour
list are right. The per-element counters are not: they are `k + 1` times the number of entries
after `k` rebuilds, because clearing does not reset them. What is missing from the property is that
the per-element counters are right for `k > 0`; this is false, see `C28_rebuild_negated`. -/
theorem C28_rebuild_partial (srt : List Neighbor → List Neighbor) (hsrt : IsSort srt)
    (s : Structure) (hf : s.Fresh) (hb : Boxed s) (rc : ℝ)
    (hrc : 0 ≤ max rc s.maxCutoffRadiusOverall) (sortByDistance : Bool) (k : ℕ) :
    ∃ t, rebuilds srt s rc sortByDistance k = some t ∧
      t.atoms.length = s.atoms.length ∧
      ∀ (i : ℕ) a, t.atoms[i]? = some a →
        a.numNeighbors = a.neighbors.length ∧
        (∀ e < s.numElements, a.numNeighborsPerElement[e]? =
          some ((k + 1) * a.neighbors.countP (fun nb => nb.element = e))) ∧
        (∃ U : List ℕ, a.neighborsUnique = i :: U ∧ a.numNeighborsUnique = U.length + 1 ∧
          (i :: U).Nodup ∧ ∀ k, k ∈ U ↔ k ≠ i ∧ ∃ nb ∈ a.neighbors, nb.index = k) ∧
        ∃ imgs : List (ℕ × (Fin 3 → ℤ)), imgs.Nodup ∧
          (∀ p, p ∈ imgs ↔ IsImage s (max rc s.maxCutoffRadiusOverall) i p) ∧
          List.Forall₂ (fun nb p => nb.Describes s.box s.atoms a.r p.1 p.2) a.neighbors imgs := by
  have main : ∀ k, ∃ t, rebuilds srt s rc sortByDistance k = some t ∧ SameShape s t ∧
      ∀ (i : ℕ) a, t.atoms[i]? = some a → ∃ u, SameShape s u ∧
        ListOk u (max rc s.maxCutoffRadiusOverall) i a ∧
        a.numNeighborsPerElement.length = s.numElements ∧
        (∀ e < s.numElements, a.numNeighborsPerElement[e]? =
          some ((k + 1) * (elementImages s (max rc s.maxCutoffRadiusOverall) i e).ncard)) ∧
        ∀ e, a.neighbors.countP (fun nb => nb.element = e) =
          (elementImages s (max rc s.maxCutoffRadiusOverall) i e).ncard := by
    intro k
    induction k with
    | zero =>
      obtain ⟨t, e, hsame, -, -, hat⟩ :=
        build_cleared hsrt hrc hb (fresh_cleared hf) sortByDistance
      refine ⟨t, e, hsame, fun i a ha => ?_⟩
      obtain ⟨a0, ha0, -⟩ := hsame.symm.get ha
      obtain ⟨a1, x1, -, -, -, -, lok, hcnt⟩ := hat i a0 ha0
      rw [ha] at x1; cases x1
      obtain ⟨⟨-, -, -, -, h5, -⟩, -⟩ := hf a0 (List.mem_of_getElem? ha0)
      obtain ⟨imgs, g1, g2, g3⟩ := lok.imgs
      have hc := count_images g1 g2 g3
      refine ⟨s, .refl s, lok, ?_, ?_, hc⟩
      · have hlen : ∀ e, e < a.numNeighborsPerElement.length ↔ e < s.numElements := by
          intro e
          have := congrArg Option.isSome (hcnt e)
          rw [Option.isSome_map, h5, List.getElem?_replicate] at this
          rw [← isSome_get, this]
          by_cases he : e < s.numElements <;> simp [he]
        have h1 := hlen a.numNeighborsPerElement.length
        have h2 := hlen s.numElements
        omega
      · intro e he
        rw [hcnt, h5, List.getElem?_replicate, if_pos he, hc]
        simp
    | succ k ih =>
      obtain ⟨t, e, hsame, hat⟩ := ih
      have hsc := hsame.trans (clear_shape t)
      obtain ⟨t', e', hsame', -, -, hat'⟩ :=
        build_cleared hsrt (s := t.clearNeighborList) (rc := rc) (by rw [hsc.cut]; exact hrc)
          (hsc.boxed hb) (clear_cleared t) sortByDistance
      refine ⟨t', by rw [rebuilds, e]; exact e', hsc.trans hsame', fun i a ha => ?_⟩
      obtain ⟨a0, ha0, -⟩ := hsame'.symm.get ha
      obtain ⟨a1, x1, -, -, -, -, lok, hcnt⟩ := hat' i a0 ha0
      rw [ha] at x1; cases x1
      obtain ⟨b, hbt, -⟩ := (clear_shape t).symm.get ha0
      obtain ⟨u, -, -, hl, hper, -⟩ := hat i b hbt
      obtain ⟨b', hb1, hb2, -⟩ := clear_get hbt (by rw [hl, hsame.ne])
      rw [ha0] at hb1; cases hb1
      rw [hsc.cut] at lok
      obtain ⟨imgs, g1, g2, g3⟩ := lok.imgs
      have hc := fun e => count_images g1 g2 g3 e
      refine ⟨t.clearNeighborList, hsc, lok, ?_, ?_, ?_⟩
      · have hlen : ∀ e, e < a.numNeighborsPerElement.length ↔ e < s.numElements := by
          intro e
          have := congrArg Option.isSome (hcnt e)
          rw [Option.isSome_map, hb2] at this
          rw [← isSome_get, this, isSome_get, hl]
        have h1 := hlen a.numNeighborsPerElement.length
        have h2 := hlen s.numElements
        omega
      · intro e he
        rw [hcnt, hb2, hper e he, hc, ← hsc.elementImages]
        simp only [Option.map_some, Option.some.injEq]
        ring
      · intro e
        rw [hc, ← hsc.elementImages]
  obtain ⟨t, e, hsame, hat⟩ := main k
  refine ⟨t, e, by simpa using congrArg List.length hsame.atoms, fun i a ha => ?_⟩
  obtain ⟨u, hu, lok, -, h1, h2⟩ := hat i a ha
  refine ⟨lok.num, fun e he => by rw [h1 e he, h2], lok.uniq, ?_⟩
  obtain ⟨imgs, g1, g2, g3⟩ := lok.imgs
  refine ⟨imgs, g1, fun p => ?_, g3.imp (fun nb p h => ?_)⟩
  · rw [g2]; exact ⟨hu.symm.isImage, hu.isImage⟩
  · exact hu.symm.describes h

/-- Atom 1 is a neighbour of atom 0 in the example of two atoms. -/
theorem twoAtoms_image {x rc : ℝ} (hx : |x| ≤ rc) : IsImage (twoAtoms x) rc 0 (1, 0) := by
  refine ⟨_, _, rfl, rfl, Or.inr rfl, by simp, ?_⟩
  rw [shift_zero, add_zero]
  have : (∑ k, ((0 : Vec3) - ![x, 0, 0]) k ^ 2) = x ^ 2 := by
    simp [Fin.sum_univ_three]
  show √(∑ k, ((0 : Vec3) - ![x, 0, 0]) k ^ 2) ≤ rc
  rw [this, Real.sqrt_sq_eq_abs]
  exact hx

/-- C28 is false for rebuilding: two atoms within the cutoff, built, cleared and built again. The
list of atom 0 has one entry of element 0, the counter says two. -/
theorem C28_rebuild_negated :
    ∃ (srt : List Neighbor → List Neighbor) (s t : Structure) (a : Atom), IsSort srt ∧ s.Fresh ∧
      Boxed s ∧ rebuilds srt s 2 false 1 = some t ∧ t.atoms[0]? = some a ∧
      0 < a.neighbors.countP (fun nb => nb.element = 0) ∧
      a.numNeighborsPerElement[0]? =
        some (2 * a.neighbors.countP (fun nb => nb.element = 0)) := by
  obtain ⟨srt, hsrt⟩ := exists_isSort
  have h0 : (0 : ℝ) ≤ max 2 (twoAtoms 1).maxCutoffRadiusOverall :=
    le_max_of_le_left (by norm_num)
  obtain ⟨t, e, hlen, hat⟩ := C28_rebuild_partial srt hsrt (twoAtoms 1) (twoAtoms_fresh 1)
    (twoAtoms_boxed 1) 2 h0 false 1
  have hlt : 0 < t.atoms.length := by rw [hlen]; exact Nat.zero_lt_succ _
  have ha := List.getElem?_eq_getElem hlt
  obtain ⟨-, hc, -, imgs, -, hmem, hd⟩ := hat 0 _ ha
  refine ⟨srt, twoAtoms 1, t, _, hsrt, twoAtoms_fresh 1, twoAtoms_boxed 1, e, ha, ?_,
    hc 0 Nat.zero_lt_one⟩
  by_contra hz
  have hz := Nat.eq_zero_of_not_pos hz
  have hlc := hc 0 Nat.zero_lt_one
  -- all elements are 0, so an empty count means an empty list
  obtain ⟨s1, e1, -, hat1⟩ := C26_complete_and_sound srt hsrt (twoAtoms 1) (twoAtoms_fresh 1)
    (twoAtoms_boxed 1) 2 h0 false
  have e' : (s1.clearNeighborList).calculateNeighborList srt 2 false = some t := by
    have := e
    simp only [rebuilds] at this
    rw [e1] at this
    exact this
  obtain ⟨s2, e2, hs2, -, -, -⟩ := build_cleared hsrt h0 (twoAtoms_boxed 1)
    (fresh_cleared (twoAtoms_fresh 1)) false
  rw [e1] at e2; cases e2
  have hsc := hs2.trans (clear_shape s1)
  obtain ⟨t', f1, -, -, -, f2⟩ := build_cleared hsrt (s := s1.clearNeighborList) (rc := 2)
    (by rw [hsc.cut]; exact h0) (hsc.boxed (twoAtoms_boxed 1)) (clear_cleared s1) false
  rw [e'] at f1; cases f1
  obtain ⟨b, hb, -⟩ := hsc.get (i := 0) (a := _) rfl
  obtain ⟨b', hb', -, -, -, -, lok, -⟩ := f2 0 b hb
  rw [ha] at hb'; cases hb'
  obtain ⟨imgs', k1, k2, k3⟩ := lok.imgs
  have hcount := count_images k1 k2 k3 0
  rw [hz, ← hsc.elementImages] at hcount
  have hmem1 : ((1, 0) : ℕ × (Fin 3 → ℤ)) ∈ elementImages (twoAtoms 1)
      (max 2 s1.clearNeighborList.maxCutoffRadiusOverall) 0 0 :=
    ⟨twoAtoms_image (by rw [abs_one]; exact le_max_of_le_left (by norm_num)), _, rfl, rfl⟩
  have hfin : (elementImages (twoAtoms 1)
      (max 2 s1.clearNeighborList.maxCutoffRadiusOverall) 0 0).Finite := by
    apply Set.Finite.subset (List.finite_toSet imgs')
    intro p hp
    rw [hsc.elementImages] at hp
    exact (k2 p).2 hp.1
  rw [Eq.comm, Set.ncard_eq_zero hfin] at hcount
  rw [hcount] at hmem1
  exact hmem1

open Classical in
/-- C29: building a distance-sorted list with cutoffs per element works if each atom's element has a
list of cutoffs. Then, for each atom, the stored count for each of these cutoffs (and for the overall
maximum cutoff if positive) is the number of neighbours within it, and these neighbours are the
first ones in the list. Asking for any other cutoff gives the right count from
`calculateNumNeighbors`, and all neighbours from `getStoredMinNumNeighbors`. -/
theorem C29_stored_counts (srt : List Neighbor → List Neighbor) (hsrt : IsSort srt)
    (s : Structure) (hf : s.Fresh) (hb : Boxed s) (rc : ℝ)
    (hrc : 0 ≤ max rc s.maxCutoffRadiusOverall) (cutoffs : List (List ℝ))
    (hc : ∀ a ∈ s.atoms, a.element < cutoffs.length) :
    ∃ s', s.calculateNeighborListCutoffs srt rc cutoffs = some s' ∧
      s'.atoms.length = s.atoms.length ∧
      ∀ a ∈ s'.atoms, a.neighbors.Pairwise (fun x y => x.d ≤ y.d) ∧
        (∀ c, a.calculateNumNeighbors c = a.neighbors.countP (fun nb => decide (nb.d ≤ c))) ∧
        ∃ cut, cutoffs[a.element]? = some cut ∧
          (∀ c, (c ∈ cut ∨ (0 < s.maxCutoffRadiusOverall ∧ c = s.maxCutoffRadiusOverall)) →
            a.getStoredMinNumNeighbors c = a.neighbors.countP (fun nb => decide (nb.d ≤ c)) ∧
            a.neighbors.take (a.getStoredMinNumNeighbors c) =
              a.neighbors.filter (fun nb => decide (nb.d ≤ c))) ∧
          (∀ c, ¬ (c ∈ cut ∨ (0 < s.maxCutoffRadiusOverall ∧ c = s.maxCutoffRadiusOverall)) →
            a.getStoredMinNumNeighbors c = a.neighbors.length) := by
  obtain ⟨t, e, hsame, hat⟩ := build_cutoffs hsrt hrc hb (fresh_cleared hf) hc
  refine ⟨t, e, by simpa using congrArg List.length hsame.atoms, fun a' ha' => ?_⟩
  obtain ⟨i, hi⟩ := List.mem_iff_getElem?.1 ha'
  obtain ⟨a, ha, -⟩ := hsame.symm.get hi
  obtain ⟨a'', h1, -, hel, hsrtd, lok, cut, hcut, look⟩ := hat i a ha
  rw [hi] at h1; cases h1
  obtain ⟨⟨-, -, -, -, -, h6⟩, -⟩ := hf a (List.mem_of_getElem? ha)
  simp only [h6, CMap.find?] at look
  refine ⟨hsrtd, fun c => ?_, cut, by rw [hel]; exact hcut, fun c hcin => ?_, fun c hcout => ?_⟩
  · unfold Atom.calculateNumNeighbors
    rw [look]
    split
    · rename_i h
      split at h
      · exact (Option.some.inj h).symm
      · cases h
    · rfl
  · have hst : a'.getStoredMinNumNeighbors c =
        a'.neighbors.countP (fun nb => decide (nb.d ≤ c)) := by
      unfold Atom.getStoredMinNumNeighbors
      rw [look]
      by_cases hne : a'.neighbors = []
      · rw [if_neg (fun h => h.1 hne)]
        simp only [lok.num, hne]; rfl
      · rw [if_pos ⟨hne, hcin⟩]
    refine ⟨hst, ?_⟩
    rw [hst]
    apply take_countP_of_sorted
    refine hsrtd.imp (fun {x y} hxy => ?_)
    simp only [decide_eq_true_eq]
    exact fun h => hxy.trans h
  · unfold Atom.getStoredMinNumNeighbors
    rw [look, if_neg (fun h => hcout h.2)]
    exact lok.num

/-- Example for C29: the two atoms with two cutoffs. -/
example : ∀ a ∈ (twoAtoms 1).atoms, a.element < [[(1 : ℝ), 3]].length := by
  intro a ha
  exact (twoAtoms_fresh 1 a ha).2

/-- C29: without sorting, or with an element that has no cutoffs, an error is reported. -/
theorem C29_error (s : Structure) (cutoffs : List (List ℝ))
    (h : s.neighborListIsSorted = false ∨ ∃ a ∈ s.atoms, cutoffs.length ≤ a.element) :
    s.setupNeighborCutoffMap cutoffs = none := by
  unfold Structure.setupNeighborCutoffMap
  rcases h with h | ⟨a, ha, hle⟩
  · rw [h]; rfl
  · split
    · rfl
    · simp only
      rw [mapM_none ha]
      · rfl
      · rw [List.getElem?_map, List.getElem?_eq_none hle]; rfl

example : Structure.init.neighborListIsSorted = false := rfl

/-- C61 is false: a count stored once for a cutoff is never updated. Clearing the neighbour list,
moving the atoms and building the list with cutoffs again keeps the old count. -/
theorem C61_stale_counts_negated :
    ∃ (srt : List Neighbor → List Neighbor) (s s1 s3 : Structure) (pos : ℕ → Vec3) (a : Atom),
      IsSort srt ∧ s.Fresh ∧ Boxed s ∧
      s.calculateNeighborListCutoffs srt 2 [[2]] = some s1 ∧
      (s1.clearNeighborList.move pos).calculateNeighborListCutoffs srt 2 [[2]] = some s3 ∧
      s3.atoms[0]? = some a ∧ a.neighbors = [] ∧ 0 < a.getStoredMinNumNeighbors 2 := by
  classical
  obtain ⟨srt, hsrt⟩ := exists_isSort
  have h0 : (0 : ℝ) ≤ max 2 (twoAtoms 1).maxCutoffRadiusOverall :=
    le_max_of_le_left (by norm_num)
  have hc0 : ∀ a ∈ (twoAtoms 1).atoms, a.element < [[(2 : ℝ)]].length :=
    fun a ha => (twoAtoms_fresh 1 a ha).2
  obtain ⟨s1, e1, hs1, hat1⟩ := build_cutoffs hsrt h0 (twoAtoms_boxed 1)
    (fresh_cleared (twoAtoms_fresh 1)) hc0
  -- first build: atom 0 has a neighbour
  obtain ⟨a1, ha1, -, -, -, lok1, cut1, hcut1, look1⟩ := hat1 0 _ rfl
  have hcut : cut1 = [2] := (Option.some.inj hcut1).symm
  obtain ⟨imgs, -, hmem, hd⟩ := lok1.imgs
  have himg : ((1, 0) : ℕ × (Fin 3 → ℤ)) ∈ imgs :=
    (hmem _).2 (twoAtoms_image (by rw [abs_one]; exact le_max_of_le_left (by norm_num)))
  have hne : a1.neighbors ≠ [] := by
    intro h
    rw [h] at hd
    cases hd
    simp at himg
  have hall : ∀ nb ∈ a1.neighbors, nb.d ≤ 2 := by
    intro nb hnb
    obtain ⟨p, hp, b, g1, -, -, -, g2, g3⟩ := forall₂_fwd hd nb hnb
    obtain ⟨x, y, k1, k2, -, -, k3⟩ := (hmem p).1 hp
    rw [g1] at k2; cases k2
    obtain ⟨a1', z1, z2, -⟩ := hs1.get k1
    rw [ha1] at z1; cases z1
    rw [g3, g2, z2]
    refine k3.trans ?_
    show max (2 : ℝ) 0 ≤ 2
    norm_num
  have hstored : a1.neighborCutoffs.find? (2 : ℝ) = some a1.neighbors.length := by
    have := look1 2
    simp only [twoAtoms, Atom.init, CMap.find?] at this
    rw [this]
    simp only [hcut, List.mem_singleton, true_or, and_true, hne, ne_eq, not_false_eq_true, if_true]
    congr 1
    rw [List.countP_eq_length]
    intro nb hnb
    simpa using hall nb hnb
  -- clear and move
  let pos : ℕ → Vec3 := fun i => if i = 0 then 0 else ![5, 0, 0]
  let s2 := s1.clearNeighborList.move pos
  have hget2 : ∃ a2, s2.atoms[0]? = some a2 ∧ a2.neighborCutoffs = a1.neighborCutoffs := by
    obtain ⟨b, hb, hbc⟩ := clear_get_cut ha1
    refine ⟨{ b with r := pos 0 }, ?_, hbc⟩
    show (s1.clearNeighborList.atoms.mapIdx _)[0]? = _
    rw [List.getElem?_mapIdx, hb]
    rfl
  obtain ⟨a2, ha2, hcc2⟩ := hget2
  have hlen1 : s1.atoms.length = 2 := by
    have := congrArg List.length hs1.atoms
    simpa [twoAtoms] using this
  have hcl2 : ∀ a ∈ s2.atoms, Cleared a := by
    intro a ha
    obtain ⟨i, hi⟩ := List.mem_iff_getElem?.1 ha
    obtain ⟨b, hb, rfl⟩ := getElem?_built hi
    exact clear_cleared s1 b (List.mem_of_getElem? hb)
  have hel2 : ∀ a ∈ s2.atoms, a.element < [[(2 : ℝ)]].length := by
    intro a ha
    obtain ⟨i, hi⟩ := List.mem_iff_getElem?.1 ha
    obtain ⟨b, hb, rfl⟩ := getElem?_built hi
    obtain ⟨c, hc, -, he⟩ := (hs1.trans (clear_shape s1)).symm.get hb
    show b.element < _
    rw [← he]
    exact hc0 c (List.mem_of_getElem? hc)
  have hper2 : s2.isPeriodic = false := hs1.per
  have hbox2 : Boxed s2 := by
    intro h; rw [hper2] at h; cases h
  have hM2 : s2.maxCutoffRadiusOverall = 0 := hs1.cut
  obtain ⟨s3, e3, hs3, hat3⟩ := build_cutoffs hsrt (rc := 2) (s := s2)
    (le_max_of_le_left (by norm_num)) hbox2 hcl2 hel2
  obtain ⟨a3, ha3, -, -, -, lok3, cut3, hcut3, look3⟩ := hat3 0 a2 ha2
  refine ⟨srt, twoAtoms 1, s1, s3, pos, a3, hsrt, twoAtoms_fresh 1, twoAtoms_boxed 1, e1, e3, ha3,
    ?_, ?_⟩
  · obtain ⟨imgs3, -, hmem3, hd3⟩ := lok3.imgs
    have hnil : imgs3 = [] := by
      rw [List.eq_nil_iff_forall_not_mem]
      rintro ⟨j, n⟩ hp
      obtain ⟨x, y, k1, k2, k3, k4, k5⟩ := (hmem3 _).1 hp
      rw [hper2] at k3
      simp only [Bool.false_eq_true, false_or] at k3
      subst k3
      have hj : j < 2 := by
        have := (List.getElem?_eq_some_iff.1 k2).1
        simpa [s2, Structure.move, Structure.clearNeighborList, hlen1] using this
      have hj0 : j ≠ 0 := fun h => k4 (by rw [h])
      have hj1 : j = 1 := by omega
      subst hj1
      obtain ⟨b1, -, rfl⟩ := getElem?_built k1
      obtain ⟨b2, -, rfl⟩ := getElem?_built k2
      rw [hM2, shift_zero, add_zero] at k5
      have hsum : (∑ k, ((pos 0 : Vec3) - pos 1) k ^ 2) = 5 ^ 2 := by
        simp [pos, Fin.sum_univ_three]
      have h5 : len (pos 0 - pos 1) = 5 := by
        unfold len
        rw [hsum, Real.sqrt_sq (by norm_num)]
      have k6 : len (pos 0 - pos 1) ≤ max 2 0 := k5
      rw [h5] at k6
      norm_num at k6
    rw [hnil] at hd3
    exact List.forall₂_nil_right_iff.1 hd3
  · unfold Atom.getStoredMinNumNeighbors
    rw [look3, hcc2, hstored]
    exact List.length_pos_iff.2 hne

open Classical in
/-- C61, partial: after clearing (and moving the atoms) a rebuild stores the right count for every
requested cutoff that had no stored count before. What is missing is the same for cutoffs that had
one; this is false, see `C61_stale_counts_negated`. -/
theorem C61_new_cutoffs_partial (srt : List Neighbor → List Neighbor) (hsrt : IsSort srt)
    (s : Structure) (pos : ℕ → Vec3) (hb : Boxed (s.clearNeighborList.move pos)) (rc : ℝ)
    (hrc : 0 ≤ max rc s.maxCutoffRadiusOverall) (cutoffs : List (List ℝ))
    (hc : ∀ a ∈ s.atoms, a.element < cutoffs.length) :
    ∃ s', (s.clearNeighborList.move pos).calculateNeighborListCutoffs srt rc cutoffs = some s' ∧
      ∀ (i : ℕ) a, s.atoms[i]? = some a → ∃ a' cut, s'.atoms[i]? = some a' ∧ a'.r = pos i ∧
        cutoffs[a.element]? = some cut ∧
        ∀ c ∈ cut, a.neighborCutoffs.find? c = none →
          a'.getStoredMinNumNeighbors c = a'.neighbors.countP (fun nb => decide (nb.d ≤ c)) := by
  have hget : ∀ (i : ℕ) a, s.atoms[i]? = some a → ∃ b,
      (s.clearNeighborList.move pos).atoms[i]? = some b ∧ b.element = a.element ∧ b.r = pos i ∧
      b.neighborCutoffs = a.neighborCutoffs := by
    intro i a ha
    obtain ⟨b, hb1, hb2⟩ := clear_get_cut ha
    obtain ⟨b', hb3, -, hb4⟩ := (clear_shape s).get ha
    rw [hb1] at hb3; cases hb3
    refine ⟨{ b with r := pos i }, ?_, hb4, rfl, hb2⟩
    show (s.clearNeighborList.atoms.mapIdx _)[i]? = _
    rw [List.getElem?_mapIdx, hb1]
    rfl
  have hcl : ∀ a ∈ (s.clearNeighborList.move pos).atoms, Cleared a := by
    intro a ha
    obtain ⟨i, hi⟩ := List.mem_iff_getElem?.1 ha
    obtain ⟨b, hb, rfl⟩ := getElem?_built hi
    exact clear_cleared s b (List.mem_of_getElem? hb)
  have hel : ∀ a ∈ (s.clearNeighborList.move pos).atoms, a.element < cutoffs.length := by
    intro a ha
    obtain ⟨i, hi⟩ := List.mem_iff_getElem?.1 ha
    obtain ⟨b, hb, rfl⟩ := getElem?_built hi
    obtain ⟨c, hc', -, he⟩ := (clear_shape s).symm.get hb
    show b.element < _
    rw [← he]
    exact hc c (List.mem_of_getElem? hc')
  obtain ⟨s', e, -, hat⟩ := build_cutoffs hsrt (s := s.clearNeighborList.move pos) (rc := rc)
    hrc hb hcl hel
  refine ⟨s', e, fun i a ha => ?_⟩
  obtain ⟨b, hb1, hb2, hb3, hb4⟩ := hget i a ha
  obtain ⟨a', h1, h2, -, -, lok, cut, hcut, look⟩ := hat i b hb1
  refine ⟨a', cut, h1, h2.trans hb3, by rw [← hb2]; exact hcut, fun c hcm hnone => ?_⟩
  unfold Atom.getStoredMinNumNeighbors
  rw [look, hb4, hnone]
  by_cases hne : a'.neighbors = []
  · rw [if_neg (fun h => h.1 hne)]
    simp only [lok.num, hne]; rfl
  · rw [if_pos ⟨hne, Or.inl hcm⟩]

/-- Example for C61: the structure of two atoms itself. -/
example : Boxed ((twoAtoms 1).clearNeighborList.move (fun _ => 0)) := by
  intro h; cases h

end N2P2
