import Verif.Spec.CheckForces
import Verif.Lemma.Prediction
import Verif.Lemma.ModeInvariance
import Verif.Lemma.ModeExists
import Verif.Props.Mode

/-! Displaced copies of a structure in nnp-checkf. -/

namespace N2P2

variable {s s' u : Structure} {m : ℕ → Fin 3 → ℤ} {P : Potential} {n : ℕ}

/-! ### Atoms shifted by lattice vectors -/

theorem mulVec_one' (x : Vec3) : (1 : Matrix (Fin 3) (Fin 3) ℝ).mulVec x = x := Matrix.one_mulVec x

theorem SameArrangement.scaled (h : SameArrangement 1 0 id m s s') (c : ℝ) :
    SameArrangement 1 0 id m (s.scaled c) (s'.scaled c) := by
  refine ⟨h.orthogonal, ?_, fun i hi => hi, fun _ _ _ _ e => e, ?_, ?_, h.periodic, ?_, h.inside⟩
  · rw [scaled_length, scaled_length, h.length]
  · intro i hi
    rw [scaled_length] at hi
    rw [scaled_element, scaled_element]
    exact h.element i hi
  · intro i hi
    rw [scaled_length] at hi
    have := h.position i hi
    rw [mulVec_one', add_zero] at this ⊢
    rw [scaled_position, scaled_position, this, smul_add]
    congr 1
    unfold Structure.scaled
    dsimp only
    by_cases hp : s.isPeriodic = true
    · rw [if_pos hp, shift_smul]
    · rw [h.inside (by simpa using hp) i, shift_zero, shift_zero, smul_zero]
  · intro hp k
    have hp : s.isPeriodic = true := hp
    have hb := h.box hp k
    rw [mulVec_one'] at hb ⊢
    unfold Structure.scaled
    dsimp only
    rw [if_pos hp, if_pos (h.periodic.trans hp), hb]

theorem SameArrangement.back (h : SameArrangement 1 0 id m s s') :
    SameArrangement 1 0 id (fun i => -m i) s' s := by
  refine ⟨h.orthogonal, h.length.symm, fun i hi => hi, fun _ _ _ _ e => e, ?_, ?_, h.periodic.symm, ?_, ?_⟩
  · intro i hi
    exact (h.element i (by rwa [← h.length])).symm
  · intro i hi
    have := h.position i (by rwa [← h.length])
    rw [mulVec_one', add_zero] at this ⊢
    show s.position i = _
    rw [show s'.position i = _ from this]
    by_cases hp : s.isPeriodic = true
    · have : s'.box = s.box := by
        funext k
        rw [h.box hp k, mulVec_one']
      rw [this, shift_neg, add_neg_cancel_right]
    · rw [h.inside (by simpa using hp) i, neg_zero, shift_zero, shift_zero, add_zero, add_zero]
  · intro hp k
    rw [h.periodic] at hp
    rw [h.box hp k, mulVec_one', mulVec_one']
  · intro hp i
    rw [h.inside (h.periodic.symm.trans hp) i, neg_zero]

theorem SameArrangement.apart (h : SameArrangement 1 0 id m s s') (ha : s.Apart) : s'.Apart := by
  rintro i hi ⟨j, k⟩ hp
  have hj : j < s.atoms.length := by rw [← h.length]; exact hp.1
  have hi' : i < s.atoms.length := by rw [← h.length]; exact hi
  have e : k = k - (m j - m i) + (m j - m i) := by abel
  rw [e] at hp ⊢
  have hp' := (h.partner hi' hj _).1 hp
  have := h.separation hi' hj hp'
  rw [mulVec_one'] at this
  show s'.separation (id i) (id j, _) ≠ 0
  rw [this]
  exact ha i hi' _ hp'

theorem SameArrangement.isBall (h : SameArrangement 1 0 id m s s') {R : ℝ} {i : ℕ} (hi : i < s.atoms.length)
    {env : List Site} (he : IsBall s R i env) : IsBall s' R i env := by
  obtain ⟨imgs, h1, h2, rfl⟩ := he
  have hs : ∀ j (k : Fin 3 → ℤ), s.IsPartner i (j, k) →
      s'.separation i (j, k + (m j - m i)) = s.separation i (j, k) := by
    intro j k hp
    have := h.separation hi hp.1 hp
    rwa [mulVec_one'] at this
  refine ⟨imgs.map fun p => (p.1, p.2 + (m p.1 - m i)), ?_, ?_, ?_⟩
  · refine h1.map_on ?_
    rintro ⟨j, k⟩ hp ⟨j', k'⟩ hp' e
    simp only [Prod.mk.injEq] at e
    obtain ⟨rfl, e⟩ := e
    rw [add_right_cancel e]
  · rintro ⟨j, k⟩
    constructor
    · intro hp
      obtain ⟨⟨j', k'⟩, hq, e⟩ := List.mem_map.1 hp
      obtain ⟨q1, q2⟩ := (h2 _).1 hq
      rw [← e]
      dsimp only
      rw [hs j' k' q1]
      exact ⟨(h.partner hi q1.1 k').2 q1, q2⟩
    · rintro ⟨hp, hl⟩
      have hj : j < s.atoms.length := by rw [← h.length]; exact hp.1
      have e : k = k - (m j - m i) + (m j - m i) := by abel
      rw [e] at hp hl
      have hp' := (h.partner hi hj _).1 hp
      rw [hs j _ hp'] at hl
      refine List.mem_map.2 ⟨(j, k - (m j - m i)), (h2 _).2 ⟨hp', hl⟩, ?_⟩
      dsimp only
      rw [← e]
  · rw [List.map_map]
    refine List.map_congr_left ?_
    rintro ⟨j, k⟩ hp
    have hp' := ((h2 _).1 hp).1
    simp only [Function.comp_apply]
    rw [hs j k hp']
    congr 1
    exact (h.element j hp'.1).symm

theorem SameArrangement.triplets (h : SameArrangement 1 0 id m s s') {R : ℝ} (ht : P.TripletsOK R s) :
    P.TripletsOK R s' := by
  intro i hi S hS env he
  have hi' : i < s.atoms.length := by rw [← h.length]; exact hi
  rw [show s'.elementOf i = s.elementOf i from h.element i hi'] at hS
  exact ht i hi' S hS env (h.back.isBall hi he)

theorem SameArrangement.within (h : SameArrangement 1 0 id m s s') {R : ℝ} :
    P.Within R s' ↔ P.Within R s := by
  unfold Potential.Within
  rw [h.length]
  refine forall_congr' fun i => forall_congr' fun hi => ?_
  rw [show s'.elementOf i = s.elementOf i from h.element i hi]

/-! ### Displaced atoms -/

theorem along_length (u : Structure) (i : ℕ) (j : Fin 3) (t : ℝ) :
    (u.along i j t).atoms.length = u.atoms.length := by
  simp [Structure.along, Structure.displace, Structure.move]

theorem along_elementOf (u : Structure) (i : ℕ) (j : Fin 3) (t : ℝ) (k : ℕ) :
    (u.along i j t).elementOf k = u.elementOf k := by
  simp only [Structure.along, Structure.displace, Structure.elementOf, Structure.move, List.getElem?_mapIdx, Option.map_map]
  rfl

theorem along_position (u : Structure) (i : ℕ) (j : Fin 3) (t : ℝ) {k : ℕ} (hk : k < u.atoms.length) :
    (u.along i j t).position k = u.position k + if k = i then Pi.single j t else 0 := by
  simp [Structure.along, Structure.displace, Structure.position, Structure.move, hk]

theorem remapPosition_exists (s : Structure) (h : NonSingular s.box) {r : Vec3} {f : Fin 3 → ℝ}
    (hf : r = cartesian s.box f) (hb : ∀ k, -2147483649 < f k ∧ f k < 2147483648) :
    ∃ r', s.calculateInverseBox.remapPosition r = some r' := by
  let a : Atom := { Atom.init with r := r }
  obtain ⟨s', hs'⟩ := C24_defined { s with atoms := [a] } h (by
    intro b hb'
    rw [List.mem_singleton.1 hb']
    exact ⟨f, hf, hb⟩)
  unfold Structure.remap at hs'
  obtain ⟨l, hl, -⟩ := Option.map_eq_some_iff.1 hs'
  obtain ⟨-, hm⟩ := mapM_some hl
  obtain ⟨b, -, g2⟩ := hm 0 a rfl
  obtain ⟨r', g3, -⟩ := Option.map_eq_some_iff.1 g2
  exact ⟨r', g3⟩

/-- The box inverse of a structure from a file. -/
def Structure.Inverted (u : Structure) : Prop := u.isPeriodic = true → u.calculateInverseBox = u

theorem readFromFile_inverted {N : NumberText} {m : EMap} {file : List Str} {r : Structure × List Str}
    (e : (Structure.forReading m 0).readFromFile N m file = some r) : r.1.Inverted := by
  unfold Structure.readFromFile at e
  obtain ⟨line, -, e⟩ := Option.bind_eq_some_iff.1 e
  obtain ⟨key, -, e⟩ := Option.bind_eq_some_iff.1 e
  split_ifs at e
  obtain ⟨ls, -, e⟩ := Option.bind_eq_some_iff.1 e
  obtain ⟨u, e1, e⟩ := Option.bind_eq_some_iff.1 e
  cases e
  unfold Structure.readFromLines at e1
  obtain ⟨_, -, e1⟩ := Option.bind_eq_some_iff.1 e1
  obtain ⟨_, -, e1⟩ := Option.bind_eq_some_iff.1 e1
  split_ifs at e1
  obtain ⟨s1, e2, e1⟩ := Option.bind_eq_some_iff.1 e1
  obtain ⟨s2, e3, e4⟩ := Option.bind_eq_some_iff.1 e1
  obtain ⟨k, hk⟩ := readLoop_state _ (ReadState.forReading m) e2
  have h := countPresent_state hk e3
  intro hp
  unfold Structure.remapIfPeriodic at e4
  by_cases hp2 : s2.isPeriodic = true
  · rw [if_pos hp2] at e4
    unfold Structure.remap at e4
    obtain ⟨l, -, rfl⟩ := Option.map_eq_some_iff.1 e4
    have := (h.box hp2).2
    unfold Structure.calculateInverseBox at this ⊢
    dsimp only at this ⊢
    rw [← this]
  · rw [if_neg hp2] at e4
    cases e4
    exact absurd hp hp2

theorem displacedCopy_spec (hu : ReadDone n u) (hinv : u.Inverted) (hbox : u.isPeriodic = true → NonSingular u.box)
    {delta : ℝ} {c : ℕ} (hc : c / 6 < u.atoms.length)
    (near : u.isPeriodic = true →
      ∃ f, (u.along (c / 6) ⟨c % 3, Nat.mod_lt _ (by decide)⟩ ((numericSign c : ℝ) * delta)).position (c / 6) =
        cartesian u.box f ∧ ∀ k, -2147483649 < f k ∧ f k < 2147483648) :
    ∃ d m, displacedCopy u delta c = some d ∧ ReadDone n d ∧ d.isPeriodic = u.isPeriodic ∧ d.box = u.box ∧
      SameArrangement 1 0 id m
        (u.along (c / 6) ⟨c % 3, Nat.mod_lt _ (by decide)⟩ ((numericSign c : ℝ) * delta)) d := by
  set i := c / 6 with hi
  set j : Fin 3 := ⟨c % 3, Nat.mod_lt _ (by decide)⟩ with hj
  set t := (numericSign c : ℝ) * delta with ht
  have hg := List.getElem?_eq_getElem hc
  set a := u.atoms[i] with ha
  have hr : Function.update a.r j (a.r j + t) = (u.along i j t).position i := by
    rw [along_position u i j t hc, if_pos rfl, position_eq hg]
    funext k
    by_cases hk : k = j
    · subst hk
      rw [Function.update_self, Pi.add_apply, Pi.single_eq_same]
    · rw [Function.update_of_ne hk, Pi.add_apply, Pi.single_eq_of_ne hk, add_zero]
  -- the new position
  have hnew : ∃ r v, u.backInBox (Function.update a.r j (a.r j + t)) = some r ∧ r = (u.along i j t).position i + shift u.box v ∧
      (u.isPeriodic = true → InBox u.box r) ∧ (u.isPeriodic = false → v = 0) := by
    unfold Structure.backInBox
    by_cases hp : u.isPeriodic = true
    · obtain ⟨f, f1, f2⟩ := near hp
      obtain ⟨r, h1⟩ := remapPosition_exists u (hbox hp) f1 f2
      obtain ⟨h2, v, h3⟩ := remapPosition_spec u (hbox hp) h1
      rw [hinv hp] at h1
      exact ⟨r, v, by rw [if_pos hp, hr]; exact h1, h3, fun _ => h2, fun h => by rw [hp] at h; cases h⟩
    · exact ⟨_, 0, if_neg hp, by rw [hr, shift_zero, add_zero], fun h => absurd h hp, fun _ => rfl⟩
  obtain ⟨r, v, r1, r2, r3, r4⟩ := hnew
  have hat : ∀ (k : ℕ) b, (u.atoms.set i { a with r := r })[k]? = some b → ∃ b0, u.atoms[k]? = some b0 ∧
      b = { b0 with r := b.r } ∧ (if k = i then b.r = r else b.r = b0.r) := by
    intro k b hb
    rw [List.getElem?_set] at hb
    by_cases hk : i = k
    · subst hk
      rw [if_pos rfl, if_pos hc] at hb
      cases hb
      exact ⟨a, hg, rfl, by rw [if_pos rfl]⟩
    · rw [if_neg hk] at hb
      exact ⟨b, hb, rfl, by rw [if_neg (Ne.symm hk)]⟩
  refine ⟨{ u with atoms := u.atoms.set i { a with r := r } }, fun k => if k = i then v else 0, ?_, ?_, rfl, rfl, ?_⟩
  · unfold displacedCopy
    dsimp only
    rw [← hi, hg]
    refine (congrArg (Option.bind · _) r1).trans rfl
  · refine ⟨hu.elements, hu.flags, hu.rest, ?_, ?_, ?_, ?_⟩
    · show u.numAtoms = (u.atoms.set _ _).length
      rw [List.length_set, hu.numAtoms]
    · refine hu.counts.trans (List.map_congr_left fun e _ => (countP_element_congr ?_ e).symm)
      apply List.ext_getElem?
      intro k
      show ((u.atoms.set i { a with r := r }).map Atom.element)[k]? = _
      rw [List.getElem?_map, List.getElem?_map, List.getElem?_set]
      by_cases hk : i = k
      · subst hk
        rw [if_pos rfl, if_pos hc, hg]
        rfl
      · rw [if_neg hk]
    · intro k b hb
      obtain ⟨b0, g1, g2, -⟩ := hat k b hb
      have := hu.atom k b0 g1
      rw [g2]
      exact ⟨this.fresh, this.element, this.index, this.flags⟩
    · intro hp hns b hb
      obtain ⟨k, hk, rfl⟩ := List.getElem_of_mem hb
      obtain ⟨b0, g1, -, g3⟩ := hat k _ (List.getElem?_eq_getElem hk)
      by_cases hki : k = i
      · rw [if_pos hki] at g3
        rw [g3]
        exact r3 hp
      · rw [if_neg hki] at g3
        rw [g3]
        exact hu.inside hp hns b0 (List.mem_of_getElem? g1)
  · refine ⟨by simp, ?_, fun k hk => hk, fun _ _ _ _ e => e, ?_, ?_, rfl, ?_, ?_⟩
    · show (u.atoms.set _ _).length = _
      rw [List.length_set, along_length]
    · intro k hk
      rw [along_length] at hk
      rw [along_elementOf]
      obtain ⟨b0, g1, g2, -⟩ := hat k _ (List.getElem?_eq_getElem (by rw [List.length_set]; exact hk))
      rw [elementOf_eq g1]
      have e := congrArg Atom.element g2
      exact (elementOf_eq (s := { u with atoms := u.atoms.set i { a with r := r } })
        (List.getElem?_eq_getElem (by rw [List.length_set]; exact hk))).trans e
    · intro k hk
      rw [along_length] at hk
      rw [mulVec_one', add_zero]
      obtain ⟨b0, g1, -, g3⟩ := hat k _ (List.getElem?_eq_getElem (by rw [List.length_set]; exact hk))
      refine (position_eq (s := { u with atoms := u.atoms.set i { a with r := r } })
        (List.getElem?_eq_getElem (by rw [List.length_set]; exact hk))).trans ?_
      by_cases hki : k = i
      · rw [if_pos hki] at g3 ⊢
        refine g3.trans (r2.trans ?_)
        rw [hki]
        rfl
      · rw [if_neg hki] at g3 ⊢
        refine g3.trans ?_
        rw [along_position u i j t hk, if_neg hki, add_zero, position_eq g1, shift_zero, add_zero]
    · intro _ k
      rw [mulVec_one']
      rfl
    · intro hp k
      rw [r4 hp, ite_self]

end N2P2
