import Verif.Lemma.LengthUnitForce
import Verif.Props.OwnImages
import Verif.Props.Normalization

/-! Property C91 (results do not depend on the unit of length), and the rest of C90. -/

namespace N2P2

variable {srt : List Neighbor → List Neighbor} {M M' : Mode} {P P' : Potential} {n : ℕ} {c : ℝ}
  {s s' : Structure}

theorem elementOf_lt (h : s.New n) : ∀ i < s.atoms.length, s.elementOf i < n := by
  intro i hi
  rw [elementOf_eq (List.getElem?_eq_getElem hi)]
  exact (h.atom _ (List.getElem_mem hi)).1

theorem within_max (hM : M.SetUp P n) (h : s.New n) : P.Within M.maxCutoffRadius s :=
  fun i hi _ hS => (hM.valid (elementOf_lt h i hi) hS).2.2

theorem listRadius_converted (hc : 0 < c) (hM : M.SetUp P n) (hM' : M'.SetUp P' n)
    (hP : P.Converted c P' n) (hss : s.Rescaled c s') : M'.listRadius s' = c * M.listRadius s := by
  unfold Mode.listRadius
  rw [hM.max_converted hc hM' hP, hss.radius, mul_max_of_nonneg _ _ hc.le]

/-- C91: a structure which can be evaluated can also be evaluated after conversion to another unit of
length by the potential of the same settings with this unit, and the energy is the same. -/
theorem C91_energy (hsrt : IsSort srt) (hc : 0 < c) (hM : M.SetUp P n) (hM' : M'.SetUp P' n)
    (hsame : P.SameSettings c P' n) (hP : P.Fits n) (hn : 0 < n) (hs : s.Evaluable M P n)
    (hs' : s'.New n) (hss : s.Rescaled c s') (f d f' d' : Bool) :
    s'.Evaluable M' P' n ∧ ∃ M1 s1 M1' s1', M.evaluateNNP srt s f d = some (M1, s1) ∧
      M'.evaluateNNP srt s' f' d' = some (M1', s1') ∧ s1'.energyShort = s1.energyShort ∧
      ∀ (i : ℕ) (a a' : Atom), s1.atoms[i]? = some a → s1'.atoms[i]? = some a' → a'.energy = a.energy := by
  have hC := hsame.converted hc
  have hel := elementOf_lt hs.new
  have hev : s'.Evaluable M' P' n := by
    refine ⟨hs', hss.apart hc hs.apart, ?_⟩
    rw [listRadius_converted hc hM hM' hC hss]
    exact hss.triplets hc hC hel hs.triplets
  refine ⟨hev, ?_⟩
  obtain ⟨M1, s1, g1, -, gl, g2, g3⟩ := C74_energy hsrt hM hP hn hs f d
  obtain ⟨M1', s1', k1, -, kl, k2, k3⟩ := C74_energy hsrt hM' (hC.fits hP) hn hev f' d'
  refine ⟨M1, s1, M1', s1', g1, k1, ?_, ?_⟩
  · obtain ⟨E, hE⟩ := exists_isEnergy P M.maxCutoffRadius (s := s) fun hp => (hs.new.boxed hp).1
    rw [(g3 _ E (within_max hM hs.new) hE).1]
    refine (k3 _ E ?_ (hss.isEnergy hc hC hel hE)).1
    rw [← hM.max_converted hc hM' hC]
    exact within_max hM' hs'
  · intro i a a' ha ha'
    have hi : i < s.atoms.length := by rw [← gl]; exact (List.getElem?_eq_some_iff.1 ha).1
    obtain ⟨E, env, henv, -⟩ :=
      exists_isEnergy P M.maxCutoffRadius (s := s) fun hp => (hs.new.boxed hp).1
    rw [g2 i a ha _ (env i) (within_max hM hs.new i hi) (henv i hi),
      k2 i a' ha' _ (scaleEnv c (env i)) ?_ (hss.isEnv hc hi (henv i hi)), hss.element i hi,
      hC.atomic hc (hel i hi)]
    rw [← hM.max_converted hc hM' hC]
    exact within_max hM' hs' i (by rw [hss.length]; exact hi)

theorem Structure.Rescaled.displace (h : s.Rescaled c s') (i : ℕ) (x : Vec3) :
    (s.displace i x).Rescaled c (s'.displace i (c • x)) := by
  refine ⟨?_, ?_, ?_, h.periodic, h.box, h.radius⟩
  · exact (at_length (r := fun i (_ : ℝ) => _) 0).trans
      (h.length.trans (at_length (r := fun i (_ : ℝ) => _) 0).symm)
  · intro k hk
    have hk : k < s.atoms.length := by
      rw [← at_length (s := s) (r := fun k _ => s.position k + if k = i then x else 0) 0]; exact hk
    exact (at_elementOf (r := fun i (_ : ℝ) => _) 0 _).trans
      ((h.element k hk).trans (at_elementOf (r := fun i (_ : ℝ) => _) 0 _).symm)
  · intro k hk
    have hk : k < s.atoms.length := by
      rw [← at_length (s := s) (r := fun k _ => s.position k + if k = i then x else 0) 0]; exact hk
    have e1 : (s.displace i x).position k = s.position k + if k = i then x else 0 :=
      at_position (r := fun k (_ : ℝ) => s.position k + if k = i then x else 0) 0 hk
    have e2 : (s'.displace i (c • x)).position k = s'.position k + if k = i then c • x else 0 :=
      at_position (r := fun k (_ : ℝ) => s'.position k + if k = i then c • x else 0) 0
        (by rw [h.length]; exact hk)
    rw [e1, e2, h.position k hk]
    by_cases e : k = i
    · rw [if_pos e, if_pos e, smul_add]
    · rw [if_neg e, if_neg e, add_zero, add_zero]

theorem Structure.Rescaled.isEnergyFrozen {R E : ℝ} (h : s.Rescaled c s') (hc : 0 < c)
    (hP : P.Converted c P' n) (hel : ∀ i < s.atoms.length, s.elementOf i < n) {i : ℕ}
    (hi : i < s.atoms.length) {x : Vec3} (hE : IsEnergyFrozen P R s i x E) :
    IsEnergyFrozen P' (c * R) s' i (c • x) E := by
  obtain ⟨env, h1, ⟨imgs, a1, a2, a3, a4⟩, rfl⟩ := hE
  refine ⟨fun k => scaleEnv c (env k), fun k hk hne => ?_, ⟨imgs, a1, ?_, ?_, ?_⟩, ?_⟩
  · rw [h.length] at hk
    refine (h.displace i x).isEnv hc ?_ (h1 k hk hne)
    exact (at_length (r := fun k (_ : ℝ) => s.position k + if k = i then x else 0) 0).symm ▸ hk
  · exact fun p hp => (h.isPartner i p).2 (a2 p hp)
  · intro p hp hl
    have hp' := (h.isPartner i p).1 hp
    rw [h.separation hi hp', ← smul_add, len_eq, norm_smul3 hc.le, ← len_eq] at hl
    exact a3 p hp' (le_of_mul_le_mul_left hl hc)
  · simp only [a4]
    unfold scaleEnv
    rw [List.map_map]
    refine List.map_congr_left fun p hp => ?_
    rw [h.separation hi (a2 p hp), h.element p.1 (a2 p hp).1, ← smul_add]
    rfl
  · rw [h.length]
    refine Finset.sum_congr rfl fun k hk => ?_
    have hk := Finset.mem_range.1 hk
    rw [h.element k hk, hP.atomic hc (hel k hk)]

/-- C91: the forces are the same, expressed in the new unit. -/
theorem C91_forces (hsrt : IsSort srt) (hc : 0 < c) (hM : M.SetUp P n) (hM' : M'.SetUp P' n)
    (hsame : P.SameSettings c P' n) (hP : P.Fits n) (hn : 0 < n) (hs : s.Evaluable M P n)
    (hs' : s'.New n) (hss : s.Rescaled c s') (hsm : P.Smooth (M.listRadius s) s)
    (d d' : Bool) {M1 M1' : Mode} {s1 s1' : Structure}
    (e : M.evaluateNNP srt s true d = some (M1, s1))
    (e' : M'.evaluateNNP srt s' true d' = some (M1', s1')) :
    ∀ i < s.atoms.length, s1'.forceOn i = c⁻¹ • s1.forceOn i := by
  intro i hi
  have hC := hsame.converted hc
  have hel := elementOf_lt hs.new
  have hev := (C91_energy hsrt hc hM hM' hsame hP hn hs hs' hss true d true d').1
  have hsm' : P'.Smooth (M'.listRadius s') s' := by
    rw [listRadius_converted hc hM hM' hC hss]
    exact hss.smooth hc hC hel hsm
  have key : ∀ u : Vec3, c * (s1'.forceOn i).dot u = (s1.forceOn i).dot u := by
    intro u
    have hE : ∀ t : ℝ, ∃ E, IsEnergyFrozen P M.maxCutoffRadius s i (t • u) E := fun t =>
      exists_isEnergyFrozen P _ (fun hp => (hs.new.boxed hp).1) i hi _
    choose E hE using hE
    have hE' : ∀ t : ℝ, IsEnergyFrozen P' (c * M.maxCutoffRadius) s' i (t • c • u) (E t) := by
      intro t
      rw [smul_comm]
      exact hss.isEnergyFrozen hc hC hel hi (hE t)
    have hline : ∀ u : Vec3, HasDerivAt (fun t : ℝ => t • u) u 0 := fun u => by
      simpa using (hasDerivAt_id (0 : ℝ)).smul_const u
    have D1 := forces_frozen hsrt hM hP hn hs hsm d e hi (fun t => t • u) u 0 (zero_smul _ _)
      (hline u) _ (within_max hM hs.new) E hE
    have D2 := forces_frozen hsrt hM' (hC.fits hP) hn hev hsm' d' e' (by rw [hss.length]; exact hi)
      (fun t => t • c • u) _ 0 (zero_smul _ _) (hline _) _ (by
        rw [← hM.max_converted hc hM' hC]
        exact within_max hM' hs') E hE'
    have := D1.unique D2
    have h2 : (s1'.forceOn i).dot (c • u) = c * (s1'.forceOn i).dot u := by
      simp only [Vec3.dot, Pi.smul_apply, smul_eq_mul]
      ring
    rw [h2] at this
    linarith
  funext k
  have h5 := key (Pi.single k 1)
  rw [Pi.smul_apply, smul_eq_mul, eq_inv_mul_iff_mul_eq₀ hc.ne']
  fin_cases k <;> simpa [Vec3.dot] using h5

/-- A liquid evaluated in two units of length. -/
example : ∃ (srt : List Neighbor → List Neighbor) (M M' M1 M1' : Mode) (s1 s1' : Structure),
    IsSort srt ∧ M.SetUp exPotential 2 ∧ M'.SetUp (exUnitPotential 2) 2 ∧
    exPotential.SameSettings 2 (exUnitPotential 2) 2 ∧ exLiquid.Rescaled 2 exHalfLiquid ∧
    M.evaluateNNP srt exLiquid true false = some (M1, s1) ∧
    M'.evaluateNNP srt exHalfLiquid true false = some (M1', s1') ∧
    s1'.energyShort = s1.energyShort ∧ s1'.forceOn 0 = (2 : ℝ)⁻¹ • s1.forceOn 0 := by
  obtain ⟨srt, hsrt⟩ := exists_isSort
  obtain ⟨M, hM, -⟩ := exists_exMode
  obtain ⟨M', hM'⟩ := exists_exUnitMode two_pos
  have hev : exLiquid.Evaluable M exPotential 2 := exPotential_evaluable exLiquid_new exLiquid_apart
  obtain ⟨-, M1, s1, M1', s1', h1, h2, h3, -⟩ := C91_energy hsrt two_pos hM hM' (exUnit_same 2)
    exPotential_fits two_pos hev exHalfLiquid_new exHalfLiquid_rescaled true false true false
  refine ⟨srt, M, M', M1, M1', s1, s1', hsrt, hM, hM', (exUnit_same 2), exHalfLiquid_rescaled, h1, h2, h3, ?_⟩
  exact C91_forces hsrt two_pos hM hM' (exUnit_same 2) exPotential_fits two_pos hev exHalfLiquid_new
    exHalfLiquid_rescaled (exPotential_smooth exLiquid_apart _) false false h1 h2 0
    (by rw [show exLiquid.atoms.length = 3 from exSystem_length]; norm_num)

/-! ### Forces after data set normalization -/

theorem atoms_f (s : Structure) : s.atoms.map Atom.f = (List.range s.atoms.length).map s.forceOn := by
  apply List.ext_getElem?
  intro i
  rw [List.getElem?_map, List.getElem?_map]
  by_cases hi : i < s.atoms.length
  · rw [List.getElem?_eq_getElem hi, List.getElem?_range hi]
    simp [Structure.forceOn, hi]
  · rw [List.getElem?_eq_none (by omega), List.getElem?_eq_none (by simp; omega)]
    rfl

theorem nnpForces_eq (ss : List Structure) : nnpForces ss =
    ss.flatMap fun s => (s.atoms.map Atom.f).flatMap fun f => [f 0, f 1, f 2] := by
  unfold nnpForces
  refine List.flatMap_congr fun s _ => ?_
  rw [List.flatMap_map]

/-- C90 (mode `force`): the forces predicted with the new settings for the converted structures
have standard deviation 1. `olds` are the structures as read, `procs` hold the forces predicted for them
before the normalization, `news` are the converted structures. -/
theorem C90_predicted {nan : ℝ} {N : NumberText} {stage1 : Bool} {cont : Contents}
    {lines : List Str} {procs : List (List Structure)} {old : ModeUnits} {r : NormResult}
    (hrun : dataSetNormalization nan N stage1 cont lines procs old = .ok r)
    (hmode : getValue cont "normalize_data_set".toList = .ok "force".toList)
    (hcnt : Counted procs.flatten) (h2 : 2 ≤ procs.flatten.length)
    (hF : listSigma (refForces procs.flatten) ≠ 0) (hN : listSigma (nnpForces procs.flatten) ≠ 0)
    {procs' : List (List Structure)} (hconv : normalizeAll r.units procs = some procs')
    (hsrt : IsSort srt) (hP : P.Fits n) (hn : 0 < n)
    (hsame : P.SameSettings r.units.convLength P' n) (hset : ∃ M' : Mode, M'.SetUp P' n)
    (olds news : List Structure)
    (hold : List.Forall₂ (fun s t => ∃ s1, P.Predicts srt n s s1 ∧
      t.atoms.map Atom.f = s1.atoms.map Atom.f) olds procs.flatten)
    (hnew : List.Forall₂ (fun s s' => s.Rescaled r.units.convLength s' ∧ s'.New n) olds news) :
    (∀ s' ∈ news, ∃ s1', P'.Predicts srt n s' s1') ∧
    ∀ results, List.Forall₂ (P'.Predicts srt n) news results → listSigma (nnpForces results) = 1 := by
  obtain ⟨-, -, -, -, h5, h6⟩ := C90_force hrun hmode hcnt h2 hF hN hconv
  have hc : 0 < r.units.convLength := by
    rw [h6]
    exact lt_of_le_of_ne (listSigma_nonneg _) (Ne.symm hN)
  have hC := hsame.converted hc
  obtain ⟨M', hM'⟩ := hset
  constructor
  · intro s' hs'
    obtain ⟨k, hk⟩ := List.getElem?_of_mem hs'
    obtain ⟨s, hs, hr, hnw⟩ := forall2_getElem? hnew hk
    obtain ⟨t, -, s1, ⟨M, M1, d, a1, a2, a3, a5⟩, -⟩ := forall2_getElem?' hold hs
    have hel := elementOf_lt a2.new
    obtain ⟨hev, -, -, M1', s1', -, e', -⟩ :=
      C91_energy hsrt hc a1 hM' hsame hP hn a2 hnw hr true d true false
    refine ⟨s1', M', M1', false, hM', hev, ?_, e'⟩
    rw [listRadius_converted hc a1 hM' hC hr]
    exact hr.smooth hc hC hel a3
  · intro results hres
    rw [← h5]
    congr 1
    rw [nnpForces_eq, nnpForces_eq]
    generalize procs.flatten = ts at hold
    clear h5 h6 hN hF h2 hcnt hrun hconv
    induction hold generalizing news results with
    | nil =>
      cases hnew
      cases hres
      rfl
    | @cons s t ss ts hst _ ih =>
      cases hnew with
      | @cons _ s' _ ss' hr hnew =>
        cases hres with
        | @cons _ u _ us hu hres =>
          rw [List.flatMap_cons, List.flatMap_cons, List.map_append, ih _ hnew _ hres]
          congr 1
          obtain ⟨s1, ⟨M, M1, d, a1, a2, a3, a5⟩, hf⟩ := hst
          obtain ⟨M2, M3, d', b1, b2, b3, b5⟩ := hu
          have key := C91_forces hsrt hc a1 b1 hsame hP hn a2 hr.2 hr.1 a3 d d' a5 b5
          obtain ⟨_, _, g1, -, gl, -⟩ := C74_energy hsrt a1 hP hn a2 true d
          rw [a5] at g1
          cases g1
          obtain ⟨_, _, k1, -, kl, -⟩ := C74_energy hsrt b1 (hC.fits hP) hn b2 true d'
          rw [b5] at k1
          cases k1
          rw [hf, atoms_f, atoms_f, kl, gl, hr.1.length, List.flatMap_map, List.flatMap_map,
            List.map_flatMap]
          refine List.flatMap_congr fun i hi => ?_
          rw [key i (List.mem_range.1 hi)]
          simp only [Pi.smul_apply, smul_eq_mul, List.map_cons, List.map_nil, div_eq_inv_mul]

/-- A structure of a data set whose reference forces are the predicted ones. -/
def exPredicted (g : ℕ → Vec3) : Structure :=
  { Structure.init with
    numAtoms := 3
    atoms := (List.range 3).map fun i =>
      { Atom.init with
        f := g i
        fRef := g i } }

theorem exPredicted_conv (g : ℕ → Vec3) (u : ModeUnits) :
    ∃ p, normalizeAll u [[exPredicted g], [exPredicted g]] = some p := by
  simp [normalizeAll, exPredicted, Structure.toNormalizedUnits, List.range_succ,
    Atom.toNormalizedUnits, Atom.derivativesAllocated, Atom.init]

theorem exPredicted_sigma {g : ℕ → Vec3} (h0 : g 0 + g 1 + g 2 = 0) (h1 : g 2 1 ≠ 0) :
    listSigma (nnpForces [exPredicted g, exPredicted g]) ≠ 0 := by
  have e : ∀ k, g 0 k + g 1 k + g 2 k = 0 := fun k => congrFun h0 k
  have hl : nnpForces [exPredicted g, exPredicted g] =
      [g 0 0, g 0 1, g 0 2, g 1 0, g 1 1, g 1 2, g 2 0, g 2 1, g 2 2,
       g 0 0, g 0 1, g 0 2, g 1 0, g 1 1, g 1 2, g 2 0, g 2 1, g 2 2] := rfl
  have hm : listMean (nnpForces [exPredicted g, exPredicted g]) = 0 := by
    rw [hl]
    unfold listMean
    simp only [List.sum_cons, List.sum_nil]
    rw [div_eq_zero_iff]
    left
    linarith [e 0, e 1, e 2]
  unfold listSigma
  rw [hm, hl]
  simp only [List.map_cons, List.map_nil, List.sum_cons, List.sum_nil, sub_zero, List.length_cons,
    List.length_nil]
  apply ne_of_gt
  rw [Real.sqrt_pos]
  norm_num
  have : 0 < g 2 1 ^ 2 := by positivity
  positivity

/-- The data set: the same three atoms twice. -/
example : ∃ (srt : List Neighbor → List Neighbor) (t : ℝ) (procs procs' : List (List Structure))
    (r : NormResult) (results : List Structure), IsSort srt ∧
    dataSetNormalization 0 exText false (parseLines (exNormLines "force" []))
      (exNormLines "force" []) procs ⟨0, 1, 1, 1⟩ = .ok r ∧
    normalizeAll r.units procs = some procs' ∧
    List.Forall₂ (fun s t => ∃ s1, exPotential.Predicts srt 2 s s1 ∧
      t.atoms.map Atom.f = s1.atoms.map Atom.f) [exTriple 1 t, exTriple 1 t] procs.flatten ∧
    exPotential.SameSettings r.units.convLength (exUnitPotential r.units.convLength) 2 ∧
    List.Forall₂ ((exUnitPotential r.units.convLength).Predicts srt 2)
      [exTriple r.units.convLength t, exTriple r.units.convLength t] results ∧
    listSigma (nnpForces results) = 1 := by
  obtain ⟨srt, hsrt⟩ := exists_isSort
  obtain ⟨M, hM, -⟩ := exists_exMode
  obtain ⟨t, M1, s1, ht, he, hne⟩ := exists_force hsrt hM
  have hev : (exTriple 1 t).Evaluable M exPotential 2 :=
    exPotential_evaluable (exTriple_new 1 t) (exTriple_apart ht)
  have hsm := exPotential_smooth (exTriple_apart ht) (M.listRadius (exTriple 1 t))
  have hno : exPotential.NoOwnImages (exTriple 1 t) := exTriple_noOwnImages _ _ _
  obtain ⟨_, _, g1, -, gl, -⟩ := C74_energy hsrt hM exPotential_fits (by norm_num) hev true false
  rw [he] at g1
  cases g1
  have h0 := C35_total_force_partial hsrt hM exPotential_fits (by norm_num) hev hno false he
  rw [exTriple_length, Finset.sum_range_succ, Finset.sum_range_succ, Finset.sum_range_one] at h0
  have hS := exPredicted_sigma h0 hne
  set p := exPredicted s1.forceOn with hp
  have hm : getValue (parseLines (exNormLines "force" [])) "normalize_data_set".toList =
      .ok "force".toList := by decide +kernel
  obtain ⟨r, hr⟩ := C90_runs 0 exText_sane (exNormLines "force" []) [[p], [p]] ⟨0, 1, 1, 1⟩ hm
    (.inr ⟨rfl, (find?_isSome_iff _ _).1 (by decide +kernel)⟩)
  obtain ⟨p', hp'⟩ := exPredicted_conv s1.forceOn r.units
  have hcnt : Counted [[p], [p]].flatten := by
    intro s hs
    simp only [List.flatten_cons, List.flatten_nil, List.append_nil, List.cons_append,
      List.nil_append, List.mem_cons, List.not_mem_nil, or_false, or_self] at hs
    rw [hs]
    exact ⟨rfl, by simp [hp, exPredicted]⟩
  have hc : 0 < r.units.convLength := by
    rw [(C90_force hr hm hcnt le_rfl hS hS hp').2.2.2.2.2]
    exact lt_of_le_of_ne (listSigma_nonneg _) (Ne.symm hS)
  have hold : List.Forall₂ (fun s t => ∃ s1, exPotential.Predicts srt 2 s s1 ∧
      t.atoms.map Atom.f = s1.atoms.map Atom.f) [exTriple 1 t, exTriple 1 t] [[p], [p]].flatten := by
    have : ∃ s1, exPotential.Predicts srt 2 (exTriple 1 t) s1 ∧ p.atoms.map Atom.f = s1.atoms.map Atom.f := by
      refine ⟨s1, ⟨M, M1, false, hM, hev, hsm, he⟩, ?_⟩
      rw [atoms_f s1, gl, exTriple_length]
      rfl
    exact .cons this (.cons this .nil)
  have hnew : List.Forall₂ (fun s s' => s.Rescaled r.units.convLength s' ∧ s'.New 2)
      [exTriple 1 t, exTriple 1 t] [exTriple r.units.convLength t, exTriple r.units.convLength t] :=
    .cons ⟨exTriple_rescaled _ t, exTriple_new _ t⟩ (.cons ⟨exTriple_rescaled _ t, exTriple_new _ t⟩ .nil)
  obtain ⟨k1, k2⟩ := C90_predicted hr hm hcnt le_rfl hS hS hp' hsrt exPotential_fits
    (by norm_num) (exUnit_same _) (exists_exUnitMode hc) _ _ hold hnew
  obtain ⟨u, hu⟩ := k1 _ List.mem_cons_self
  have hres : List.Forall₂ ((exUnitPotential r.units.convLength).Predicts srt 2)
      [exTriple r.units.convLength t, exTriple r.units.convLength t] [u, u] :=
    .cons hu (.cons hu .nil)
  exact ⟨srt, t, _, p', r, [u, u], hsrt, hr, hp', hold, exUnit_same _, hres, k2 _ hres⟩

end N2P2
