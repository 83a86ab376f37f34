import Verif.Lemma.CheckForces
import Verif.Lemma.CheckForcesCopy

/-! Evaluation of structures in nnp-checkf. -/

namespace N2P2

open scoped Topology

variable {srt : List Neighbor → List Neighbor} {q : Prediction} {M M' : Mode} {P : Potential} {n : ℕ} {s s' u : Structure}

theorem evaluate_numAtoms {f d : Bool} (he : M.evaluateNNP srt s f d = some (M', s')) : s'.numAtoms = s.numAtoms := by
  unfold Mode.evaluateNNP at he
  obtain ⟨s1, e1, he⟩ := Option.bind_eq_some_iff.1 he
  obtain ⟨s2, e2, he⟩ := Option.bind_eq_some_iff.1 he
  obtain ⟨r, e3, he⟩ := Option.bind_eq_some_iff.1 he
  obtain ⟨-, a2⟩ := calculateNeighborList_around e1
  have h1 : s1.numAtoms = s.numAtoms := (congrArg Structure.numAtoms a2 :)
  have h2 : s2.numAtoms = s1.numAtoms := by
    unfold Mode.calculateSymmetryFunctions at e2
    split_ifs at e2
    all_goals first
      | (cases e2; rfl)
      | (obtain ⟨bs, -, m2⟩ := Option.bind_eq_some_iff.1 e2; cases m2; rfl)
  dsimp only at he
  cases f with
  | false =>
    rw [if_neg (by simp)] at he
    cases he
    exact h2.trans h1
  | true =>
    rw [if_pos rfl] at he
    obtain ⟨s3, e4, he⟩ := Option.bind_eq_some_iff.1 he
    cases he
    unfold Mode.calculateForces at e4
    obtain ⟨cs, -, e5⟩ := Option.bind_eq_some_iff.1 e4
    cases e5
    exact h2.trans h1

/-- The energy of a structure in physical units, without the offsets of the elements. -/
def Prediction.IsPlainEnergy (q : Prediction) (P : Potential) (s : Structure) (x : ℝ) : Prop :=
  ∃ R E, P.Within R s ∧ N2P2.IsEnergy P R (s.scaled q.lengthUnit) E ∧ x = E / q.energyUnit + (s.atoms.length : ℝ) * q.meanEnergy

/-- Atoms of `w` carry the forces of the structure `s`. -/
def Prediction.HasForces (q : Prediction) (P : Potential) (M : Mode) (s w : Structure) : Prop :=
  P.Smooth M.maxCutoffRadius (s.scaled q.lengthUnit) → P.NoOwnImages (s.scaled q.lengthUnit) →
    ∀ (r : ℕ → ℝ → Vec3) (v : ℕ → Vec3) (t : ℝ), (∀ i < s.atoms.length, r i t = s.position i) →
      (∀ i < s.atoms.length, HasDerivAt (r i) (v i) t) → ∀ R, P.Within R s → ∀ E : ℝ → ℝ,
      (∀ x, N2P2.IsEnergy P R ((s.move fun i => r i x).scaled q.lengthUnit) (E x)) →
      HasDerivAt (fun x => E x / q.energyUnit) (-∑ i ∈ Finset.range s.atoms.length, (w.forceOn i).dot (v i)) t

theorem freeAll_allocated (s : Structure) : ∀ a ∈ s.freeAll.atoms, a.derivativesAllocated = true := by
  intro a ha
  obtain ⟨b, -, rfl⟩ := List.mem_map.1 ha
  rfl

theorem check_one (hsrt : IsSort srt) (hM : M.SetUp P n) (hP : P.Fits n) (hn : 0 < n) (hL : q.lengthUnit ≠ 0) (hdone : ReadDone n u) (hu : Prediction.Suits { q with mode := M } P u) (f : Bool) :
    ∃ M' w, checkEvaluate srt q M u f = some (M', w) ∧ M'.SetUp P n ∧ M'.maxCutoffRadius = M.maxCutoffRadius ∧
      w.atoms.length = u.atoms.length ∧ (∀ x, q.IsPlainEnergy P u x ↔ x = w.energy) ∧
      (f = true → q.HasForces P M u w) := by
  obtain ⟨t, n1, n2, n3, n4, n5, n6, n7, n8, n9, n10, n11, n12, n13⟩ := toNormalized_spec q hdone
  have hsame : SameSystem (u.scaled q.lengthUnit) t := by
    refine .of_atoms n2 n3 (n12.trans (scaled_length _ _).symm) fun i a ha => ?_
    rw [show (u.scaled q.lengthUnit).atoms = u.atoms.map _ from rfl, List.getElem?_map] at ha
    obtain ⟨a0, h1, rfl⟩ := Option.map_eq_some_iff.1 ha
    obtain ⟨b, h2, h3, -⟩ := n13 i a0 h1
    exact ⟨b, h2, h3.r, h3.element⟩
  have hread' : ∀ (i : ℕ) b, t.atoms[i]? = some b → AtomRead n i b := by
    intro i b hb
    have hi : i < u.atoms.length := by
      rw [← n12]
      exact (List.getElem?_eq_some_iff.1 hb).1
    obtain ⟨b', g1, -, g3⟩ := n13 i _ (List.getElem?_eq_getElem hi)
    rw [hb] at g1
    cases g1
    exact g3
  have hboxed : Boxed u := fun hper => ⟨hu.box hper, hdone.inside hper (hu.box hper)⟩
  have hnew : t.New n := by
    refine ⟨fun b hb => ?_, ?_, ⟨n10.trans hdone.flags.1, n11.trans hdone.flags.2⟩,
      fun b hb => ?_, fun i b hb => (hread' i b hb).index⟩
    · obtain ⟨i, hi, rfl⟩ := List.getElem_of_mem hb
      have := hread' i _ (List.getElem?_eq_getElem hi)
      rw [n6.trans hdone.elements]
      exact ⟨this.fresh, this.element⟩
    · intro hper
      obtain ⟨b1, b2⟩ := scaled_boxed hL hboxed (n2.symm.trans hper)
      rw [n3]
      refine ⟨b1, fun b hb => ?_⟩
      obtain ⟨i, hi, rfl⟩ := List.getElem_of_mem hb
      have hi' : i < u.atoms.length := by
        rw [← n12]
        exact hi
      obtain ⟨b', g1, g2, -⟩ := n13 i _ (List.getElem?_eq_getElem hi')
      rw [List.getElem?_eq_getElem hi] at g1
      rw [Option.some.inj g1, g2.r]
      exact b2 _ (List.mem_map.2 ⟨_, List.getElem_mem hi', rfl⟩)
    · obtain ⟨i, hi, rfl⟩ := List.getElem_of_mem hb
      have := hread' i _ (List.getElem?_eq_getElem hi)
      exact ⟨this.element, this.flags.1, this.flags.2.1, this.flags.2.2.1⟩
  have hrad : t.maxCutoffRadiusOverall = 0 := n9.trans hdone.rest.2
  have hlist : M.listRadius t = M.maxCutoffRadius := by
    unfold Mode.listRadius
    rw [hrad]
    exact max_eq_left hM.max_nonneg
  have hev : t.Evaluable M P n := by
    refine ⟨hnew, hsame.apart.2 (scaled_apart hL hu.apart), ?_⟩
    rw [hlist]
    exact hsame.triplets.2 hu.triplets
  obtain ⟨M', s', he, hM', hmax, hlen', -⟩ := evaluateNNP_eq hsrt hM hP hn hev.new hev.apart hev.triplets f false
  obtain ⟨M'', s'', he', -, -, -, hen⟩ := C74_energy hsrt hM hP hn hev f false
  rw [he] at he'
  cases he'
  have hk := evaluate_numAtoms he
  obtain ⟨w, w1, w2, w3, w4, w5, w6, w7, w8, w9, w10, w11⟩ := toPhysical_spec q (freeAll_allocated s')
  have hlen : t.atoms.length = u.atoms.length := n12
  have hfree : s'.freeAll.atoms.length = s'.atoms.length := by simp [Structure.freeAll]
  have hnum : (s'.freeAll.numAtoms : ℝ) = u.atoms.length := by
    show (s'.numAtoms : ℝ) = _
    rw [(hk.trans n4).trans hdone.numAtoms]
  have hW : ∀ R, P.Within R u → P.Within R (u.scaled q.lengthUnit) := by
    intro R hR i hi
    rw [scaled_length] at hi
    rw [scaled_element]
    exact hR i hi
  have hval : ∀ R E, P.Within R u → IsEnergy P R (u.scaled q.lengthUnit) E →
      E / q.energyUnit + (u.atoms.length : ℝ) * q.meanEnergy = w.energy := by
    intro R E hR hEn
    rw [w7, hnum]
    have := (hen R E (hsame.within.2 (hW R hR)) (hsame.isEnergy.2 hEn)).2
    rw [n8, hdone.rest.1, add_zero] at this
    rw [show s'.freeAll.energy = s'.energy from rfl, this]
  refine ⟨M', w, ?_, hM', hmax, (w10.trans hfree).trans (hlen'.trans hlen), fun x => ⟨?_, ?_⟩, ?_⟩
  · unfold checkEvaluate
    refine (congrArg (Option.bind · _) n1).trans ?_
    refine (congrArg (Option.bind · _) he).trans ?_
    exact (congrArg (Option.bind · _) w1).trans rfl
  · rintro ⟨R, E, hR, hEn, rfl⟩
    exact hval R E hR hEn
  · rintro rfl
    have hR : P.Within M.maxCutoffRadius u := by
      intro i hi S hS
      refine (hM.valid ?_ hS).2.2
      rw [elementOf_eq (List.getElem?_eq_getElem hi)]
      exact (hdone.atom i _ (List.getElem?_eq_getElem hi)).element
    obtain ⟨E, hEn⟩ := exists_isEnergy P M.maxCutoffRadius (s := u.scaled q.lengthUnit) fun hp =>
      (scaled_boxed hL hboxed hp).1
    exact ⟨_, E, hR, hEn, (hval _ E hR hEn).symm⟩
  · rintro rfl hsm hown r v τ h0 hv R hR E hEn
    have hd := C75_forces_partial hsrt hM hP hn hev (by rw [hlist]; exact hsame.smooth.2 hsm)
      (hsame.noOwnImages.2 hown) false he (fun i x => q.lengthUnit • r i x) (fun i => q.lengthUnit • v i) τ
      (fun i hi => by
        rw [hlen] at hi
        rw [h0 i hi, hsame.position, scaled_position])
      (fun i hi => HasDerivAt.const_smul q.lengthUnit (hv i (by rwa [hlen] at hi))) R (hsame.within.2 (hW R hR)) E
      (fun x => by
        have := hEn x
        rw [scaled_move] at this
        exact (hsame.move _).isEnergy.2 this)
    refine (hd.div_const _).congr_deriv ?_
    rw [hlen, neg_div, Finset.sum_div]
    congr 1
    refine Finset.sum_congr rfl fun i hi => ?_
    have hi : i < s'.freeAll.atoms.length := by
      rw [hfree, hlen', hlen]
      exact Finset.mem_range.1 hi
    obtain ⟨d, g1, g2⟩ := w11 i _ (List.getElem?_eq_getElem hi)
    have hf : w.forceOn i = (q.lengthUnit / q.energyUnit) • s'.forceOn i := by
      unfold Structure.forceOn
      rw [g1]
      show d.f = _
      rw [g2.f]
      have hi2 : i < s'.atoms.length := by rw [← hfree]; exact hi
      rw [List.getElem?_eq_getElem hi2]
      congr 1
      simp only [Structure.freeAll, List.getElem_map]
      rfl
    rw [hf]
    simp only [Vec3.dot, Pi.smul_apply, smul_eq_mul]
    ring

/-! ### All structures of a process -/

/-- A structure which the potential can be evaluated for. `c`: the cutoff radius. -/
structure Prediction.Good (q : Prediction) (P : Potential) (n : ℕ) (c : ℝ) (s : Structure) : Prop where
  done : ReadDone n s
  suits : ∀ M : Mode, M.maxCutoffRadius = c → Prediction.Suits { q with mode := M } P s

theorem check_all (hsrt : IsSort srt) (hP : P.Fits n) (hn : 0 < n) (hL : q.lengthUnit ≠ 0)
    (f : Bool) : ∀ (l : List Structure) (M : Mode), M.SetUp P n → (∀ s ∈ l, q.Good P n M.maxCutoffRadius s) →
    ∃ M' ws, checkAll srt q f M l = some (M', ws) ∧ M'.SetUp P n ∧ M'.maxCutoffRadius = M.maxCutoffRadius ∧
      List.Forall₂ (fun s w => w.atoms.length = s.atoms.length ∧ (∀ x, q.IsPlainEnergy P s x ↔ x = w.energy) ∧
        (f = true → q.HasForces P M s w)) l ws
  | [], M, hM, _ => ⟨M, [], rfl, hM, rfl, .nil⟩
  | s :: l, M, hM, hl => by
    have hs := hl s List.mem_cons_self
    obtain ⟨M1, w, h1, h2, h3, h4, h5, h6⟩ := check_one hsrt hM hP hn hL hs.done (hs.suits M rfl) f
    obtain ⟨M2, ws, g1, g2, g3, g4⟩ := check_all hsrt hP hn hL f l M1 h2 fun s hs => by
      rw [h3]
      exact hl s (List.mem_cons_of_mem _ hs)
    refine ⟨M2, w :: ws, ?_, g2, g3.trans h3, .cons ⟨h4, h5, h6⟩ (g4.imp fun s w h => ⟨h.1, h.2.1, fun hf => ?_⟩)⟩
    · unfold checkAll
      refine (congrArg (Option.bind · _) h1).trans ?_
      exact (congrArg (Option.bind · _) g1).trans rfl
    · have := h.2.2 hf
      unfold Prediction.HasForces at this ⊢
      rw [h3] at this
      exact this

/-- The displaced copies and their energies. -/
structure CopiesOK (q : Prediction) (P : Potential) (n : ℕ) (c : ℝ) (u : Structure) (delta : ℝ) (D : ℕ → Structure)
    (X : ℕ → ℝ) : Prop where
  copy : ∀ k < 6 * u.atoms.length, displacedCopy u delta k = some (D k)
  good : ∀ k < 6 * u.atoms.length, q.Good P n c (D k)
  energy : ∀ k < 6 * u.atoms.length, q.IsPlainEnergy P (D k) (X k)

theorem mapM_copies {u : Structure} {delta : ℝ} {D : ℕ → Structure} : ∀ (ks : List ℕ),
    (∀ k ∈ ks, displacedCopy u delta k = some (D k)) → ks.mapM (displacedCopy u delta) = some (ks.map D)
  | [], _ => rfl
  | k :: ks, h => by
    rw [List.mapM_cons, h k List.mem_cons_self, mapM_copies ks fun k hk => h k (List.mem_cons_of_mem _ hk)]
    rfl

theorem check_process (hsrt : IsSort srt) (hP : P.Fits n) (hn : 0 < n) (hL : q.lengthUnit ≠ 0)
    (hM : M.SetUp P n) {delta : ℝ} {D : ℕ → Structure} {X : ℕ → ℝ} (hu : q.Good P n M.maxCutoffRadius u)
    (hD : CopiesOK q P n M.maxCutoffRadius u delta D X) {numProcs p : ℕ} (hp : p < numProcs) :
    ∃ r : CheckPart, checkProcess srt q u delta numProcs M p = some r ∧ r.mode.SetUp P n ∧
      r.mode.maxCutoffRadius = M.maxCutoffRadius ∧
      r.table = (((copyNumbers (1 + 6 * u.atoms.length) numProcs p).map fun c =>
        (Pi.single c (entryOf c (X c)) : ℕ → CheckEntry)).sum) ∧
      (p = 0 → ∃ w, r.structures.head? = some w ∧ w.atoms.length = u.atoms.length ∧ q.HasForces P M u w) := by
  have hN : u.numAtoms = u.atoms.length := hu.done.numAtoms
  set ks := copyNumbers (1 + 6 * u.atoms.length) numProcs p with hks
  have hlt : ∀ k ∈ ks, k < 6 * u.atoms.length := fun k hk => copyNumbers_lt hp hk
  obtain ⟨M1, w1, h1, h2, h3, h4⟩ := check_all hsrt hP hn hL true (if p = 0 then [u] else []) M hM (by
    intro s hs
    split_ifs at hs
    · rw [List.mem_singleton.1 hs]
      exact hu
    · cases hs)
  obtain ⟨M2, w2, g1, g2, g3, g4⟩ := check_all hsrt hP hn hL false (ks.map D) M1 h2 (by
    intro s hs
    obtain ⟨k, hk, rfl⟩ := List.mem_map.1 hs
    rw [h3]
    exact hD.good k (hlt k hk))
  have hz : ks.zip (w2.map fun s => s.energy) = ks.map fun k => (k, X k) := by
    have : ∀ (l : List ℕ) (ws : List Structure), (∀ k ∈ l, k < 6 * u.atoms.length) →
        List.Forall₂ (fun s w => w.atoms.length = s.atoms.length ∧ (∀ x, q.IsPlainEnergy P s x ↔ x = w.energy) ∧
          (false = true → q.HasForces P M1 s w)) (l.map D) ws →
        l.zip (ws.map fun s => s.energy) = l.map fun k => (k, X k) := by
      intro l
      induction l with
      | nil => intro ws _ _; simp
      | cons k l ih =>
        intro ws hl hf
        cases ws with
        | nil => cases hf
        | cons w ws =>
          rw [List.map_cons, List.forall₂_cons] at hf
          rw [List.map_cons, List.zip_cons_cons, ih ws (fun k hk => hl k (List.mem_cons_of_mem _ hk)) hf.2,
            List.map_cons, (hf.1.2.1 (X k)).1 (hD.energy k (hl k List.mem_cons_self))]
    exact this ks w2 hlt g4
  have hfill := fillTable_eq (6 * u.atoms.length) (ks.map fun k => (k, X k)) (by
    intro e he
    obtain ⟨k, hk, rfl⟩ := List.mem_map.1 he
    exact hlt k hk) (by
    rw [List.map_map]
    exact (List.map_id ks).symm ▸ copyNumbers_nodup _ _ _)
  rw [List.map_map] at hfill
  refine ⟨⟨M2, w1 ++ w2, _⟩, ?_, g2, g3.trans h3, rfl, ?_⟩
  · unfold checkProcess
    dsimp only
    rw [hN, Nat.add_sub_cancel_left]
    refine (congrArg (Option.bind · _) (mapM_copies ks fun k hk => hD.copy k (hlt k hk))).trans ?_
    refine (congrArg (Option.bind · _) h1).trans ?_
    refine (congrArg (Option.bind · _) g1).trans ?_
    refine (congrArg (Option.bind · _) ((congrArg _ hz).trans hfill)).trans ?_
    rfl
  · intro h0
    rw [if_pos h0] at h4
    cases h4 with
    | cons ha hb => exact ⟨_, rfl, ha.1, ha.2.2 rfl⟩

theorem sum_flatMap {α β γ : Type} [AddCommMonoid γ] (f : α → List β) (g : β → γ) : ∀ l : List α,
    ((l.flatMap f).map g).sum = (l.map fun a => ((f a).map g).sum).sum
  | [] => rfl
  | a :: l => by
    rw [List.flatMap_cons, List.map_append, List.sum_append, sum_flatMap f g l, List.map_cons, List.sum_cons]

end N2P2
