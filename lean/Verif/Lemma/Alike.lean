import Verif.Spec.Mode4G
import Verif.Lemma.SameLists

/-! Structures with the same atoms at the same places have the same energies. -/

namespace N2P2

/-- Same elements at the same places, same box and total charge. -/
structure Structure.Alike (s s' : Structure) : Prop where
  count : s'.atoms.length = s.atoms.length
  per : s'.isPeriodic = s.isPeriodic
  box : s'.box = s.box
  ref : s'.chargeRef = s.chargeRef
  position : ∀ i, s'.position i = s.position i
  elementOf : ∀ i, s'.elementOf i = s.elementOf i

theorem Structure.SameLists.alike {s s' : Structure} (h : s.SameLists s')
    (hr : s'.chargeRef = s.chargeRef) : s.Alike s' :=
  ⟨h.count, h.per, h.box, hr, h.position, h.elementOf⟩

namespace Structure.Alike

variable {s s' s'' s0 : Structure} {q : Qeq} {U : Structure → ℕ → ℝ} {V W : Structure → ℕ → ℕ → ℝ}

theorem symm (h : s.Alike s') : s'.Alike s :=
  ⟨h.count.symm, h.per.symm, h.box.symm, h.ref.symm, fun i => (h.position i).symm,
    fun i => (h.elementOf i).symm⟩

theorem trans (h : s.Alike s') (h' : s'.Alike s'') : s.Alike s'' :=
  ⟨h'.count.trans h.count, h'.per.trans h.per, h'.box.trans h.box, h'.ref.trans h.ref,
    fun i => (h'.position i).trans (h.position i), fun i => (h'.elementOf i).trans (h.elementOf i)⟩

theorem separation (h : s.Alike s') (i : ℕ) (p : ℕ × (Fin 3 → ℤ)) :
    s'.separation i p = s.separation i p := by
  unfold Structure.separation
  rw [h.position, h.position, h.box]

theorem isPartner (h : s.Alike s') (i : ℕ) (p : ℕ × (Fin 3 → ℤ)) :
    s'.IsPartner i p ↔ s.IsPartner i p := by
  unfold Structure.IsPartner
  rw [h.count, h.per]

theorem apart (h : s.Alike s') (ha : s.Apart) : s'.Apart := fun i hi p hp => by
  rw [h.separation]
  exact ha i (h.count ▸ hi) p ((h.isPartner i p).1 hp)

theorem isEnv (h : s.Alike s') {R : ℝ} {i : ℕ} {env : List Site} (he : IsEnv s R i env) :
    IsEnv s' R i env := by
  obtain ⟨imgs, h1, h2, h3, rfl⟩ := he
  refine ⟨imgs, h1, fun p hp => (h.isPartner i p).2 (h2 p hp), fun p hp hl => ?_, ?_⟩
  · rw [h.separation] at hl
    exact h3 p ((h.isPartner i p).1 hp) hl
  · refine List.map_congr_left fun p _ => ?_
    rw [h.elementOf, h.separation]

theorem images (h : s.Alike s') {R : ℝ} {imgs : ℕ → List (ℕ × (Fin 3 → ℤ))}
    (hi : s.Images R imgs) : s'.Images R imgs := by
  refine ⟨fun i hl => hi.nodup i (h.count ▸ hl), fun i hl p hp => ?_, fun i hl p hp hd => ?_⟩
  · exact (h.isPartner i p).2 (hi.partner i (h.count ▸ hl) p hp)
  · rw [h.separation] at hd
    exact hi.complete i (h.count ▸ hl) p ((h.isPartner i p).1 hp) hd

theorem interacts (h : s.Alike s') (hI : q.Interacts s U V W) : q.Interacts s' U V W := by
  cases hI with
  | cluster hp => exact .cluster (h.per.trans hp)
  | periodic hp imgs imgs' hi hi' S hS =>
    exact .periodic (h.per.trans hp) imgs imgs' (h.images hi) (h.images hi') S (h.box ▸ hS)

theorem interacts_eq (h : s.Alike s') (hI : q.Interacts s0 U V W) :
    U s' = U s ∧ V s' = V s ∧ W s' = W s := by
  cases hI with
  | cluster hp =>
    refine ⟨funext fun i => ?_, funext fun i => funext fun j => ?_,
      funext fun i => funext fun j => ?_⟩
    · unfold Qeq.openU
      rw [h.elementOf]
    · unfold Qeq.openV
      rw [h.elementOf, h.elementOf, h.position, h.position]
    · unfold Qeq.openW Qeq.openV
      rw [h.elementOf, h.elementOf, h.position, h.position]
  | periodic hp imgs imgs' hi hi' S hS =>
    have h1 : ∀ i j, q.ewaldReal s' imgs i j = q.ewaldReal s imgs i j := by
      intro i j
      unfold Qeq.ewaldReal
      simp only [h.separation, h.elementOf]
    have h2 : ∀ i j, q.ewaldRecip s' S i j = q.ewaldRecip s S i j := by
      intro i j
      unfold Qeq.ewaldRecip
      simp only [h.position, h.box]
    refine ⟨funext fun i => ?_, funext fun i => funext fun j => ?_,
      funext fun i => funext fun j => ?_⟩
    · dsimp only
      unfold Qeq.ewaldU
      rw [h1, h2, h.elementOf]
    · dsimp only
      unfold Qeq.ewaldV
      rw [h1, h2]
    · dsimp only
      unfold Qeq.screenW
      simp only [h.separation, h.elementOf]

theorem «at» (h : s.Alike s') (r : ℕ → ℝ → Vec3) (t : ℝ) : (s.at r t).Alike (s'.at r t) := by
  refine ⟨by rw [at_length, at_length, h.count], h.per, h.box, h.ref, fun i => ?_, fun i => ?_⟩
  · by_cases hi : i < s.atoms.length
    · rw [at_position t hi, at_position t (h.count ▸ hi)]
    · unfold Structure.position Structure.at Structure.move
      simp only [List.getElem?_mapIdx]
      rw [List.getElem?_eq_none (by rw [h.count]; omega), List.getElem?_eq_none (by omega)]
  · rw [at_elementOf, at_elementOf, h.elementOf]

theorem moves (h : s.Alike s') {r : ℕ → ℝ → Vec3} {v : ℕ → Vec3} {t0 : ℝ}
    (hm : s.Moves r v t0) : s'.Moves r v t0 :=
  ⟨fun i hi => by rw [h.position]; exact hm.start i (h.count ▸ hi),
    fun i hi => hm.velocity i (h.count ▸ hi)⟩

theorem equilibrium (h : s.Alike s') {χ J U : ℕ → ℝ} {V : ℕ → ℕ → ℝ} {x : ℕ → ℝ}
    (he : Qeq.Equilibrium s χ J U V x) : Qeq.Equilibrium s' χ J U V x := by
  obtain ⟨h1, c, h2⟩ := he
  refine ⟨by rw [h.count, h.ref]; exact h1, c, fun i hi => ?_⟩
  rw [← h2 i (h.count ▸ hi)]
  unfold Qeq.potential
  rw [h.count]

theorem state (h : s.Alike s') {P : Potential4G} {R : ℝ} {U : ℕ → ℝ} {V : ℕ → ℕ → ℝ}
    {env : ℕ → List Site} {x : ℕ → ℝ} (he : IsState4G P q R s U V env x) :
    IsState4G P q R s' U V env x := by
  refine ⟨fun i hi => h.isEnv (he.near i (h.count ▸ hi)), ?_⟩
  simp only [h.elementOf]
  exact h.equilibrium he.equilibrium

theorem storedEnergy (h : s.Alike s') {U : ℕ → ℝ} {V W : ℕ → ℕ → ℝ} (x : ℕ → ℝ) :
    q.storedEnergy s' U V W x = q.storedEnergy s U V W x := by
  unfold Qeq.storedEnergy
  simp only [h.count, h.elementOf]

theorem elecEnergy (h : s.Alike s') {P : Potential4G} {R E : ℝ} (hI : q.Interacts s0 U V W)
    (he : IsElecEnergy P q R U V W s E) : IsElecEnergy P q R U V W s' E := by
  obtain ⟨e1, e2, e3⟩ := h.interacts_eq hI
  obtain ⟨env, x, h1, rfl⟩ := he
  refine ⟨env, x, ?_, ?_⟩
  · rw [e1, e2]
    exact h.state h1
  · rw [e1, e2, e3, h.storedEnergy]

theorem energy4G (h : s.Alike s') {P : Potential4G} {R E : ℝ} (hI : q.Interacts s0 U V W)
    (he : IsEnergy4G P q R U V W s E) : IsEnergy4G P q R U V W s' E := by
  obtain ⟨e1, e2, e3⟩ := h.interacts_eq hI
  obtain ⟨env, x, h1, rfl⟩ := he
  refine ⟨env, x, ?_, ?_⟩
  · rw [e1, e2]
    exact h.state h1
  · simp only [e1, e2, e3, h.storedEnergy, h.count, h.elementOf]

theorem solvable (h : s.Alike s') {U : ℕ → ℝ} {V : ℕ → ℕ → ℝ} (hS : q.Solvable s U V) :
    q.Solvable s' U V := by
  unfold Qeq.Solvable at hS ⊢
  simp only [h.count, h.elementOf]
  exact hS

end Structure.Alike

end N2P2
