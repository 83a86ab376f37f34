import Verif.Lemma.ModeList
import Verif.Lemma.SymFncInvariance

/-! The potential energy is the same for the same arrangement of atoms. -/

namespace N2P2

variable {Q : Matrix (Fin 3) (Fin 3) ℝ} {w : Vec3} {σ : ℕ → ℕ} {m : ℕ → Fin 3 → ℤ}
  {s s' : Structure} {P : Potential}

theorem shift_mulVec {box box' : Fin 3 → Vec3} (h : ∀ k, box' k = Q.mulVec (box k))
    (n : Fin 3 → ℤ) : shift box' n = Q.mulVec (shift box n) := by
  unfold shift
  simp only [h, Fin.sum_univ_three, Matrix.mulVec_add, Matrix.mulVec_smul]

theorem shift_add' (box : Fin 3 → Vec3) (n k : Fin 3 → ℤ) :
    shift box (n + k) = shift box n + shift box k := by
  unfold shift
  simp only [Fin.sum_univ_three, Pi.add_apply, Int.cast_add, add_smul]
  abel

namespace SameArrangement

variable (h : SameArrangement Q w σ m s s')
include h

/-- The image of an image. -/
theorem partner {i j : ℕ} (hi : i < s.atoms.length) (hj : j < s.atoms.length) (n : Fin 3 → ℤ) :
    s'.IsPartner (σ i) (σ j, n + (m j - m i)) ↔ s.IsPartner i (j, n) := by
  unfold Structure.IsPartner
  rw [h.length, h.periodic]
  simp only [hj, h.range j hj, true_and, ne_eq, Prod.mk.injEq]
  refine and_congr ?_ (not_congr ?_)
  · cases hp : s.isPeriodic with
    | true => simp
    | false => simp [h.inside hp]
  · constructor
    · rintro ⟨h1, h2⟩
      have := h.injective j hj i hi h1
      subst this
      simpa using h2
    · rintro ⟨rfl, rfl⟩
      simp

theorem separation {i j : ℕ} (hi : i < s.atoms.length) (hj : j < s.atoms.length) {n : Fin 3 → ℤ}
    (hp : s.IsPartner i (j, n)) :
    s'.separation (σ i) (σ j, n + (m j - m i)) = Q.mulVec (s.separation i (j, n)) := by
  unfold Structure.separation
  simp only
  rw [h.position i hi, h.position j hj]
  have e : shift s'.box (n + (m j - m i)) = Q.mulVec (shift s.box (n + (m j - m i))) := by
    cases hpe : s.isPeriodic with
    | true => exact shift_mulVec (h.box hpe) _
    | false =>
      have hn : n = 0 := by simpa [hpe] using hp.2.1
      simp [hn, h.inside hpe, shift_zero]
  rw [e, show (m j - m i : Fin 3 → ℤ) = m j + -m i from sub_eq_add_neg _ _, shift_add', shift_add',
    shift_neg]
  simp only [Matrix.mulVec_add, Matrix.mulVec_sub, Matrix.mulVec_neg]
  abel

theorem surjective {k : ℕ} (hk : k < s.atoms.length) : ∃ i < s.atoms.length, σ i = k := by
  have : Function.Injective fun i : Fin s.atoms.length => (⟨σ i, h.range i i.2⟩ : Fin _) := by
    intro i j hij
    exact Fin.ext (h.injective i i.2 j j.2 (by simpa using hij))
  obtain ⟨i, hi⟩ := (Finite.injective_iff_surjective.1 this) ⟨k, hk⟩
  exact ⟨i, i.2, by simpa using hi⟩

theorem len_mulVec (u : Vec3) : len (Q.mulVec u) = len u := by
  rw [len_eq, len_eq, rot_norm h.orthogonal]

theorem isEnv {R : ℝ} {i : ℕ} (hi : i < s.atoms.length) {env : List Site} (he : IsEnv s R i env) :
    IsEnv s' R (σ i) (env.map (Site.rotate Q)) := by
  obtain ⟨imgs, h1, h2, h3, rfl⟩ := he
  refine ⟨imgs.map fun p => (σ p.1, p.2 + (m p.1 - m i)), ?_, ?_, ?_, ?_⟩
  · refine h1.map_on ?_
    rintro ⟨j, n⟩ hp ⟨j', n'⟩ hp' e
    simp only [Prod.mk.injEq] at e
    have := h.injective j (h2 _ hp).1 j' (h2 _ hp').1 e.1
    subst this
    have e2 := add_right_cancel e.2
    rw [e2]
  · intro p hp
    obtain ⟨⟨j, n⟩, hq, rfl⟩ := List.mem_map.1 hp
    exact (h.partner hi (h2 _ hq).1 n).2 (h2 _ hq)
  · rintro ⟨k, l⟩ hp hl
    obtain ⟨j, hj, rfl⟩ := h.surjective (k := k) (by rw [← h.length]; exact hp.1)
    have e : l = l - (m j - m i) + (m j - m i) := by abel
    rw [e] at hp hl
    have hp' := (h.partner hi hj _).1 hp
    rw [h.separation hi hj hp', h.len_mulVec] at hl
    refine List.mem_map.2 ⟨(j, l - (m j - m i)), h3 _ hp' hl, ?_⟩
    simp
  · rw [List.map_map, List.map_map]
    refine List.map_congr_left fun p hp => ?_
    obtain ⟨j, n⟩ := p
    have hp' := h2 _ hp
    simp only [Function.comp_apply, Site.rotate]
    rw [h.separation hi hp'.1 hp', h.element j hp'.1]

theorem atomic (e : ℕ) (env : List Site) : P.atomic e (env.map (Site.rotate Q)) = P.atomic e env := by
  unfold Potential.atomic
  congr 1
  funext k
  unfold Potential.input
  cases (P.functions e)[k]? with
  | none => rfl
  | some S => simp only [formula_rotate h.orthogonal]

theorem isEnergy {R E : ℝ} (hE : IsEnergy P R s E) : IsEnergy P R s' E := by
  obtain ⟨env, h1, rfl⟩ := hE
  have : ∀ k, ∃ i, k < s.atoms.length → i < s.atoms.length ∧ σ i = k := by
    intro k
    by_cases hk : k < s.atoms.length
    · obtain ⟨i, hi, e⟩ := h.surjective hk
      exact ⟨i, fun _ => ⟨hi, e⟩⟩
    · exact ⟨0, fun h => absurd h hk⟩
  choose τ hτ using this
  refine ⟨fun k => (env (τ k)).map (Site.rotate Q), ?_, ?_⟩
  · intro k hk
    rw [h.length] at hk
    obtain ⟨hi, e⟩ := hτ k hk
    have := h.isEnv hi (h1 _ hi)
    rwa [e] at this
  · rw [h.length]
    refine Finset.sum_bij (fun i _ => σ i) ?_ ?_ ?_ ?_
    · intro i hi
      exact Finset.mem_range.2 (h.range i (Finset.mem_range.1 hi))
    · intro i hi j hj e
      exact h.injective i (Finset.mem_range.1 hi) j (Finset.mem_range.1 hj) e
    · intro k hk
      obtain ⟨i, hi, e⟩ := h.surjective (Finset.mem_range.1 hk)
      exact ⟨i, Finset.mem_range.2 hi, e⟩
    · intro i hi
      have hi := Finset.mem_range.1 hi
      obtain ⟨hj, e⟩ := hτ (σ i) (h.range i hi)
      have := h.injective _ hj i hi e
      simp only [this, h.atomic, h.element i hi]

end SameArrangement

end N2P2
