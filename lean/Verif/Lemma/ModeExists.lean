import Mathlib.Data.Pi.Interval
import Mathlib.Data.Int.Interval
import Verif.Lemma.ModeEval
import Verif.Lemma.ModeInvariance

/-! Every structure with a proper box has a potential energy. Forces of equal arrangements. -/

namespace N2P2

theorem images_finite {box : Fin 3 → Vec3} (h : NonSingular box) (u : Vec3) (R : ℝ) :
    {n : Fin 3 → ℤ | len (u + shift box n) ≤ R}.Finite := by
  set B : Fin 3 → ℤ := fun k => ⌈(R + u.norm) / boxProj box k⌉ with hB
  refine (Set.finite_Icc (-B) B).subset fun n hn => ?_
  have hn : len (u + shift box n) ≤ R := hn
  rw [len_eq] at hn
  have h1 : (shift box n).norm ≤ R + u.norm := by
    have := norm_triangle (u + shift box n) (-u)
    rw [norm_neg, add_neg_cancel_comm] at this
    linarith
  have key : ∀ k, |(n k : ℝ)| ≤ B k := by
    intro k
    have h2 := boxProj_bound h (fun k => (n k : ℝ)) k
    rw [← shift_eq] at h2
    have h3 := boxProj_pos h k
    refine le_trans ?_ (Int.le_ceil _)
    rw [le_div_iff₀ h3]
    exact h2.trans h1
  have key' : ∀ k, |n k| ≤ B k := by
    intro k
    have := key k
    rw [← Int.cast_abs] at this
    exact_mod_cast this
  exact ⟨fun k => (abs_le.1 (key' k)).1, fun k => (abs_le.1 (key' k)).2⟩

/-- There is an environment for every radius. -/
theorem exists_isBall {s : Structure} (h : s.isPeriodic = true → NonSingular s.box) (R : ℝ) (i : ℕ) :
    ∃ env, IsBall s R i env := by
  classical
  have hfin : {p : ℕ × (Fin 3 → ℤ) | s.IsPartner i p ∧ len (s.separation i p) ≤ R}.Finite := by
    cases hp : s.isPeriodic with
    | true =>
      have : {p : ℕ × (Fin 3 → ℤ) | s.IsPartner i p ∧ len (s.separation i p) ≤ R} ⊆
          ⋃ j ∈ Finset.range s.atoms.length, (fun n => (j, n)) ''
            {n : Fin 3 → ℤ | len (s.position i - s.position j + shift s.box n) ≤ R} := by
        rintro ⟨j, n⟩ ⟨h1, h2⟩
        exact Set.mem_biUnion (Finset.mem_range.2 h1.1) ⟨n, h2, rfl⟩
      refine Set.Finite.subset ?_ this
      exact Set.Finite.biUnion (Finset.finite_toSet _) fun j _ =>
        (images_finite (h hp) _ _).image _
    | false =>
      have : {p : ℕ × (Fin 3 → ℤ) | s.IsPartner i p ∧ len (s.separation i p) ≤ R} ⊆
          (fun j => (j, 0)) '' (Finset.range s.atoms.length : Set ℕ) := by
        rintro ⟨j, n⟩ ⟨h1, -⟩
        have : n = 0 := by simpa [hp] using h1.2.1
        exact ⟨j, by simpa using h1.1, by rw [this]⟩
      exact ((Finset.finite_toSet _).image _).subset this
  refine ⟨_, hfin.toFinset.toList, Finset.nodup_toList _, ?_, rfl⟩
  intro p
  rw [Finset.mem_toList, Set.Finite.mem_toFinset]
  rfl

theorem exists_isEnergy (P : Potential) (R : ℝ) {s : Structure}
    (h : s.isPeriodic = true → NonSingular s.box) : ∃ E, IsEnergy P R s E := by
  choose env henv using exists_isBall h R
  exact ⟨_, env, fun i _ => (henv i).isEnv le_rfl, rfl⟩

end N2P2
