import Mathlib.Data.List.Sort
import Mathlib.Tactic.Linarith
import Verif.Lemma.NeighborList

/-! The stored number of neighbours per cutoff. -/

namespace N2P2

open Classical in
theorem countP_split {l : List Neighbor} {c : ℝ} {k : ℕ} {n : Neighbor}
    (hs : l.Pairwise (fun a b => a.d ≤ b.d)) (hk : l[k]? = some n) (hn : c < n.d)
    (hb : ∀ m ∈ l.take k, m.d ≤ c) : l.countP (fun m => decide (m.d ≤ c)) = k := by
  obtain ⟨hlt, hkn⟩ := List.getElem?_eq_some_iff.1 hk
  rw [← List.take_append_drop k l, List.countP_append]
  have h1 : (l.take k).countP (fun m => decide (m.d ≤ c)) = k := by
    rw [List.countP_eq_length.2]
    · rw [List.length_take]; omega
    · intro m hm; simpa using hb m hm
  have h2 : (l.drop k).countP (fun m => decide (m.d ≤ c)) = 0 := by
    rw [List.countP_eq_zero]
    intro m hm
    simp only [decide_eq_true_eq, not_le]
    rw [List.drop_eq_getElem_cons hlt, hkn] at hm
    rcases List.mem_cons.1 hm with rfl | hm
    · exact hn
    · have : ∀ m ∈ l.drop (k + 1), n.d ≤ m.d := by
        have hp := hs.drop (i := k)
        rw [List.drop_eq_getElem_cons hlt, hkn, List.pairwise_cons] at hp
        exact hp.1
      exact lt_of_lt_of_le hn (this m hm)
  rw [h1, h2, add_zero]

open Classical in
theorem cutoffMapLoop_spec {N : ℕ} {l : List Neighbor} {cut : List ℝ} (hN : N = l.length)
    (hs : l.Pairwise (fun a b => a.d ≤ b.d)) (hc : cut.Pairwise (· ≤ ·)) :
    ∀ (fuel inn ic : ℕ) (m : CMap ℝ ℕ), inn < N → (N - inn) + (cut.length - ic) ≤ fuel →
      (∀ n ∈ l.take inn, ∀ c ∈ cut.drop ic, n.d ≤ c) → ∀ c,
      (cutoffMapLoop N l cut fuel inn ic m).find? c =
        match m.find? c with
        | some v => some v
        | none => if c ∈ cut.drop ic then some (l.countP (fun n : Neighbor => decide (n.d ≤ c))) else none := by
  intro fuel
  induction fuel with
  | zero => intro inn ic m h1 h2; omega
  | succ fuel ih =>
    intro inn ic m hin hf hb c
    have hl : inn < l.length := by omega
    by_cases hic : ic < cut.length
    · have e1 : l[inn]? = some l[inn] := List.getElem?_eq_getElem hl
      have e2 : cut[ic]? = some cut[ic] := List.getElem?_eq_getElem hic
      have hdrop : cut.drop ic = cut[ic] :: cut.drop (ic + 1) := List.drop_eq_getElem_cons hic
      have hge : ∀ c' ∈ cut.drop (ic + 1), cut[ic] ≤ c' := by
        have hp := hc.drop (i := ic)
        rw [hdrop, List.pairwise_cons] at hp
        exact hp.1
      have emp : ∀ v, (v = l.countP (fun n : Neighbor => decide (n.d ≤ cut[ic]))) →
          (match (m.emplace cut[ic] v).find? c with
          | some v => some v
          | none => if c ∈ cut.drop (ic + 1) then some (l.countP (fun n : Neighbor => decide (n.d ≤ c)))
              else none) =
          match m.find? c with
          | some v => some v
          | none => if c ∈ cut.drop ic then some (l.countP (fun n : Neighbor => decide (n.d ≤ c)))
              else none := by
        intro v hv
        rw [CMap.find?_emplace, hdrop]
        by_cases hcc : cut[ic] = c
        · rw [if_pos hcc]
          cases hm : m.find? c with
          | some w => simp [hcc, hm]
          | none =>
            rw [hcc] at hv
            simp [hcc, hm, hv]
        · rw [if_neg hcc]
          have : (c ∈ cut[ic] :: cut.drop (ic + 1)) ↔ c ∈ cut.drop (ic + 1) := by
            rw [List.mem_cons]
            exact ⟨fun h => h.resolve_left (fun e => hcc e.symm), Or.inr⟩
          simp only [this]
      unfold cutoffMapLoop
      simp only [e1, e2, decide_eq_true hin]
      by_cases h1 : l[inn].d > cut[ic]
      · rw [if_pos h1, ih inn (ic + 1) _ hin (by omega)
          (fun n hn c' hc' => hb n hn c' (by rw [hdrop]; exact List.mem_cons_of_mem _ hc')) c]
        exact emp inn (countP_split hs e1 h1
          (fun n hn => hb n hn _ (by rw [hdrop]; exact List.mem_cons_self))).symm
      · rw [if_neg h1]
        push Not at h1
        by_cases h2 : inn = N - 1
        · rw [if_pos h2, ih inn (ic + 1) _ hin (by omega)
            (fun n hn c' hc' => hb n hn c' (by rw [hdrop]; exact List.mem_cons_of_mem _ hc')) c]
          apply emp
          rw [hN]
          symm
          rw [List.countP_eq_length]
          intro n hn
          simp only [decide_eq_true_eq]
          obtain ⟨k, hk, rfl⟩ := List.getElem_of_mem hn
          by_cases hk' : k = inn
          · subst hk'; exact h1
          · have : k < inn := by omega
            exact (List.pairwise_iff_getElem.1 hs k inn hk hl this).trans h1
        · rw [if_neg h2, ih (inn + 1) ic m (by omega) (by omega) ?_ c]
          intro n hn c' hc'
          rw [List.take_succ_eq_append_getElem hl, List.mem_append, List.mem_singleton] at hn
          rcases hn with hn | rfl
          · exact hb n hn c' hc'
          · rw [hdrop] at hc'
            rcases List.mem_cons.1 hc' with rfl | hc'
            · exact h1
            · exact h1.trans (hge c' hc')
    · have e2 : cut[ic]? = none := List.getElem?_eq_none (by omega)
      have : cut.drop ic = [] := List.drop_eq_nil_of_le (by omega)
      unfold cutoffMapLoop
      rw [e2, this]
      simp only [List.not_mem_nil, if_false]
      cases hd : decide (inn < N) <;> cases hx : l[inn]? <;> cases m.find? c <;> rfl

open Classical in
theorem cutoffMapLoop_zero (l : List Neighbor) (cut : List ℝ) (fuel : ℕ) (m : CMap ℝ ℕ) :
    cutoffMapLoop 0 l cut fuel 0 0 m = m := by
  cases fuel with
  | zero => rfl
  | succ f =>
    unfold cutoffMapLoop
    simp

theorem mem_prepareCutoffs {M c : ℝ} {cut : List ℝ} :
    c ∈ prepareCutoffs M cut ↔ c ∈ cut ∨ (0 < M ∧ c = M) := by
  classical
  unfold prepareCutoffs
  simp only [List.mem_insertionSort]
  by_cases h : 0 < M ∧ M ∉ cut
  · rw [if_pos h, List.mem_append, List.mem_singleton]
    simp [h.1]
  · rw [if_neg h]
    constructor
    · exact Or.inl
    · rintro (h' | ⟨h1, rfl⟩)
      · exact h'
      · by_contra hc; exact h ⟨h1, hc⟩

theorem sorted_prepareCutoffs (M : ℝ) (cut : List ℝ) :
    (prepareCutoffs M cut).Pairwise (· ≤ ·) := by
  classical
  unfold prepareCutoffs
  exact List.pairwise_insertionSort _ _

end N2P2
