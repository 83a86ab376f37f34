import Verif.Spec.Select
import Verif.Lemma.DataFile
import Mathlib.Tactic.Linarith
import Mathlib.Algebra.Order.Field.Basic

/-! Lemmas about the selection of structures. -/

namespace N2P2

open Classical in
/-- `picked`, counting from `k`. -/
noncomputable def pickedFrom {α : Type} (wants : ℕ → Prop) (k : ℕ) (L : List α) : List α :=
  ((L.zipIdx k).filter fun x => decide (wants x.2)).map Prod.fst

theorem pickedFrom_nil {α : Type} (wants : ℕ → Prop) (k : ℕ) :
    pickedFrom wants k ([] : List α) = [] := rfl

open Classical in
theorem pickedFrom_cons {α : Type} (wants : ℕ → Prop) (k : ℕ) (a : α) (L : List α) :
    pickedFrom wants k (a :: L) =
      if wants k then a :: pickedFrom wants (k + 1) L else pickedFrom wants (k + 1) L := by
  unfold pickedFrom
  rw [List.zipIdx_cons, List.filter_cons]
  by_cases h : wants k
  · rw [if_pos (by simpa using h), if_pos h]
    rfl
  · rw [if_neg (by simpa using h), if_neg h]

theorem picked_eq {α : Type} (wants : ℕ → Prop) (L : List α) :
    picked wants L = pickedFrom wants 0 L := rfl

theorem mem_picked {α : Type} {wants : ℕ → Prop} {L : List α} {a : α} (h : a ∈ picked wants L) :
    a ∈ L := by
  unfold picked at h
  obtain ⟨x, h1, rfl⟩ := List.mem_map.1 h
  have := List.mem_of_mem_filter h1
  rw [List.mem_zipIdx_iff_getElem?] at this
  exact List.mem_of_getElem? this

theorem intervalSize_pos {n : ℤ} (h : 0 < n ∧ n < 2 ^ 31) : intervalSize n = n.toNat ∧
    0 < intervalSize n := by
  unfold intervalSize
  omega

open Classical in
/-- The decision taken. -/
theorem decide_eq {mode : SelectMode} (h : mode.Sensible) (k : ℕ) :
    mode.decide' k = some (decide (mode.Wants k)) := by
  cases mode with
  | interval n =>
    obtain ⟨h1, h2⟩ := intervalSize_pos h
    show (if intervalSize n = 0 then none else some (decide (k % intervalSize n = 0))) = _
    rw [if_neg (by omega), h1]
    congr 1
    rw [decide_eq_decide]
    show _ ↔ n ∣ (k : ℤ)
    have hn : (n.toNat : ℤ) = n := Int.toNat_of_nonneg h.1.le
    rw [← Nat.dvd_iff_mod_eq_zero, ← Int.natCast_dvd_natCast, hn]
  | random ratio rand randMax =>
    show some (decide ((rand k : ℝ) / randMax ≤ ratio)) = _
    congr 1
    rw [decide_eq_decide]
    exact div_le_iff₀ (Nat.cast_pos.2 h.1)

/-- Lines inside a structure go where the structure goes. -/
theorem select_body (mode : SelectMode) (body : List Str)
    (hb : ∀ x ∈ body, ∃ w, firstWord x = some w ∧ w ≠ keyBegin) : ∀ s : SelectState,
    body.foldlM (fun s l => s.line mode l) s = some (if s.writeStructure then
      { s with output := s.output ++ body } else { s with reject := s.reject ++ body }) := by
  induction body with
  | nil =>
    intro s
    rw [List.append_nil, List.append_nil]
    split <;> rfl
  | cons x body ih =>
    intro s
    obtain ⟨w, h1, h2⟩ := hb x (by simp)
    have e : s.line mode x = some (s.put x) := by
      unfold SelectState.line
      rw [h1]
      show (s.onKey mode w).bind _ = _
      unfold SelectState.onKey
      rw [if_neg h2]
      rfl
    rw [List.foldlM_cons, e]
    show List.foldlM _ (s.put x) body = _
    rw [ih fun y hy => hb y (by simp [hy])]
    unfold SelectState.put
    by_cases hw : s.writeStructure = true
    · rw [if_pos hw, if_pos hw, if_pos (show _ = true from hw)]
      simp
    · rw [if_neg hw, if_neg hw, if_neg (show ¬ _ = true from hw)]
      simp

open Classical in
theorem select_section {mode : SelectMode} (hm : mode.Sensible) {l : List Str} (hl : IsSection l)
    (s : SelectState) : l.foldlM (fun s l => s.line mode l) s = some
      { writeStructure := decide (mode.Wants s.countStructures)
        countStructures := s.countStructures + 1
        countSelected := s.countSelected + if mode.Wants s.countStructures then 1 else 0
        output := s.output ++ if mode.Wants s.countStructures then l else []
        reject := s.reject ++ if mode.Wants s.countStructures then [] else l } := by
  obtain ⟨b, body, e, rfl, h1, h2, h3⟩ := hl
  have e0 : s.line mode b = some (SelectState.put
      { s with
        writeStructure := decide (mode.Wants s.countStructures)
        countStructures := s.countStructures + 1
        countSelected := if decide (mode.Wants s.countStructures) then s.countSelected + 1
          else s.countSelected } b) := by
    unfold SelectState.line
    rw [h1]
    show (s.onKey mode keyBegin).bind _ = _
    unfold SelectState.onKey
    rw [if_pos rfl]
    unfold SelectState.onBegin
    rw [decide_eq hm]
    rfl
  rw [List.foldlM_cons, e0]
  show List.foldlM _ (SelectState.put _ b) (body ++ [e]) = _
  rw [select_body]
  · unfold SelectState.put
    by_cases hw : mode.Wants s.countStructures
    · simp [hw]
    · simp [hw]
  · intro x hx
    rcases List.mem_append.1 hx with hx | hx
    · obtain ⟨w, g1, g2, -⟩ := h3 x hx
      exact ⟨w, g1, g2⟩
    · rw [List.mem_singleton] at hx
      subst hx
      exact ⟨_, h2, by decide⟩

open Classical in
theorem select_sections {mode : SelectMode} (hm : mode.Sensible) (L : List (List Str))
    (hL : ∀ l ∈ L, IsSection l) : ∀ s : SelectState, ∃ s',
      L.flatten.foldlM (fun s l => s.line mode l) s = some s' ∧
      s'.countStructures = s.countStructures + L.length ∧
      s'.countSelected = s.countSelected + (pickedFrom mode.Wants s.countStructures L).length ∧
      s'.output = s.output ++ (pickedFrom mode.Wants s.countStructures L).flatten ∧
      s'.reject = s.reject ++ (pickedFrom (fun k => ¬ mode.Wants k) s.countStructures L).flatten := by
  induction L with
  | nil => exact fun s => ⟨s, rfl, rfl, rfl, (List.append_nil _).symm, (List.append_nil _).symm⟩
  | cons l L ih =>
    intro s
    rw [List.flatten_cons, List.foldlM_append, select_section hm (hL l (by simp))]
    obtain ⟨s', h1, h2, h3, h4, h5⟩ := ih (fun x hx => hL x (by simp [hx]))
      { writeStructure := decide (mode.Wants s.countStructures)
        countStructures := s.countStructures + 1
        countSelected := s.countSelected + if mode.Wants s.countStructures then 1 else 0
        output := s.output ++ if mode.Wants s.countStructures then l else []
        reject := s.reject ++ if mode.Wants s.countStructures then [] else l }
    refine ⟨s', h1, ?_, ?_, ?_, ?_⟩
    · rw [h2, List.length_cons]
      show s.countStructures + 1 + _ = _
      omega
    · rw [h3, pickedFrom_cons]
      dsimp only
      split_ifs
      · rw [List.length_cons]
        omega
      · omega
    · rw [h4, pickedFrom_cons]
      dsimp only
      split_ifs <;> simp
    · rw [h5, pickedFrom_cons]
      dsimp only
      by_cases hw : mode.Wants s.countStructures
      · rw [if_pos hw, if_neg (not_not.2 hw), List.append_nil]
      · rw [if_neg hw, if_pos hw, List.flatten_cons, List.append_assoc]

/-- Lines are neither lost, nor duplicated, nor reordered. -/
theorem line_keeps {mode : SelectMode} {s s' : SelectState} {l : Str}
    (e : s.line mode l = some s') : ∃ k, firstWord l = some k ∧
      s'.countStructures = s.countStructures + (if k = keyBegin then 1 else 0) ∧
      ((s'.output = s.output ++ [l] ∧ s'.reject = s.reject) ∨
        (s'.output = s.output ∧ s'.reject = s.reject ++ [l])) := by
  unfold SelectState.line at e
  obtain ⟨k, h1, e⟩ := Option.bind_eq_some_iff.1 e
  refine ⟨k, h1, ?_⟩
  have key : ∀ t : SelectState, (t.put l).countStructures = t.countStructures ∧
      (((t.put l).output = t.output ++ [l] ∧ (t.put l).reject = t.reject) ∨
        ((t.put l).output = t.output ∧ (t.put l).reject = t.reject ++ [l])) := by
    intro t
    unfold SelectState.put
    split_ifs
    · exact ⟨rfl, Or.inl ⟨rfl, rfl⟩⟩
    · exact ⟨rfl, Or.inr ⟨rfl, rfl⟩⟩
  obtain ⟨t, h2, e⟩ := Option.bind_eq_some_iff.1 e
  cases e
  unfold SelectState.onKey at h2
  by_cases hk : k = keyBegin
  · rw [if_pos hk] at h2 ⊢
    unfold SelectState.onBegin at h2
    obtain ⟨w, -, h2⟩ := Option.bind_eq_some_iff.1 h2
    cases h2
    exact key _
  · rw [if_neg hk] at h2 ⊢
    cases h2
    exact key s

end N2P2
