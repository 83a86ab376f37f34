import Verif.Lemma.SymFncSetup

/-! Lemmas on the derivative memory. -/

namespace N2P2

/-- `T` differs from `S` only in its memory and cache tables. -/
structure SymFnc.SameButTables (S T : SymFnc) : Prop where
  eq : T = { S with indexPerElement := T.indexPerElement, cacheIndices := T.cacheIndices }

theorem checkRelevantElement_tables (S : SymFnc) (i : List ℕ) (c : List (List ℕ)) (e : ℕ) :
    SymFnc.checkRelevantElement { S with indexPerElement := i, cacheIndices := c } e =
      S.checkRelevantElement e := rfl

theorem setupMemoryOne_eq {n : ℕ} {table : List (List ℕ)} {S : SymFnc} (hn : table.length = n)
    (hi : S.indexPerElement.length = n) : setupMemoryOne n table S =
      (table.mapIdx (fun e t => if S.checkRelevantElement e then t ++ [S.index] else t),
        { S with indexPerElement := S.indexPerElement.mapIdx fun e x =>
          if S.checkRelevantElement e then ((table[e]?).getD []).length else x }) := by
  have key : ∀ m, m ≤ n → (List.range m).foldl (fun (s : List (List ℕ) × SymFnc) i =>
      if s.2.checkRelevantElement i then
        let t := (s.1[i]?).getD []
        (s.1.set i (t ++ [s.2.index]),
          { s.2 with indexPerElement := s.2.indexPerElement.set i t.length })
      else s) (table, S) =
      (table.mapIdx (fun e t => if e < m ∧ S.checkRelevantElement e then t ++ [S.index] else t),
        { S with indexPerElement := S.indexPerElement.mapIdx fun e x =>
          if e < m ∧ S.checkRelevantElement e then ((table[e]?).getD []).length else x }) := by
    intro m
    induction m with
    | zero =>
      intro _
      simp only [List.range_zero, List.foldl_nil, Nat.not_lt_zero, false_and, if_false]
      congr 1
      · apply List.ext_getElem?; intro k; simp
      · have : S.indexPerElement.mapIdx (fun _ x => x) = S.indexPerElement := by
          apply List.ext_getElem?; intro k; simp
        rw [this]
    | succ m ih =>
      intro hm
      rw [List.range_succ, List.foldl_append, ih (by omega)]
      rw [List.foldl_cons, List.foldl_nil]
      by_cases hr : S.checkRelevantElement m = true
      · refine (if_pos (c := SymFnc.checkRelevantElement _ m = true) hr).trans ?_
        simp only
        have e0 : (List.mapIdx (fun e t =>
            if e < m ∧ S.checkRelevantElement e = true then t ++ [S.index] else t) table)[m]? =
            table[m]? := by
          rw [List.getElem?_mapIdx]
          rw [show (fun t : List ℕ => if m < m ∧ S.checkRelevantElement m = true then
            t ++ [S.index] else t) = id by funext t; simp]
          simp
        rw [e0]
        congr 1
        · apply List.ext_getElem?
          intro k
          simp only [List.getElem?_set, List.getElem?_mapIdx, List.length_mapIdx]
          by_cases hk : m = k
          · subst hk
            rw [if_pos rfl, if_pos (by omega)]
            have : table[m]? = some table[m] := List.getElem?_eq_getElem (by omega)
            rw [this]
            simp [hr, SymFnc.index]
          · rw [if_neg hk]
            have : (k < m + 1 ∧ S.checkRelevantElement k = true) ↔
              (k < m ∧ S.checkRelevantElement k = true) := by
              constructor <;> rintro ⟨a, b⟩ <;> exact ⟨by omega, b⟩
            simp only [this]
        · congr 1
          apply List.ext_getElem?
          intro k
          simp only [List.getElem?_set, List.getElem?_mapIdx, List.length_mapIdx]
          by_cases hk : m = k
          · subst hk
            rw [if_pos rfl, if_pos (by omega)]
            have : S.indexPerElement[m]? = some S.indexPerElement[m] :=
              List.getElem?_eq_getElem (by omega)
            rw [this]
            simp [hr]
          · rw [if_neg hk]
            have : (k < m + 1 ∧ S.checkRelevantElement k = true) ↔
              (k < m ∧ S.checkRelevantElement k = true) := by
              constructor <;> rintro ⟨a, b⟩ <;> exact ⟨by omega, b⟩
            simp only [this]
      · refine (if_neg (c := SymFnc.checkRelevantElement _ m = true) hr).trans ?_
        have : ∀ e, (e < m + 1 ∧ S.checkRelevantElement e = true) ↔
            (e < m ∧ S.checkRelevantElement e = true) := by
          intro e
          constructor
          · rintro ⟨a, b⟩
            refine ⟨?_, b⟩
            rcases Nat.lt_succ_iff_lt_or_eq.1 a with h | rfl
            · exact h
            · exact absurd b hr
          · rintro ⟨a, b⟩; exact ⟨by omega, b⟩
        simp only [this]
  unfold setupMemoryOne
  rw [key n le_rfl]
  congr 1
  · apply List.ext_getElem?
    intro k
    simp only [List.getElem?_mapIdx]
    by_cases hk : k < n
    · simp [hk]
    · rw [List.getElem?_eq_none (by omega)]; rfl
  · congr 1
    apply List.ext_getElem?
    intro k
    simp only [List.getElem?_mapIdx]
    by_cases hk : k < n
    · simp [hk]
    · rw [List.getElem?_eq_none (l := S.indexPerElement) (by omega)]; rfl

/-- The indices of the functions relevant for an element. -/
def relevantIndices (Ss : List SymFnc) (e : ℕ) : List ℕ :=
  (Ss.filter fun S => S.checkRelevantElement e).map SymFnc.index

/-- Memory position of function `k` for element `e`. -/
def memoryPosition (Ss : List SymFnc) (k e : ℕ) : ℕ := (relevantIndices (Ss.take k) e).length

theorem setupMemory_eq {n : ℕ} {Ss : List SymFnc} (h : ∀ S ∈ Ss, S.indexPerElement.length = n) :
    setupSymmetryFunctionMemory n Ss =
      ((List.range n).map (relevantIndices Ss),
        Ss.mapIdx fun k S => { S with
          indexPerElement := S.indexPerElement.mapIdx fun e x =>
            if S.checkRelevantElement e then memoryPosition Ss k e else x }) := by
  unfold setupSymmetryFunctionMemory
  have key : ∀ (m : ℕ), m ≤ Ss.length → (Ss.take m).foldl (fun s S =>
      let r := setupMemoryOne n s.1 S
      (r.1, s.2 ++ [r.2])) (List.replicate n [], []) =
      ((List.range n).map (relevantIndices (Ss.take m)),
        (Ss.take m).mapIdx fun k S => { S with
          indexPerElement := S.indexPerElement.mapIdx fun e x =>
            if S.checkRelevantElement e then memoryPosition Ss k e else x }) := by
    intro m
    induction m with
    | zero =>
      intro _
      simp only [List.take_zero, List.foldl_nil, List.mapIdx_nil, Prod.mk.injEq, and_true]
      apply List.ext_getElem (by simp)
      intro i h1 h2
      simp [relevantIndices]
    | succ m ih =>
      intro hm
      have hg : Ss.take (m + 1) = Ss.take m ++ [Ss[m]] := by
        rw [List.take_succ_eq_append_getElem (by omega)]
      rw [hg, List.foldl_append, ih (by omega)]
      simp only [List.foldl_cons, List.foldl_nil]
      rw [setupMemoryOne_eq (by simp) (h _ (List.getElem_mem _))]
      simp only [Prod.mk.injEq]
      constructor
      · apply List.ext_getElem (by simp)
        intro i h1 h2
        simp only [List.getElem_mapIdx, List.getElem_map, List.getElem_range]
        simp only [relevantIndices, List.filter_append, List.map_append]
        by_cases hr : (Ss[m]).checkRelevantElement i = true
        · simp [hr]
        · simp [hr]
      · rw [List.mapIdx_append]
        congr 1
        simp only [List.mapIdx_cons, List.mapIdx_nil, List.length_take]
        have hmin : min m Ss.length = m := by omega
        congr 2
        apply List.ext_getElem (by simp)
        intro i h1 h2
        simp only [List.getElem_mapIdx]
        have hi : i < n := by
          have := h _ (List.getElem_mem (l := Ss) (n := m) (by omega))
          simp at h1; omega
        simp [hi, memoryPosition, hmin]
  have := key Ss.length le_rfl
  rwa [List.take_length] at this

end N2P2
