import Verif.Model.Norm2Tool
import Verif.Lemma.NormTool

/-! Lemmas for nnp-norm2. -/

namespace N2P2

theorem normKeyword_tool : ∀ kw ∈ normKeywords, kw ∈ toolKeywords := by decide

/-- Keywords and values of the header. -/
theorem header2_kv {N : NumberText} (hN : N.Sane) (hU : N.Uncommented) (u : ModeUnits) :
    (norm2Header N u).filterMap kvLine =
      [("mean_energy".toList, N.print u.meanEnergy), ("conv_energy".toList, N.print u.convEnergy),
        ("conv_length".toList, N.print u.convLength)] ∧
    ∀ l ∈ norm2Header N u, '\n' ∉ l := by
  have hb : AllBlank [' '] := by intro c hc; rw [List.mem_singleton.1 hc]; rfl
  have hc : uncommented " # nnp-norm2".toList = [' '] := by decide
  have h1 := kvLine_field hN hU (kw := "mean_energy".toList) (by decide) u.meanEnergy hc hb (by decide)
  have h2 := kvLine_field hN hU (kw := "conv_energy".toList) (by decide) u.convEnergy hc hb (by decide)
  have h3 := kvLine_field hN hU (kw := "conv_length".toList) (by decide) u.convLength hc hb (by decide)
  have k1 : kvLine (List.replicate 79 '#') = none := by decide +kernel
  have k2 : kvLine "# DATA SET NORMALIZATION".toList = none := by decide +kernel
  have k3 : kvLine [] = none := rfl
  have hr : '\n' ∉ List.replicate 79 '#' := by decide
  constructor
  · unfold norm2Header norm2Line
    simp only [List.filterMap_cons, k1, k2, k3, h1.1, h2.1, h3.1, List.filterMap_nil]
  · intro l hl
    unfold norm2Header norm2Line at hl
    simp only [List.mem_cons, List.not_mem_nil, or_false] at hl
    rcases hl with rfl | rfl | rfl | rfl | rfl | rfl | rfl | rfl
    · exact hr
    · decide
    · exact hr
    · exact h1.2
    · exact h2.2
    · exact h3.2
    · exact hr
    · simp

/-- Reading the new file. -/
theorem file2_read {N : NumberText} (hN : N.Sane) (hU : N.Uncommented) (u : ModeUnits) {lines : List Str}
    (hl : ∀ l ∈ lines, '\n' ∉ l) :
    readLines ((norm2Header N u).flatMap (· ++ ['\n']) ++ settingsText lines) = norm2Header N u ++ lines := by
  rw [settingsText_eq, ← List.flatMap_append, readLines_write]
  intro l h
  rcases List.mem_append.1 h with h | h
  · exact (header2_kv hN hU u).2 l h
  · exact hl l h

/-- Keywords of the new file. -/
theorem contents2 {N : NumberText} (hN : N.Sane) (hU : N.Uncommented) (u : ModeUnits) {lines : List Str}
    (hw : ∀ kw ∈ normKeywords, ¬ Present (parseLines lines) kw) :
    (kvList (parseLines (norm2Header N u ++ lines))).filter (fun p => !normKeywords.contains p.1) =
      (kvList (parseLines lines)).filter (fun p => !normKeywords.contains p.1) ∧
    (∀ p ∈ [("mean_energy".toList, N.print u.meanEnergy), ("conv_energy".toList, N.print u.convEnergy),
        ("conv_length".toList, N.print u.convLength)],
      ((parseLines (norm2Header N u ++ lines)).range p.1).map (·.value) = [p.2]) := by
  rw [kvList_parseLines, kvList_parseLines, List.filterMap_append, (header2_kv hN hU u).1, List.filter_append]
  refine ⟨by rfl, fun p hp => ?_⟩
  have hk : p.1 ∈ normKeywords := by
    simp only [List.mem_cons, List.not_mem_nil, or_false] at hp
    rcases hp with rfl | rfl | rfl <;> simp [normKeywords]
  rw [range_values, kvList_parseLines, List.filterMap_append, (header2_kv hN hU u).1, List.filter_append,
    filter_key_nil (not_present_iff.1 (hw _ hk)), List.append_nil]
  simp only [List.mem_cons, List.not_mem_nil, or_false] at hp
  rcases hp with rfl | rfl | rfl <;> rfl

theorem found2_iff (c : Contents) : ∃ b, norm2KeywordsFound c = .ok b ∧
    (b = true ↔ ∃ kw ∈ normKeywords, Present c kw) := by
  refine ⟨(c.find? "mean_energy".toList).isSome || (c.find? "conv_energy".toList).isSome ||
    (c.find? "conv_length".toList).isSome, ?_, ?_⟩
  · unfold norm2KeywordsFound
    rw [exists_single (toolKeyword_group _ (by decide)), exists_single (toolKeyword_group _ (by decide)),
      exists_single (toolKeyword_group _ (by decide))]
    rfl
  · simp only [Bool.or_eq_true, find?_isSome_iff]
    unfold normKeywords
    simp only [List.mem_cons, List.not_mem_nil, or_false, exists_eq_or_imp, exists_eq_left, or_assoc]

/-- Setup of normalization without one of the three keywords. -/
theorem setup2 (N : NumberText) {c : Contents} (h : ∀ kw ∈ normKeywords, ¬ Present c kw) (u : ModeUnits) :
    setupNormalization N c u =
      if (c.find? "conv_charge".toList).isSome then .error .usage else .ok (false, u) := by
  have hf : ∀ kw ∈ normKeywords, (c.find? kw).isSome = false := fun kw hk => by
    rw [Bool.eq_false_iff]
    exact fun e => h kw hk ((find?_isSome_iff c kw).1 e)
  unfold setupNormalization
  rw [exists_single (toolKeyword_group "mean_energy".toList (by decide)),
    exists_single (toolKeyword_group "conv_energy".toList (by decide)),
    exists_single (toolKeyword_group "conv_length".toList (by decide)),
    exists_single (toolKeyword_group "conv_charge".toList (by decide)),
    hf _ (by decide), hf _ (by decide), hf _ (by decide)]
  cases (c.find? "conv_charge".toList).isSome <;> rfl

/-- The lines fit into the buffer. -/
theorem header2_strpr {N : NumberText} (hN : N.Sane) (u : ModeUnits) :
    ∃ ys, (norm2Header N u).mapM strpr = some ys := by
  refine ⟨_, mapM_of_map (g := id) fun l hl => if_pos ?_⟩
  have hfield : ∀ x, (N.field x).length ≤ 24 := by
    intro x
    have := (hN x).2.2
    unfold NumberText.field padLeft
    simp only [List.length_append, List.length_replicate]
    omega
  have f1 := hfield u.meanEnergy
  have f2 := hfield u.convEnergy
  have f3 := hfield u.convLength
  have k1 : "mean_energy".toList.length = 11 := by decide
  have k2 : "conv_energy".toList.length = 11 := by decide
  have k3 : "conv_length".toList.length = 11 := by decide
  have k5 : " # nnp-norm2".toList.length = 12 := by decide
  unfold norm2Header norm2Line at hl
  simp only [List.mem_cons, List.not_mem_nil, or_false] at hl
  rcases hl with rfl | rfl | rfl | rfl | rfl | rfl | rfl | rfl
  · decide
  · decide
  · decide
  · simp only [List.length_append, List.length_cons]
    omega
  · simp only [List.length_append, List.length_cons]
    omega
  · simp only [List.length_append, List.length_cons]
    omega
  · decide
  · decide

end N2P2
