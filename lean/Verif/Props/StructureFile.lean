import Verif.Lemma.StructureFile
import Verif.Props.ElementMap

/-! Property C58 (data file format of structures). -/

namespace N2P2

/-- Element maps made by registering pairwise different known elements satisfy the condition of C58. -/
theorem emap_sane (line : Str) (es : List Str) (ht : SpecTokens line es)
    (hk : ∀ e ∈ es, e ∈ knownElements) (hd : es.Nodup) :
    ∃ m, EMap.empty.registerElements line = .ok (m, es.length) ∧ m.size = es.length ∧ m.Sane := by
  obtain ⟨m, h1, h2, -, h4, -⟩ := C04_register_bijection line es ht hk hd
  refine ⟨m, h1, h2, fun i hi => ?_⟩
  obtain ⟨e, he, h5, h6⟩ := h4 i (by rw [← h2]; exact hi)
  exact ⟨e, hk e he, h5, h6⟩

/-- Symbols of all elements. -/
theorem emap_symbols {m : EMap} (hm : m.Sane) : ∃ w : ℕ → Str, ∀ i, i < m.size →
    w i ∈ knownElements ∧ m.symbol i = .ok (w i) ∧ m.index (w i) = .ok i := by
  classical
  have h : ∀ i, ∃ w : Str, i < m.size →
      w ∈ knownElements ∧ m.symbol i = .ok w ∧ m.index w = .ok i := by
    intro i
    by_cases hi : i < m.size
    · obtain ⟨w, h1, h2, h3⟩ := hm i hi
      exact ⟨w, fun _ => ⟨h1, h2, h3⟩⟩
    · exact ⟨[], fun h => absurd h hi⟩
  choose w hw using h
  exact ⟨w, hw⟩

/-- What is written, and what is read afterwards. -/
theorem write_read {N : NumberText} (hN : N.Sane) {m : EMap} (hm : m.Sane) (s : Structure)
    (ref : Bool) (k : ℕ) (hc : Commentary s.comment) (he : ∀ a ∈ s.atoms, a.element < m.size) :
    ∃ text, s.writeToFile N m ref = some text ∧ ∀ rest,
      (Structure.forReading m k).readFromFile N m (readLines (text ++ rest)) =
        (checkEnd (fileEnd N ref s (Structure.forReading m k))
          (if s.isPeriodic then 3 else 0)).bind fun u => u.countPresent.bind fun u =>
            u.remapIfPeriodic.map fun u => (u, readLines rest) := by
  obtain ⟨w, hw⟩ := emap_symbols hm
  refine ⟨_, writeToFile_eq hN s ref hc
    (fun a ha => ⟨(hw _ (he a ha)).1, (hw _ (he a ha)).2.1⟩), fun rest => ?_⟩
  rw [readLines_append _ (no_newline_fileLines hN ref s hc.1 fun a ha => (hw _ (he a ha)).1)]
  refine readFromFile_eq hN m ref s (Structure.forReading m k) rfl rfl ?_
    (fun a ha => ⟨(hw _ (he a ha)).1, (hw _ (he a ha)).2.2, he a ha⟩) _
  show resizeNat [] m.size = List.replicate m.size 0
  simp [resizeNat]

/-- C58: a structure written to a file is read back with the same comment, box, energy, charge, elements,
positions, forces and atomic charges, up to the precision of the printed numbers; atoms of periodic
structures are moved into the box. Reading stops behind the structure, whatever follows in the file. The
structure read has no neighbour lists and atoms inside the box, as required for C25 and the following.
Missing for the full claim: charged periodic structures and long comments, see `C58_charged` and
`C58_long_comment`. -/
theorem C58_roundtrip_partial {N : NumberText} (hN : N.Sane) {m : EMap} (hm : m.Sane)
    (s : Structure) (ref : Bool) (hs : s.Filable N m ref) (k : ℕ) :
    ∃ text, s.writeToFile N m ref = some text ∧ ∀ rest, ∃ u,
      (Structure.forReading m k).readFromFile N m (readLines (text ++ rest)) =
        some (u, readLines rest) ∧ s.FileCopy N m ref k u := by
  obtain ⟨text, h1, h2⟩ := write_read hN hm s ref k hs.comment hs.element
  refine ⟨text, h1, fun rest => ?_⟩
  rw [h2]
  have hq : (fileEnd N ref s (Structure.forReading m k)).isPeriodic = s.isPeriodic := by
    show (fileBase N s (Structure.forReading m k)).isPeriodic = _
    unfold fileBase
    by_cases hp : s.isPeriodic = true
    · rw [if_pos hp, hp]
      rfl
    · rw [if_neg hp]
      rw [Bool.not_eq_true] at hp
      rw [hp]
      rfl
  rw [checkEnd_ok _ _ fun h => hs.neutral (hq ▸ h)]
  show ∃ u, ((fileEnd N ref s (Structure.forReading m k)).countPresent.bind fun u =>
    u.remapIfPeriodic.map fun u => (u, readLines rest)) = some (u, readLines rest) ∧ _
  rw [fileEnd_count]
  show ∃ u, (fileCounted N ref s (Structure.forReading m k)).remapIfPeriodic.map
    (fun u => (u, readLines rest)) = some (u, readLines rest) ∧ _
  unfold Structure.remapIfPeriodic
  by_cases hp : s.isPeriodic = true
  · obtain ⟨u, g1, g2⟩ := fileCopy_periodic N m ref k s hs.element hp (hs.box hp) (hs.near hp)
    refine ⟨u, ?_, g2⟩
    rw [if_pos (show (fileCounted N ref s (Structure.forReading m k)).isPeriodic = true by
      exact hq.trans hp), g1]
    rfl
  · refine ⟨_, ?_, fileCopy_free N m ref k s hs.element (by simpa using hp)⟩
    rw [if_neg (show ¬ (fileCounted N ref s (Structure.forReading m k)).isPeriodic = true by
      exact fun h => hp (hq.symm.trans h))]
    rfl

/-- C58, disagreement: a charged periodic structure is written without complaint, but the file cannot be
read. -/
theorem C58_charged {N : NumberText} (hN : N.Sane) {m : EMap} (hm : m.Sane) (s : Structure)
    (ref : Bool) (hc : Commentary s.comment) (he : ∀ a ∈ s.atoms, a.element < m.size)
    (hp : s.isPeriodic = true) (hq : |N.rounded (s.fileCharge ref)| > 10 * doubleEpsilon) (k : ℕ) :
    ∃ text, s.writeToFile N m ref = some text ∧ ∀ rest,
      (Structure.forReading m k).readFromFile N m (readLines (text ++ rest)) = none := by
  obtain ⟨text, h1, h2⟩ := write_read hN hm s ref k hc he
  refine ⟨text, h1, fun rest => ?_⟩
  rw [h2]
  have h3 : checkEnd (fileEnd N ref s (Structure.forReading m k))
      (if s.isPeriodic then 3 else 0) = none := by
    unfold checkEnd
    rw [if_neg (by rw [if_pos hp]; simp),
      if_pos ⟨(fileBase_periodic N s (Structure.forReading m k) hp).1, hq⟩]
  rw [h3]
  rfl

/-- C58, disagreement: comments of more than 1014 characters overflow the buffer used for writing. -/
theorem C58_long_comment (N : NumberText) (m : EMap) (s : Structure) (ref : Bool)
    (h0 : Char.ofNat 0 ∉ s.comment) (h : 1015 ≤ s.comment.length) :
    s.writeToFile N m ref = none := by
  have h1 : strpr (fieldLine keyComment [cString s.comment]) = none := by
    rw [cString_id h0, fieldLine_comment]
    unfold strpr
    rw [if_neg]
    have : keyComment.length = 7 := by decide
    simp only [commentBody, List.length_append, List.length_cons, List.length_nil]
    omega
  unfold Structure.writeToFile
  rw [h1]
  rfl

/-! ### Examples -/

/-- Digits 0 to 9. -/
noncomputable def exText : NumberText :=
  { print := fun x => [Char.ofNat (48 + min 9 ⌊x⌋₊)]
    atof := fun s => match s with
      | [c] => (c.toNat - 48 : ℕ)
      | _ => 0 }

theorem exText_char (n : ℕ) (h : n ≤ 9) : Char.ofNat (48 + n) ≠ ' ' ∧ Char.ofNat (48 + n) ≠ '\t' ∧
    Char.ofNat (48 + n) ≠ '\n' ∧ (Char.ofNat (48 + n)).toNat = 48 + n := by
  have h9 : ∀ n : Fin 10, Char.ofNat (48 + n) ≠ ' ' ∧ Char.ofNat (48 + n) ≠ '\t' ∧
      Char.ofNat (48 + n) ≠ '\n' ∧ (Char.ofNat (48 + n)).toNat = 48 + n := by decide
  exact h9 ⟨n, by omega⟩

theorem exText_sane : exText.Sane := by
  intro x
  obtain ⟨h1, h2, h3, -⟩ := exText_char (min 9 ⌊x⌋₊) (by omega)
  refine ⟨⟨by simp [exText], ?_⟩, ?_, by simp [exText]⟩
  · intro c hc
    obtain rfl := List.mem_singleton.1 hc
    simp [isBlank, h1, h2]
  · intro hc
    exact h3 (List.mem_singleton.1 hc).symm

theorem exText_rounded (n : ℕ) (h : n ≤ 9) : exText.rounded n = n := by
  obtain ⟨-, -, -, h4⟩ := exText_char (min 9 n) (by omega)
  simp only [NumberText.rounded, exText, Nat.floor_natCast, h4]
  congr 1
  omega

/-- Water in a box (or without). -/
noncomputable def exFiled (periodic : Bool) (q : ℝ) : Structure :=
  { Structure.init with
    isPeriodic := periodic
    comment := "water  1".toList
    box := cube 8
    energyRef := 7
    chargeRef := q
    atoms := [{ Atom.init with element := 1, r := ![1, 2, 3], chargeRef := 2, fRef := ![4, 5, 6] },
      { Atom.init with element := 0, r := ![2, 2, 3] },
      { Atom.init with element := 0, r := ![9, 2, 3] }] }

theorem exFiled_comment (p : Bool) (q : ℝ) : Commentary (exFiled p q).comment :=
  ⟨by show '\n' ∉ "water  1".toList; decide, by show Char.ofNat 0 ∉ "water  1".toList; decide,
    by show "water  1".toList.length ≤ 1014; decide⟩

theorem exText_num (x : ℝ) (n : ℕ) (h : n ≤ 9) (hx : x = n) : exText.rounded x = x := by
  rw [hx]
  exact exText_rounded n h

theorem exFiled_box (p : Bool) (q : ℝ) : (exFiled p q).roundedBox exText = cube 8 := by
  have h8 : exText.rounded 8 = 8 := exText_num 8 8 (by norm_num) (by norm_num)
  have h0 : exText.rounded 0 = 0 := exText_num 0 0 (by norm_num) (by norm_num)
  funext k c
  show exText.rounded (cube 8 k c) = _
  fin_cases k <;> fin_cases c <;> simp [cube, h8, h0]

theorem exFiled_ok : ∃ m, EMap.empty.registerElements "O\t H".toList = .ok (m, 2) ∧ m.Sane ∧
    (∀ q, (exFiled false q).Filable exText m true) ∧ (exFiled true 0).Filable exText m true ∧
    |exText.rounded ((exFiled true 3).fileCharge true)| > 10 * doubleEpsilon := by
  obtain ⟨m, h1, h2, h3⟩ := emap_sane "O\t H".toList ["O".toList, "H".toList]
    ((C01_tokens_are_words _ _).1 (by decide)) (by decide +kernel) (by decide)
  have hel : ∀ (p : Bool) (q : ℝ), ∀ a ∈ (exFiled p q).atoms, a.element < m.size := by
    intro p q a ha
    rw [h2]
    simp only [exFiled, List.mem_cons, List.not_mem_nil, or_false] at ha
    rcases ha with rfl | rfl | rfl <;> decide
  refine ⟨m, h1, h3, fun _ => ⟨exFiled_comment _ _, hel _ _, fun h => absurd (show false = true from h) (by decide),
    fun h => absurd (show false = true from h) (by decide), fun h => absurd (show false = true from h) (by decide)⟩,
    ⟨exFiled_comment _ _, hel _ _, fun _ => ?_, fun _ => ?_, fun _ => ?_⟩, ?_⟩
  · rw [exFiled_box]
    exact nonSingular_cube (by norm_num)
  · have h0 : exText.rounded 0 = 0 := exText_num 0 0 (by norm_num) (by norm_num)
    show |exText.rounded 0| ≤ _
    rw [h0]
    simp [doubleEpsilon]
  · intro a ha
    refine ⟨fun k => exText.rounded (a.r k) / 8, ?_, ?_⟩
    · rw [exFiled_box]
      funext c
      fin_cases c <;>
        simp [cartesian, cube, Fin.sum_univ_three, NumberText.roundedVec]
    · intro k
      obtain ⟨-, -, -, h4⟩ := exText_char (min 9 ⌊a.r k⌋₊) (by omega)
      have h5 : exText.rounded (a.r k) = ((min 9 ⌊a.r k⌋₊ : ℕ) : ℝ) := by
        simp only [NumberText.rounded, exText, h4, Nat.add_sub_cancel_left]
      have h6 : ((min 9 ⌊a.r k⌋₊ : ℕ) : ℝ) ≤ 9 := by
        exact_mod_cast Nat.min_le_left _ _
      have h7 : (0 : ℝ) ≤ ((min 9 ⌊a.r k⌋₊ : ℕ) : ℝ) := Nat.cast_nonneg _
      dsimp only
      rw [h5]
      constructor
      · linarith [div_nonneg h7 (by norm_num : (0 : ℝ) ≤ 8)]
      · rw [div_lt_iff₀ (by norm_num)]
        linarith
  · have h0 : exText.rounded 3 = 3 := exText_num 3 3 (by norm_num) (by norm_num)
    show |exText.rounded 3| > _
    rw [h0, doubleEpsilon, abs_of_pos (by norm_num : (0 : ℝ) < 3)]
    norm_num

example : ∃ m, EMap.empty.registerElements "O\t H".toList = .ok (m, 2) ∧ m.Sane ∧
    (exFiled false 3).Filable exText m true ∧ (exFiled true 0).Filable exText m true ∧
    |exText.rounded ((exFiled true 3).fileCharge true)| > 10 * doubleEpsilon := by
  obtain ⟨m, h1, h2, h3, h4, h5⟩ := exFiled_ok
  exact ⟨m, h1, h2, h3 3, h4, h5⟩

example (n : ℕ) (h : 1015 ≤ n) :
    ({ Structure.init with comment := List.replicate n 'x' } : Structure).writeToFile exText
      EMap.empty true = none :=
  C58_long_comment _ _ _ _ (fun hm => absurd (List.eq_of_mem_replicate hm) (by decide))
    (by simpa using h)

end N2P2
