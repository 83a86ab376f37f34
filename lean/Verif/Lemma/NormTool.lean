import Verif.Spec.NormTool
import Verif.Lemma.Normalization
import Verif.Lemma.AtomEnvironment
import Verif.Lemma.CurveFile
import Verif.Props.Settings

/-! Lemmas for nnp-norm. -/

namespace N2P2

theorem toolKeyword_group : ∀ kw ∈ toolKeywords, keyGroup kw = some [kw] := by decide +kernel

theorem toolKeyword_word : ∀ kw ∈ toolKeywords, IsWord kw ∧ ' ' ∉ kw ∧ '#' ∉ kw ∧ '!' ∉ kw ∧ '\n' ∉ kw ∧
    kw ≠ [] ∧ kw ∉ repeatable := by
  intro kw h
  unfold toolKeywords at h
  simp only [List.mem_cons, List.not_mem_nil, or_false] at h
  rcases h with rfl | rfl | rfl | rfl <;>
    exact ⟨⟨by decide, by decide⟩, by decide, by decide, by decide, by decide, by decide,
      by decide +kernel⟩

theorem tokens_then' {w : Str} (hw : IsWord w) {b : Str} (hb : AllBlank b) : SpecTokens (w ++ b) [w] := by
  have h0 : AllBlank ([] : Str) := fun c hc => by cases hc
  cases b with
  | nil =>
    rw [List.append_nil]
    exact .last h0 hw
  | cons c cs => exact .cons h0 hw (hb c (by simp)) (.nil hb)

/-- A line with a keyword, a number and a comment. -/
theorem kvLine_field {N : NumberText} (hN : N.Sane) (hU : N.Uncommented) {kw : Str}
    (hk : kw ∈ toolKeywords) (x : ℝ) {rest : Str} {b : Str} (hrest : uncommented rest = b)
    (hb : AllBlank b) (hn : '\n' ∉ rest) :
    kvLine (kw ++ ' ' :: (N.field x ++ rest)) = some (kw, N.print x) ∧
      '\n' ∉ kw ++ ' ' :: (N.field x ++ rest) := by
  obtain ⟨w1, w2, w3, w4, w5, w6, w7⟩ := toolKeyword_word _ hk
  obtain ⟨p1, p2, p3⟩ := hN x
  obtain ⟨u1, u2⟩ := hU x
  have hf1 : '#' ∉ N.field x := by
    unfold NumberText.field padLeft
    simp [u1]
  have hf2 : '!' ∉ N.field x := by
    unfold NumberText.field padLeft
    simp [u2]
  have hf3 : '\n' ∉ N.field x := by
    unfold NumberText.field padLeft
    simp [p2]
  constructor
  · have h1 : uncommented (kw ++ ' ' :: (N.field x ++ rest)) = kw ++ ' ' :: (N.field x ++ b) := by
      rw [uncommented_append w3 w4]
      have : uncommented (' ' :: (N.field x ++ rest)) = ' ' :: uncommented (N.field x ++ rest) := rfl
      rw [this, uncommented_append hf1 hf2, hrest]
    have hr : kw ++ ' ' :: (N.field x ++ rest) ≠ ['\r'] := by
      intro h
      have hl := congrArg List.length h
      have : 0 < kw.length := List.length_pos_of_ne_nil w6
      simp at hl
      omega
    have hb2 : SpecTokens (' ' :: (N.field x ++ b)) [N.print x] := by
      have := tokens_blanks (24 - (N.print x).length + 1) (tokens_then' p1 hb)
      rw [List.replicate_succ] at this
      unfold NumberText.field padLeft
      simpa using this
    have := kvLine_tokens (k := kw) (ts := [N.print x]) hr (by
      rw [h1]
      have := SpecTokens.cons (b := []) (fun c hc => by cases hc) w1 rfl hb2
      simpa using this)
    simpa [joinSp] using this
  · simp only [List.mem_append, List.mem_cons, not_or]
    exact ⟨w5, by decide, hf3, hn⟩

/-- Keywords and values of the header. -/
theorem toolHeader_kv {N : NumberText} (hN : N.Sane) (hU : N.Uncommented) (u : ModeUnits) :
    (normToolHeader N u).filterMap kvLine =
      [("mean_energy".toList, N.print u.meanEnergy), ("conv_energy".toList, N.print u.convEnergy),
        ("conv_length".toList, N.print u.convLength), ("conv_charge".toList, N.print u.convCharge)] ∧
    ∀ l ∈ normToolHeader N u, '\n' ∉ l := by
  have hb : AllBlank [' '] := by intro c hc; rw [List.mem_singleton.1 hc]; rfl
  have hc : uncommented " # nnp-norm".toList = [' '] := by decide
  have h1 := kvLine_field hN hU (kw := "mean_energy".toList) (by decide) u.meanEnergy hc hb (by decide)
  have h2 := kvLine_field hN hU (kw := "conv_energy".toList) (by decide) u.convEnergy hc hb (by decide)
  have h3 := kvLine_field hN hU (kw := "conv_length".toList) (by decide) u.convLength hc hb (by decide)
  have h4 := kvLine_field hN hU (kw := "conv_charge".toList) (by decide) u.convCharge (rest := []) (b := [])
    (by decide) (by intro c hc; cases hc) (by simp)
  rw [List.append_nil] at h4
  have k1 : kvLine (List.replicate 79 '#') = none := by decide +kernel
  have k2 : kvLine "# DATA SET NORMALIZATION".toList = none := by decide +kernel
  have k3 : kvLine [] = none := rfl
  have k4 : kvLine " # nnp-norm".toList = none := by decide +kernel
  have hr : '\n' ∉ List.replicate 79 '#' := by decide
  constructor
  · unfold normToolHeader normToolCharge normToolLine
    simp only [List.cons_append, List.nil_append, List.filterMap_cons, k1, k2, k3, k4, h1.1, h2.1, h3.1, h4.1,
      List.filterMap_nil]
  · intro l hl
    unfold normToolHeader normToolCharge normToolLine at hl
    simp only [List.cons_append, List.nil_append, List.mem_cons, List.not_mem_nil, or_false] at hl
    rcases hl with rfl | rfl | rfl | rfl | rfl | rfl | rfl | rfl | rfl | rfl
    · exact hr
    · decide
    · exact hr
    · exact h1.2
    · exact h2.2
    · exact h3.2
    · exact h4.2
    · decide
    · exact hr
    · simp

theorem settingsText_eq (lines : List Str) : settingsText lines = lines.flatMap (· ++ ['\n']) := by
  unfold settingsText
  generalize 0 = i
  induction lines generalizing i with
  | nil => rfl
  | cons l ls ih =>
    show (l ++ ['\n']) ++ writeSettingsFrom _ (i + 1) ls = _
    rw [ih, List.flatMap_cons]

/-- Reading the new file. -/
theorem toolFile_read {N : NumberText} (hN : N.Sane) (hU : N.Uncommented) (u : ModeUnits) {lines : List Str}
    (hl : ∀ l ∈ lines, '\n' ∉ l) :
    readLines ((normToolHeader N u).flatMap (· ++ ['\n']) ++ settingsText lines) =
      normToolHeader N u ++ lines := by
  rw [settingsText_eq, ← List.flatMap_append, readLines_write]
  intro l h
  rcases List.mem_append.1 h with h | h
  · exact (toolHeader_kv hN hU u).2 l h
  · exact hl l h

/-! ### Contents which differ by some keywords -/

section
variable {K : List Str} {c c' : Contents}

theorem values_apart (h : (kvList c').filter (fun p => !K.contains p.1) = (kvList c).filter (fun p => !K.contains p.1))
    {k : Str} (hk : k ∉ K) : (c'.range k).map (·.value) = (c.range k).map (·.value) := by
  have : ∀ C : List (Str × Str), C.filter (fun p => p.1 == k) =
      (C.filter (fun p => !K.contains p.1)).filter (fun p => p.1 == k) := by
    intro C
    rw [List.filter_filter]
    refine List.filter_congr fun p _ => ?_
    by_cases hp : p.1 = k
    · simp [hp, hk]
    · simp [hp]
  rw [range_values, range_values, this (kvList c'), this (kvList c), h]

theorem sameAnswers_apart (hK : ∀ kw ∈ K, keyGroup kw = some [kw])
    (h : (kvList c').filter (fun p => !K.contains p.1) = (kvList c).filter (fun p => !K.contains p.1))
    {kw : Str} (hk : kw ∉ K) : SameAnswers c' c kw := by
  refine sameAnswers_of_values fun g hg k hkg => values_apart h fun hn => ?_
  obtain ⟨h1, h2⟩ := keyGroup_some hg
  have h3 := keyGroup_of_mem h1 hkg
  rw [hK k hn] at h3
  injection h3 with h3
  rw [← h3] at h2
  exact hk ((List.mem_singleton.1 h2) ▸ hn)

theorem sanityCheck_apart (hK : ∀ kw ∈ K, keyGroup kw = some [kw]) (hknown : ∀ k ∈ K, k ∈ knownSpellings)
    (h : (kvList c').filter (fun p => !K.contains p.1) = (kvList c).filter (fun p => !K.contains p.1))
    (h1 : ∀ k ∈ K, c.count k ≤ 1) (h2 : ∀ k ∈ K, c'.count k ≤ 1) :
    sanityCheck c' = sanityCheck c := by
  have hu : List.countP (fun e : Entry => !knownSpellings.contains e.key) c' =
      List.countP (fun e : Entry => !knownSpellings.contains e.key) c := by
    have key : ∀ d : Contents, List.countP (fun e : Entry => !knownSpellings.contains e.key) d =
        (((kvList d).filter (fun p => !K.contains p.1)).countP
          fun p => !knownSpellings.contains p.1) := by
      intro d
      rw [List.countP_filter]
      unfold kvList
      rw [List.countP_map]
      refine List.countP_congr fun e _ => ?_
      simp only [Function.comp_apply, Bool.and_eq_true, Bool.not_eq_true',
        List.contains_iff_mem, ← Bool.not_eq_true]
      exact ⟨fun hh => ⟨hh, fun hn => hh (hknown _ hn)⟩, fun hh => hh.1⟩
    rw [key, key, h]
  have hm : knownSpellings.countP (fun k => decide (Contents.count c' k > 1) &&
        !repeatable.contains k) =
      knownSpellings.countP (fun k => decide (Contents.count c k > 1) &&
        !repeatable.contains k) := by
    refine List.countP_congr fun k _ => ?_
    by_cases hk : k ∈ K
    · have a := h1 k hk
      have b := h2 k hk
      have a' : ¬ (Contents.count c k > 1) := by omega
      have b' : ¬ (Contents.count c' k > 1) := by omega
      simp [a', b']
    · rw [count_values c', values_apart h hk, ← count_values]
  have hv : knownSpellings.countP (fun k =>
      match keyGroup k with
      | none => false
      | some g => !(g.length == 1) &&
        decide ((g.filter (fun alt => (Contents.find? c' alt).isSome)).length > 1)) =
      knownSpellings.countP (fun k =>
      match keyGroup k with
      | none => false
      | some g => !(g.length == 1) &&
        decide ((g.filter (fun alt => (Contents.find? c alt).isSome)).length > 1)) := by
    refine List.countP_congr fun k _ => ?_
    cases hg : keyGroup k with
    | none => exact Iff.rfl
    | some g =>
      obtain ⟨g1, g2⟩ := keyGroup_some hg
      by_cases hn : ∃ a ∈ g, a ∈ K
      · obtain ⟨a, ha, hna⟩ := hn
        have h3 := keyGroup_of_mem g1 ha
        rw [hK a hna] at h3
        injection h3 with h3
        rw [← h3]
        simp
      · push Not at hn
        have : g.filter (fun alt => (Contents.find? c' alt).isSome) =
            g.filter (fun alt => (Contents.find? c alt).isSome) :=
          List.filter_congr fun a ha => isSome_of_values (values_apart h (hn a ha))
        simp only [this]
  unfold sanityCheck
  simp only
  rw [hu, hm]
  exact congrArg (fun n : ℕ => ((_ + _ + n, _ + n) : ℕ × ℕ)) hv

end

/-- Keywords of the new file. -/
theorem toolContents {N : NumberText} (hN : N.Sane) (hU : N.Uncommented) (u : ModeUnits) {lines : List Str}
    (hw : ∀ kw ∈ toolKeywords, ¬ Present (parseLines lines) kw) :
    (kvList (parseLines (normToolHeader N u ++ lines))).filter (fun p => !toolKeywords.contains p.1) =
      (kvList (parseLines lines)).filter (fun p => !toolKeywords.contains p.1) ∧
    (∀ p ∈ [("mean_energy".toList, N.print u.meanEnergy), ("conv_energy".toList, N.print u.convEnergy),
        ("conv_length".toList, N.print u.convLength), ("conv_charge".toList, N.print u.convCharge)],
      ((parseLines (normToolHeader N u ++ lines)).range p.1).map (·.value) = [p.2]) := by
  rw [kvList_parseLines, kvList_parseLines, List.filterMap_append, (toolHeader_kv hN hU u).1, List.filter_append]
  refine ⟨by rfl, fun p hp => ?_⟩
  have hk : p.1 ∈ toolKeywords := by
    simp only [List.mem_cons, List.not_mem_nil, or_false] at hp
    rcases hp with rfl | rfl | rfl | rfl <;> simp [toolKeywords]
  rw [range_values, kvList_parseLines, List.filterMap_append, (toolHeader_kv hN hU u).1, List.filter_append,
    filter_key_nil (not_present_iff.1 (hw _ hk)), List.append_nil]
  simp only [List.mem_cons, List.not_mem_nil, or_false] at hp
  rcases hp with rfl | rfl | rfl | rfl <;> rfl

theorem keywordsFound_iff (c : Contents) : ∃ b, normKeywordsFound c = .ok b ∧
    (b = true ↔ ∃ kw ∈ toolKeywords, Present c kw) := by
  refine ⟨(c.find? "mean_energy".toList).isSome || (c.find? "conv_energy".toList).isSome ||
    (c.find? "conv_length".toList).isSome || (c.find? "conv_charge".toList).isSome, ?_, ?_⟩
  · unfold normKeywordsFound
    rw [exists_single (toolKeyword_group _ (by decide)), exists_single (toolKeyword_group _ (by decide)),
      exists_single (toolKeyword_group _ (by decide)), exists_single (toolKeyword_group _ (by decide))]
    rfl
  · simp only [Bool.or_eq_true, find?_isSome_iff]
    unfold toolKeywords
    simp only [List.mem_cons, List.not_mem_nil, or_false, exists_eq_or_imp, exists_eq_left, or_assoc]

/-! ### Charges -/

theorem foldl_maxCharge (qs : List ℝ) : ∀ m : ℝ, m ≤ qs.foldl (fun m q => if |q| > m then |q| else m) m ∧
    (∀ q ∈ qs, |q| ≤ qs.foldl (fun m q => if |q| > m then |q| else m) m) ∧
    (qs.foldl (fun m q => if |q| > m then |q| else m) m = m ∨
      ∃ q ∈ qs, |q| = qs.foldl (fun m q => if |q| > m then |q| else m) m) := by
  induction qs with
  | nil => intro m; simp
  | cons q qs ih =>
    intro m
    rw [List.foldl_cons]
    obtain ⟨h1, h2, h3⟩ := ih (if |q| > m then |q| else m)
    have hq : |q| ≤ (if |q| > m then |q| else m) ∧ m ≤ (if |q| > m then |q| else m) := by
      split
      · exact ⟨le_rfl, by linarith⟩
      · exact ⟨by linarith, le_rfl⟩
    refine ⟨hq.2.trans h1, ?_, ?_⟩
    · intro x hx
      rcases List.mem_cons.1 hx with rfl | hx
      · exact hq.1.trans h1
      · exact h2 x hx
    · rcases h3 with h3 | ⟨x, hx, h3⟩
      · by_cases hc : |q| > m
        · right
          refine ⟨q, by simp, ?_⟩
          rw [h3, if_pos hc]
        · left
          rw [h3, if_neg hc]
      · exact Or.inr ⟨x, by simp [hx], h3⟩

theorem maxAbsCharge_eq (ss : List Structure) :
    maxAbsCharge ss = (refCharges ss).foldl (fun (m : ℝ) q => if |q| > m then |q| else m) 0 := by
  unfold maxAbsCharge refCharges
  generalize (0 : ℝ) = m
  induction ss generalizing m with
  | nil => rfl
  | cons s ss ih =>
    rw [List.foldl_cons, ih, List.flatMap_cons, List.foldl_append, List.foldl_map]

/-- The largest charge of all processes. -/
theorem maxCharge_all (procs : List (List Structure)) :
    (∀ q ∈ refCharges procs.flatten, |q| ≤ (procs.map maxAbsCharge).foldl max 0) ∧
    0 ≤ (procs.map maxAbsCharge).foldl max 0 ∧
    ((procs.map maxAbsCharge).foldl max 0 = 0 ∨
      ∃ q ∈ refCharges procs.flatten, |q| = (procs.map maxAbsCharge).foldl max 0) := by
  have key : ∀ (procs : List (List Structure)) (m : ℝ),
      (∀ q ∈ refCharges procs.flatten, |q| ≤ (procs.map maxAbsCharge).foldl max m) ∧
      m ≤ (procs.map maxAbsCharge).foldl max m ∧
      ((procs.map maxAbsCharge).foldl max m = m ∨ (procs.map maxAbsCharge).foldl max m = 0 ∨
        ∃ q ∈ refCharges procs.flatten, |q| = (procs.map maxAbsCharge).foldl max m) := by
    intro procs
    induction procs with
    | nil => intro m; simp [refCharges]
    | cons ss procs ih =>
      intro m
      obtain ⟨h1, h2, h3⟩ := ih (max m (maxAbsCharge ss))
      obtain ⟨g1, g2, g3⟩ := foldl_maxCharge (refCharges ss) 0
      rw [← maxAbsCharge_eq] at g1 g2 g3
      have hsplit : refCharges (ss :: procs).flatten = refCharges ss ++ refCharges procs.flatten := by
        unfold refCharges
        rw [List.flatten_cons, List.flatMap_append]
      rw [List.map_cons, List.foldl_cons, hsplit]
      refine ⟨?_, (le_max_left _ _).trans h2, ?_⟩
      · intro q hq
        rcases List.mem_append.1 hq with hq | hq
        · exact (g2 q hq).trans ((le_max_right _ _).trans h2)
        · exact h1 q hq
      · rcases h3 with h3 | h3 | ⟨q, hq, h3⟩
        · rw [h3]
          rcases max_choice m (maxAbsCharge ss) with hm | hm
          · exact Or.inl hm
          · rw [hm]
            rcases g3 with g3 | ⟨q, hq, g3⟩
            · exact Or.inr (Or.inl g3)
            · exact Or.inr (Or.inr ⟨q, List.mem_append_left _ hq, g3⟩)
        · exact Or.inr (Or.inl h3)
        · exact Or.inr (Or.inr ⟨q, List.mem_append_right _ hq, h3⟩)
  obtain ⟨h1, h2, h3⟩ := key procs 0
  refine ⟨h1, h2, ?_⟩
  rcases h3 with h3 | h3 | h3
  · exact Or.inl h3
  · exact Or.inl h3
  · exact Or.inr h3

/-! ### Structures -/

theorem normTool_values (u : ModeUnits) (ss : List Structure) (hc : Counted ss) :
    refEnergies (ss.map (normToolStructure u)) =
      (refEnergies ss).map (fun v => (v - u.meanEnergy) * u.convEnergy) ∧
    refForces (ss.map (normToolStructure u)) =
      (refForces ss).map (fun v => (v - 0) * (u.convEnergy / u.convLength)) ∧
    refCharges (ss.map (normToolStructure u)) = (refCharges ss).map (· * u.convCharge) := by
  induction ss with
  | nil => exact ⟨rfl, rfl, rfl⟩
  | cons s ss ih =>
    obtain ⟨i1, i2, i3⟩ := ih fun x hx => hc x (List.mem_cons_of_mem _ hx)
    have hn := hc s (by simp)
    have hn0 : (s.numAtoms : ℝ) ≠ 0 := by
      have : s.atoms.length ≠ 0 := fun e => hn.2 (List.length_eq_zero_iff.1 e)
      rw [hn.1]
      exact_mod_cast this
    unfold refEnergies at i1 ⊢
    unfold refForces at i2 ⊢
    unfold refCharges at i3 ⊢
    refine ⟨?_, ?_, ?_⟩
    · rw [List.map_cons, List.map_cons, i1, List.map_cons, List.map_cons]
      congr 1
      show (s.energyRef - u.meanEnergy * s.numAtoms) * u.convEnergy / s.numAtoms = _
      field_simp
    · rw [List.map_cons, List.flatMap_cons, i2, List.flatMap_cons, List.map_append]
      congr 1
      show List.flatMap _ (s.atoms.map (normToolAtom u)) = _
      generalize s.atoms = A
      induction A with
      | nil => rfl
      | cons a A ihA =>
        rw [List.map_cons, List.flatMap_cons, List.flatMap_cons, List.map_append, ihA]
        congr 1
        simp [normToolAtom, mul_comm]
    · rw [List.map_cons, List.flatMap_cons, i3, List.flatMap_cons, List.map_append]
      congr 1
      show List.map _ (s.atoms.map (normToolAtom u)) = _
      rw [List.map_map, List.map_map]
      rfl

/-- The structures written are those which other programs use. -/
theorem normTool_text {N : NumberText} (hN : N.Sane) {m : EMap} (hm : m.Sane) (u : ModeUnits) {s : Structure}
    (hs : s.Writable m) (hf : s.Unevaluated) :
    ∃ t text, s.toNormalizedUnits u.meanEnergy u.convEnergy u.convLength u.convCharge = some t ∧
      t.writeToFile N m true = some text ∧ (normToolStructure u s).writeToFile N m true = some text := by
  have hat : s.atoms.mapM (fun a : Atom => a.toNormalizedUnits u.convEnergy u.convLength u.convCharge) =
      some (s.atoms.map fun a => (a.toNormalizedUnits u.convEnergy u.convLength u.convCharge).getD a) := by
    refine mapM_of_map fun a ha => ?_
    unfold Atom.toNormalizedUnits
    rw [if_pos (by simp [Atom.derivativesAllocated, hf a ha])]
    rfl
  have hex : ∃ text, (normToolStructure u s).writeToFile N m true = some text := by
    have hsym : ∀ e < m.size, ∃ w, w ∈ knownElements ∧ m.symbol e = .ok w := fun e he => by
      obtain ⟨w, h1, h2, -⟩ := hm e he
      exact ⟨w, h1, h2⟩
    choose! w hw using hsym
    refine ⟨_, writeToFile_eq hN (w := w) _ true hs.comment fun a ha => ?_⟩
    obtain ⟨b, hb, rfl⟩ := List.mem_map.1 (show a ∈ s.atoms.map (normToolAtom u) from ha)
    exact hw _ (hs.element b hb)
  obtain ⟨text, hex⟩ := hex
  refine ⟨_, text, by unfold Structure.toNormalizedUnits; rw [hat]; rfl, ?_, hex⟩
  rw [← hex]
  have hlines : ∀ a ∈ s.atoms,
      writeAtom N m true ((a.toNormalizedUnits u.convEnergy u.convLength u.convCharge).getD a) =
        writeAtom N m true (normToolAtom u a) := by
    intro a ha
    unfold Atom.toNormalizedUnits
    rw [if_pos (by simp [Atom.derivativesAllocated, hf a ha])]
    rfl
  have hmap : (s.atoms.map fun a => (a.toNormalizedUnits u.convEnergy u.convLength u.convCharge).getD a).mapM
      (writeAtom N m true) = (s.atoms.map (normToolAtom u)).mapM (writeAtom N m true) := by
    generalize s.atoms = A at hlines
    induction A with
    | nil => rfl
    | cons a A ih =>
      rw [List.map_cons, List.map_cons, List.mapM_cons, List.mapM_cons, hlines a (by simp),
        ih fun x hx => hlines x (by simp [hx])]
  have hbox : writeBox N { s with box := if s.isPeriodic then fun i => u.convLength • s.box i else s.box } =
      writeBox N { s with box := fun i => u.convLength • s.box i } := by
    unfold writeBox
    cases s.isPeriodic <;> rfl
  unfold Structure.writeToFile
  show ((strpr _).bind fun c => (writeBox N _).bind fun b => _) =
    (strpr _).bind fun c => (writeBox N _).bind fun b => _
  rw [mul_comm (s.numAtoms : ℝ) u.meanEnergy]
  congr 1
  funext c
  show ((writeBox N { s with box := if s.isPeriodic then fun i => u.convLength • s.box i else s.box }).bind _) =
    ((writeBox N { s with box := fun i => u.convLength • s.box i }).bind _)
  rw [hbox]
  congr 1
  funext b
  show ((List.mapM (writeAtom N m true) _).bind _) = ((List.mapM (writeAtom N m true) _).bind _)
  simp only
  rw [hmap]
  rfl

end N2P2
