import Verif.Lemma.DataFile
import Verif.Props.StructureFile
import Mathlib.Tactic.IntervalCases

/-! Properties of data files with many structures. -/

namespace N2P2

variable {Byte : Type} {D : DataSetup Byte} {L : List (List Str)} {Z : List Str}

/-- C93: every structure of a data file ends up on exactly one process, and there it is what is read from
its own lines, whatever stands before and behind in the file: nothing is lost on the way. Processes get
the same number of structures, up to one. Behind the last structure there may be further lines, as
long as they start no new structure. -/
theorem C93_distributed (hD : D.Sane) (hL : ∀ l ∈ L, D.Readable l) (hZ : getNumStructures Z = 0)
    (P : ℕ) (randomize excl : Bool) (draws : List ℕ) (hP : if excl then 2 ≤ P else 1 ≤ P)
    (hN : (if excl then P - 1 else P) ≤ L.length) (hd : ∀ p ∈ draws, p < P)
    (hmany : randomize = true → ∀ p < P, L.length ≤ draws.count p) :
    ∃ s, distributeFile D P randomize excl draws (L.flatten ++ Z) = .ok s ∧
      ((List.range P).flatMap fun p => (s.held p).map Structure.index).Perm (List.range L.length) ∧
      (∀ p < P, ∀ v ∈ s.held p, ∃ l, L[v.index]? = some l ∧ D.Holds l v.index v) ∧
      (∀ p q, p < P → q < P → (excl = true → p ≠ 0 ∧ q ≠ 0) →
        (s.held p).length ≤ (s.held q).length + 1) ∧
      (excl = true → s.held 0 = []) := by
  have hP0 : 0 < P := by
    split_ifs at hP <;> omega
  have hx : ¬ (excl = true ∧ P = 1) := by
    rintro ⟨h1, h2⟩
    rw [if_pos h1] at hP
    omega
  have hrun : ∃ d, distributeStructures L.length P randomize excl draws = .ok (some d) := by
    cases randomize with
    | true => exact C41_random_finishes L.length P hP0 excl draws hd (hmany rfl) hN hx
    | false =>
      have hne : ¬ ∃ e, distributeStructures L.length P false excl draws = .error e := by
        rw [C41_error_iff]
        rintro (h | h)
        · exact hx h
        · omega
      unfold distributeStructures at hne ⊢
      cases hq : structuresPerProc L.length P excl with
      | error e => rw [hq] at hne; exact absurd ⟨e, rfl⟩ hne
      | ok quota => exact ⟨_, rfl⟩
  obtain ⟨d, hd'⟩ := hrun
  obtain ⟨s, e, h⟩ := follows_distribute hD hL P hP0 randomize excl draws hZ hd'
  have hi : ∀ p, (s.held p).map Structure.index = d.held p := by
    intro p
    have := h.held p
    generalize d.held p = A at this ⊢
    generalize s.held p = B at this ⊢
    induction this with
    | nil => rfl
    | cons h1 _ ih => rw [List.map_cons, h1.1, ih]
  have hl : ∀ p, (s.held p).length = (d.held p).length := by
    intro p
    rw [← hi p, List.length_map]
  obtain ⟨h5, h6⟩ := C41_even_shares L.length P hP0 randomize excl draws hd d hd'
  refine ⟨s, e, ?_, ?_, ?_, ?_⟩
  · have := C41_each_structure_once L.length P hP0 randomize excl draws hd d hd'
    rwa [show (fun p => (s.held p).map Structure.index) = d.held from funext hi]
  · intro p _ v hv
    obtain ⟨i, hi', rfl⟩ := List.getElem_of_mem hv
    have h7 := (List.forall₂_iff_get.1 (h.held p)).2 i (by rw [← hl]; exact hi') hi'
    obtain ⟨h8, l, h9, h10⟩ := h7
    simp only [List.get_eq_getElem] at h8 h9 h10
    rw [h8]
    exact ⟨l, h9, h10⟩
  · intro p q hp hq hpq
    rw [hl, hl]
    exact h5 p q hp hq hpq
  · intro hex
    apply List.eq_nil_of_length_eq_zero
    rw [hl, h6 hex]
    rfl

/-- The lines written for a structure. -/
theorem written_lines {N : NumberText} {m : EMap} (hN : N.Sane) (hm : m.Sane) (s : Structure)
    (ref : Bool) (hs : s.Filable N m ref) :
    ∃ lines, s.writeToFile N m ref = some (lines.flatMap (· ++ ['\n'])) ∧
      (∀ l ∈ lines, '\n' ∉ l) ∧ IsSection lines ∧
      ∀ k, ∃ u, (Structure.forReading m k).readFromLines N m lines = some u ∧
        s.FileCopy N m ref k u := by
  obtain ⟨w, hw⟩ := emap_symbols hm
  have he := hs.element
  have hwr := writeToFile_eq hN s ref hs.comment
    (fun a ha => ⟨(hw _ (he a ha)).1, (hw _ (he a ha)).2.1⟩)
  have hnl := no_newline_fileLines hN ref s hs.comment.1 fun a ha => (hw _ (he a ha)).1
  have hsec : IsSection (fileLines N w ref s) := by
    refine ⟨_, _, _, fileLines_eq N w ref s, by decide +kernel, by decide +kernel, ?_⟩
    intro l hl
    unfold bodyLines at hl
    rw [List.mem_cons, List.mem_append, List.mem_append] at hl
    unfold firstWord
    rcases hl with rfl | hl | hl | hl
    · obtain ⟨ts, h⟩ := words_comment keyComment s.comment ⟨by decide, by decide⟩
      exact ⟨keyComment, by rw [commentBody, h]; rfl, by decide, by decide⟩
    · unfold boxBodies at hl
      by_cases hp : s.isPeriodic = true
      · rw [if_pos hp] at hl
        simp only [List.mem_cons, List.not_mem_nil, or_false] at hl
        rcases hl with rfl | rfl | rfl <;>
          exact ⟨keyLattice, by rw [words_box hN]; rfl, by decide, by decide⟩
      · rw [if_neg hp] at hl
        exact absurd hl List.not_mem_nil
    · obtain ⟨a, ha, rfl⟩ := List.mem_map.1 hl
      obtain ⟨ws, h⟩ := words_atom hN ref _ (hw _ (he a ha)).1 a
      exact ⟨keyAtom, by rw [h]; rfl, by decide, by decide⟩
    · simp only [List.mem_cons, List.not_mem_nil, or_false] at hl
      rcases hl with rfl | rfl
      · exact ⟨keyEnergy, by rw [words_num hN keyEnergy ⟨by decide, by decide⟩]; rfl, by decide,
          by decide⟩
      · exact ⟨keyCharge, by rw [words_num hN keyCharge ⟨by decide, by decide⟩]; rfl, by decide,
          by decide⟩
  have hread : ∀ k, ∃ u, (Structure.forReading m k).readFromLines N m
      (fileLines N w ref s) = some u ∧ s.FileCopy N m ref k u := by
    intro k
    obtain ⟨text, h1, h2⟩ := C58_roundtrip_partial hN hm s ref hs k
    obtain ⟨u, h3, h4⟩ := h2 []
    obtain rfl := Option.some.inj (hwr.symm.trans h1)
    rw [readLines_append _ hnl, readFromFile_section hsec] at h3
    obtain ⟨u', h5, h6⟩ := Option.map_eq_some_iff.1 h3
    cases h6
    exact ⟨_, h5, h4⟩
  exact ⟨_, hwr, hnl, hsec, hread⟩

/-- The lines written for a structure can be read and sent. -/
theorem written_section (hN : D.N.Sane) (hm : D.m.Sane) (s : Structure) (ref : Bool)
    (hs : s.Filable D.N D.m ref)
    (hb : newMessageBytes D.F s.atoms.length D.m.size s.comment.length < 2 ^ 31) :
    ∃ lines, s.writeToFile D.N D.m ref = some (lines.flatMap (· ++ ['\n'])) ∧
      (∀ l ∈ lines, '\n' ∉ l) ∧ D.Readable lines ∧
      ∀ k u, (Structure.forReading D.m k).readFromLines D.N D.m lines = some u →
        s.FileCopy D.N D.m ref k u := by
  obtain ⟨lines, hwr, hnl, hsec, hread⟩ := written_lines hN hm s ref hs
  refine ⟨_, hwr, hnl, ⟨hsec, fun k => ?_⟩, fun k u hu => ?_⟩
  · obtain ⟨u, h1, h2⟩ := hread k
    refine ⟨u, h1, ?_, ?_⟩
    · rw [h2.comment]
      exact hs.comment.2.1
    · have hk := readFromLines_keeps h1
      have hel : u.numElements = D.m.size := hk.numElements
      have hat : ∀ a ∈ u.atoms, a.Bare ∧ a.numNeighborsPerElement.length = D.m.size := by
        intro a ha
        refine ⟨(hk.atom a ha).1, ?_⟩
        rw [(h2.fresh a ha).1.2.2.2.2.1, List.length_replicate, hel]
      have e1 : u.tags = u.atoms.length := by
        unfold Structure.tags
        rw [List.map_congr_left (g := fun _ => 1)]
        · simp
        · intro a ha
          obtain ⟨i, k, t, r, e, q, f, z, rfl⟩ := (hat a ha).1
          rfl
      have e2 : u.sizes = 7 + D.m.size + u.atoms.length * (15 + D.m.size) := by
        unfold Structure.sizes
        rw [hk.length, size_forReading, List.map_congr_left (g := fun _ => 15 + D.m.size)]
        · simp
        · intro a ha
          obtain ⟨⟨i, k, t, r, e, q, f, z, rfl⟩, h3⟩ := hat a ha
          show 15 + 0 + z.length + 0 + 0 + 4 * 0 = _
          rw [← h3]
          rfl
      have e3 : u.doubles = 23 + 13 * u.atoms.length := by
        unfold Structure.doubles
        rw [List.map_congr_left (g := fun _ => 13)]
        · simp [Nat.mul_comm]
        · intro a ha
          obtain ⟨i, k, t, r, e, q, f, z, rfl⟩ := (hat a ha).1
          rfl
      unfold Structure.messageBytes
      rw [e1, e2, e3, h2.comment, h2.length]
      exact hb
  · obtain ⟨u', h1, h2⟩ := hread k
    rw [hu] at h1
    cases h1
    exact h2

theorem readLines_texts (T : List (List Str)) (h : ∀ t ∈ T, ∀ l ∈ t, '\n' ∉ l) :
    readLines (T.map fun t => t.flatMap (· ++ ['\n'])).flatten = T.flatten := by
  induction T with
  | nil => rfl
  | cons t T ih =>
    rw [List.map_cons, List.flatten_cons, readLines_append _ (h t (by simp)),
      ih fun x hx => h x (by simp [hx]), List.flatten_cons]

/-- C93: structures written one behind the other are distributed again: every structure is on exactly one
process, with the comment, box, energy (without the energy of the free atoms), charge, elements,
positions, forces and atomic charges it was written with. The conditions are those of C58, and messages of less than 2 GiB. -/
theorem C93_written (hD : D.Sane) (hN : D.N.Sane) (hm : D.m.Sane) (S : List Structure) (ref : Bool)
    (hs : ∀ s ∈ S, s.Filable D.N D.m ref ∧
      newMessageBytes D.F s.atoms.length D.m.size s.comment.length < 2 ^ 31)
    (P : ℕ) (randomize excl : Bool) (draws : List ℕ) (hP : if excl then 2 ≤ P else 1 ≤ P)
    (hn : (if excl then P - 1 else P) ≤ S.length) (hd : ∀ p ∈ draws, p < P)
    (hmany : randomize = true → ∀ p < P, S.length ≤ draws.count p) :
    ∃ texts, S.mapM (fun s => s.writeToFile D.N D.m ref) = some texts ∧
      ∃ f, distributeFile D P randomize excl draws (readLines texts.flatten) = .ok f ∧
        ((List.range P).flatMap fun p => (f.held p).map Structure.index).Perm (List.range S.length) ∧
        ∀ p < P, ∀ v ∈ f.held p, ∃ s u, S[v.index]? = some s ∧ s.FileCopy D.N D.m ref v.index u ∧
          v = { u with energyRef := u.energyRef - s.offsetSum D.offs } := by
  have hall : ∃ T : List (List Str), T.length = S.length ∧
      S.mapM (fun s => s.writeToFile D.N D.m ref) =
        some (T.map fun t => t.flatMap (· ++ ['\n'])) ∧
      (∀ t ∈ T, ∀ l ∈ t, '\n' ∉ l) ∧ (∀ t ∈ T, D.Readable t) ∧
      ∀ (i : ℕ) t, T[i]? = some t → ∃ s, S[i]? = some s ∧ ∀ k u,
        (Structure.forReading D.m k).readFromLines D.N D.m t = some u →
          s.FileCopy D.N D.m ref k u := by
    clear hn hmany
    induction S with
    | nil => exact ⟨[], rfl, rfl, nofun, nofun, nofun⟩
    | cons s S ih =>
      obtain ⟨T, h0, h1, h2, h3, h4⟩ := ih fun x hx => hs x (by simp [hx])
      obtain ⟨hf, hb⟩ := hs s (by simp)
      obtain ⟨t, g1, g2, g3, g4⟩ := written_section hN hm s ref hf hb
      refine ⟨t :: T, by simp [h0], ?_, ?_, ?_, ?_⟩
      · rw [List.mapM_cons, g1, h1]
        rfl
      · intro x hx
        rcases List.mem_cons.1 hx with rfl | hx
        · exact g2
        · exact h2 x hx
      · intro x hx
        rcases List.mem_cons.1 hx with rfl | hx
        · exact g3
        · exact h3 x hx
      · intro i x hx
        cases i with
        | zero =>
          cases hx
          exact ⟨s, rfl, g4⟩
        | succ i => exact h4 i x hx
  obtain ⟨T, h0, h1, h2, h3, h4⟩ := hall
  refine ⟨_, h1, ?_⟩
  obtain ⟨f, g1, g2, g3, -⟩ := C93_distributed (Z := []) hD h3 rfl P randomize excl draws hP
    (by rw [h0]; exact hn) hd (by rw [h0]; exact hmany)
  rw [List.append_nil] at g1
  rw [h0] at g2
  refine ⟨f, by rw [readLines_texts T h2]; exact g1, g2, fun p hp v hv => ?_⟩
  obtain ⟨t, e1, u, e2, e3⟩ := g3 p hp v hv
  obtain ⟨s, e4, e5⟩ := h4 _ _ e1
  have e6 := e5 _ _ e2
  refine ⟨s, u, e4, e6, ?_⟩
  rw [show s.offsetSum D.offs = u.offsetSum D.offs from ?_]
  · exact e3
  · unfold Structure.offsetSum
    congr 1
    apply List.ext_getElem
    · rw [List.length_map, List.length_map, e6.length]
    · intro i i1 i2
      rw [List.length_map] at i1 i2
      rw [List.getElem_map, List.getElem_map, (e6.atom i _ _ (List.getElem?_eq_getElem i1)
        (List.getElem?_eq_getElem i2)).element]

/-- C93, disagreement: a blank line between two structures is accepted when the structures are counted,
but makes reading fail. -/
theorem C93_blank_line (hL : ∀ l ∈ L, IsSection l) (b : Str) (hb : firstWord b = none)
    (hZ : getNumStructures Z ≠ 0) (P : ℕ) (hP : 0 < P) (randomize excl : Bool) (draws : List ℕ)
    (s : FileState) : distributeFile D P randomize excl draws (L.flatten ++ b :: Z) ≠ .ok s := by
  intro e
  have hn : getNumStructures (L.flatten ++ b :: Z) = L.length + getNumStructures Z := by
    rw [count_append, count_sections hL]
    show _ + List.countP _ _ = _
    rw [List.countP_cons_of_neg (by rw [hb]; simp)]
    rfl
  have h0 : Stuck L (b :: Z) (FileState.start (L.flatten ++ b :: Z)) := ⟨Nat.zero_le _, rfl⟩
  unfold distributeFile at e
  rw [hn] at e
  cases hq : structuresPerProc (L.length + getNumStructures Z) P excl with
  | error x => rw [hq] at e; cases e
  | ok quota =>
    rw [hq] at e
    dsimp only at e
    cases randomize with
    | true =>
      rw [if_pos rfl] at e
      obtain ⟨h1, h2⟩ := stuck_random hb hL _ quota draws h0 e
      have := h1.count
      omega
    | false =>
      rw [if_neg (by simp)] at e
      cases e1 : fileOrdered D P quota (FileState.start (L.flatten ++ b :: Z)) with
      | none => rw [e1] at e; cases e
      | some s1 =>
        unfold fileOrdered at e1
        have h1 := foldlM_option_inv (Stuck L (b :: Z)) _ (fun s p s' h e =>
          foldlM_option_inv (Stuck L (b :: Z)) _ (fun s _ s' h e => h.give hb hL e) _ s s' h e)
          _ _ _ h0 e1
        have h2 := outer_count _ e1
        rw [sum_range_map, sum_quota _ P excl quota hq hP] at h2
        have h3 := h1.count
        have h4 : s1.count = 0 + (L.length + getNumStructures Z) := h2
        omega

/-- Reading without "end". -/
theorem readLoop_unended {N : NumberText} (hN : N.Sane) (m : EMap) (ref : Bool) {w : ℕ → Str}
    (s t : Structure) (h1 : t.atoms = []) (h2 : t.numAtoms = 0)
    (h3 : t.numAtomsPerElement = List.replicate t.numElements 0)
    (h : ∀ a ∈ s.atoms, w a.element ∈ knownElements ∧ m.index (w a.element) = .ok a.element ∧
      a.element < t.numElements) :
    readLoop N m (keyBegin :: bodyLines N w ref s) t 0 = some (fileEnd N ref s t) := by
  obtain ⟨b1, b2, b3, b4, b5, b6, b7⟩ := fileBase_fields N s t
  have key : ∀ n, readLoop N m (s.atoms.map (fun a => atomBody N ref (w a.element) a) ++
      [numBody N keyEnergy (s.fileEnergy ref), numBody N keyCharge (s.fileCharge ref)])
      (fileBase N s t) n = some (fileEnd N ref s t) := by
    intro n
    have e : fileBase N s t = afterAtoms N ref (fileBase N s t) [] :=
      (afterAtoms_nil N ref _ (by rw [b3, h1]) (by rw [b4, h2]) (by rw [b5, h3, b1])).symm
    conv_lhs => rw [e]
    rw [readLoop_atoms hN m _ ref n w _ s.atoms (by rw [b1]; exact h), List.nil_append,
      readLoop_energy hN, readLoop_charge hN]
    rfl
  unfold bodyLines
  rw [readLoop_begin, readLoop_comment, readLoop_box hN]
  by_cases hp : s.isPeriodic = true
  · rw [if_pos hp, ← key 3]
    unfold fileBase
    rw [if_pos hp]
  · rw [if_neg hp, ← key 0]
    unfold fileBase
    rw [if_neg hp]

theorem linesToEnd_none (L : List Str)
    (h : ∀ l ∈ L, ∃ key ws, split (reduce l) = key :: ws ∧ key ≠ keyEnd) :
    linesToEnd L = some (L, []) := by
  induction L with
  | nil => rfl
  | cons l L ih =>
    obtain ⟨key, ws, h1, h2⟩ := h l (by simp)
    rw [linesToEnd, h1]
    show (if key = keyEnd then _ else (linesToEnd L).bind fun r => some (l :: r.1, r.2)) = _
    rw [if_neg h2, ih (fun b hb => h b (by simp [hb]))]
    rfl

/-- C93, disagreement: the checks are made at the line "end" only. A charged periodic structure is refused
(`C58_charged`), but accepted at the end of a file which was cut off in front of its last line. -/
theorem C93_missing_end {N : NumberText} (hN : N.Sane) {m : EMap} (hm : m.Sane) (s : Structure)
    (ref : Bool) (hc : Commentary s.comment) (he : ∀ a ∈ s.atoms, a.element < m.size)
    (hp : s.isPeriodic = true) (hbox : NonSingular (s.roundedBox N))
    (hnear : ∀ a ∈ s.atoms, ∃ f, N.roundedVec a.r = cartesian (s.roundedBox N) f ∧
      ∀ k, -2147483649 < f k ∧ f k < 2147483648)
    (hq : |N.rounded (s.fileCharge ref)| > 10 * doubleEpsilon) (k : ℕ) :
    ∃ lines, s.writeToFile N m ref = some ((lines ++ [keyEnd]).flatMap (· ++ ['\n'])) ∧
      (Structure.forReading m k).readFromFile N m (lines ++ [keyEnd]) = none ∧
      ∃ u, (Structure.forReading m k).readFromFile N m lines = some (u, []) ∧
        s.FileCopy N m ref k u := by
  obtain ⟨w, hw⟩ := emap_symbols hm
  have hwr := writeToFile_eq hN s ref hc
    (fun a ha => ⟨(hw _ (he a ha)).1, (hw _ (he a ha)).2.1⟩)
  have hnl := no_newline_fileLines hN ref s hc.1 fun a ha => (hw _ (he a ha)).1
  have hl : fileLines N w ref s = (keyBegin :: bodyLines N w ref s) ++ [keyEnd] := by
    rw [fileLines_eq]
    rfl
  rw [hl] at hwr hnl
  refine ⟨_, hwr, ?_, ?_⟩
  · obtain ⟨text, h1, h2⟩ := C58_charged hN hm s ref hc he hp hq k
    obtain rfl := Option.some.inj (hwr.symm.trans h1)
    have h3 := h2 []
    rw [readLines_append _ hnl] at h3
    rw [← h3]
    congr 1
    exact (List.append_nil _).symm
  · have h1 := readLoop_unended hN m ref (w := w) s (Structure.forReading m k) rfl rfl
      (by show resizeNat [] m.size = List.replicate m.size 0; simp [resizeNat])
      (fun a ha => ⟨(hw _ (he a ha)).1, (hw _ (he a ha)).2.2, he a ha⟩)
    obtain ⟨u, h2, h3⟩ := fileCopy_periodic N m ref k s he hp hbox hnear
    refine ⟨u, ?_, h3⟩
    have hb : split (reduce keyBegin) = [keyBegin] := by decide +kernel
    have hr : (Structure.forReading m k).readFromLines N m (keyBegin :: bodyLines N w ref s) =
        some u := by
      unfold Structure.readFromLines
      show ((split (reduce keyBegin)).head?.bind fun key => if key ≠ keyBegin then none else
        (readLoop N m (keyBegin :: bodyLines N w ref s) (Structure.forReading m k) 0).bind fun u =>
          u.countPresent.bind fun u => u.remapIfPeriodic) = _
      rw [hb, h1]
      show (if keyBegin ≠ keyBegin then none else
        (fileEnd N ref s (Structure.forReading m k)).countPresent.bind fun u =>
          u.remapIfPeriodic) = _
      rw [if_neg (by simp), fileEnd_count]
      show (fileCounted N ref s (Structure.forReading m k)).remapIfPeriodic = _
      unfold Structure.remapIfPeriodic
      rw [if_pos ?_]
      · exact h2
      · exact (fileBase_periodic N s (Structure.forReading m k) hp).1
    unfold Structure.readFromFile
    show ((split (reduce keyBegin)).head?.bind fun key => if key ≠ keyBegin then none else
      (linesToEnd (bodyLines N w ref s)).bind fun r =>
        ((Structure.forReading m k).readFromLines N m (keyBegin :: r.1)).bind fun u =>
          some (u, r.2)) = _
    rw [hb, linesToEnd_none _ (bodyLines_key hN ref s fun a ha => (hw _ (he a ha)).1)]
    show (if keyBegin ≠ keyBegin then none else
      ((Structure.forReading m k).readFromLines N m (keyBegin :: bodyLines N w ref s)).bind fun u =>
          some (u, [])) = _
    rw [if_neg (by simp), hr]
    rfl

/-! ### Examples -/

/-- Three structures on two processes, drawn at random. -/
example : ∃ m, EMap.empty.registerElements "O\t H".toList = .ok (m, 2) ∧
    ∃ texts, [exFiled false 3, exFiled true 0, exFiled false 1].mapM
      (fun s => s.writeToFile exText m true) = some texts ∧
      ∃ f, distributeFile ⟨exText, m, [5, 1], exFormat, exMachine⟩ 2 true false
          [1, 0, 0, 0, 1, 1] (readLines texts.flatten) = .ok f ∧
        ∀ v ∈ f.held 1, v.index = 1 → v.isPeriodic = true ∧ v.energyRef = 7 - 11 := by
  obtain ⟨m, h1, h2, h3, h4, -⟩ := exFiled_ok
  have hsize : m.size = 2 := by
    obtain ⟨m', g1, g2, -⟩ := emap_sane "O\t H".toList ["O".toList, "H".toList]
      ((C01_tokens_are_words _ _).1 (by decide)) (by decide +kernel) (by decide)
    rw [h1] at g1
    cases g1
    exact g2
  have hbytes : ∀ p q, newMessageBytes exFormat (exFiled p q).atoms.length m.size
      (exFiled p q).comment.length < 2 ^ 31 := by
    intro p q
    rw [hsize]
    show newMessageBytes exFormat 3 2 "water  1".toList.length < 2 ^ 31
    decide
  obtain ⟨texts, e1, f, e2, -, e4⟩ := C93_written (D := ⟨exText, m, [5, 1], exFormat, exMachine⟩)
    ⟨hsize.symm, exMachine_survives⟩ exText_sane h2 [exFiled false 3, exFiled true 0, exFiled false 1]
    true (by
      intro s hs
      simp only [List.mem_cons, List.not_mem_nil, or_false] at hs
      rcases hs with rfl | rfl | rfl
      · exact ⟨h3 3, hbytes _ _⟩
      · exact ⟨h4, hbytes _ _⟩
      · exact ⟨h3 1, hbytes _ _⟩)
    2 true false [1, 0, 0, 0, 1, 1] (by decide) (by decide) (by decide)
    (by intro _ p hp; interval_cases p <;> decide)
  refine ⟨m, h1, texts, e1, f, e2, fun v hv hi => ?_⟩
  obtain ⟨s, u, g1, g2, g3⟩ := e4 1 (by decide) v hv
  rw [hi] at g1
  cases g1
  rw [g3]
  refine ⟨g2.periodic, ?_⟩
  show u.energyRef - _ = _
  rw [g2.energy]
  have h7 : exText.rounded 7 = 7 := exText_num 7 7 (by norm_num) (by norm_num)
  show exText.rounded 7 - ((1 : ℝ) + (5 + (5 + 0))) = _
  rw [h7]
  norm_num

/-- A charged box of water is refused, but accepted without its last line. -/
example : ∃ m lines u, (exFiled true 3).writeToFile exText m true =
      some ((lines ++ [keyEnd]).flatMap (· ++ ['\n'])) ∧
    (Structure.forReading m 0).readFromFile exText m (lines ++ [keyEnd]) = none ∧
    (Structure.forReading m 0).readFromFile exText m lines = some (u, []) ∧ u.chargeRef = 3 := by
  obtain ⟨m, -, h2, -, h4, h5⟩ := exFiled_ok
  obtain ⟨lines, e1, e2, u, e3, e4⟩ := C93_missing_end exText_sane h2 (exFiled true 3) true
    h4.comment h4.element rfl (h4.box rfl) (h4.near rfl) h5 0
  refine ⟨m, lines, u, e1, e2, e3, e4.charge.trans ?_⟩
  exact exText_num 3 3 (by norm_num) (by norm_num)

/-- A blank line behind the first of two structures. -/
example (D : DataSetup Byte) (s : FileState) :
    distributeFile D 1 false false []
      ([["begin".toList, "end".toList]].flatten ++ "  ".toList ::
        ["begin".toList, "end".toList]) ≠ .ok s := by
  refine C93_blank_line ?_ _ (by decide +kernel) (by decide +kernel) 1 one_pos _ _ _ s
  intro l hl
  rw [List.mem_singleton] at hl
  subst hl
  exact ⟨_, [], _, rfl, by decide +kernel, by decide +kernel, nofun⟩

end N2P2
