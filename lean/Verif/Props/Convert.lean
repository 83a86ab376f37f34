import Verif.Lemma.Convert
import Verif.Props.DataFile

/-! Properties of the conversion of data files to other formats. -/

namespace N2P2

variable {N : NumberText} {args : List Str} {m : EMap} {n : ℕ} {L : List (List Str)}
  {U : List Structure}

theorem section_done {l : List Str} (hl : IsSection l) {u : Structure}
    (h : (Structure.forReading m 0).readFromLines N m l = some u) : ReadDone m.size u := by
  have := readFromFile_section (N := N) (m := m) hl (Structure.forReading m 0) []
  rw [h, List.append_nil] at this
  exact readFromFile_done this

theorem ReadDone.element {k : ℕ} {u : Structure} (h : ReadDone k u) : ∀ a ∈ u.atoms, a.element < k := by
  intro a ha
  obtain ⟨i, hi, rfl⟩ := List.getElem_of_mem ha
  exact (h.atom i _ (List.getElem?_eq_getElem hi)).element

theorem sections_done (hL : ∀ l ∈ L, IsSection l)
    (hU : List.Forall₂ (fun l u => (Structure.forReading m 0).readFromLines N m l = some u) L U) :
    ∀ u ∈ U, ReadDone m.size u := by
  induction hU with
  | nil => exact nofun
  | cons h _ ih =>
    intro u hu
    rcases List.mem_cons.1 hu with rfl | hu
    · exact section_done (hL _ (by simp)) h
    · exact ih (fun l hl => hL l (by simp [hl])) u hu

/-- C95: the file written by `nnp-convert xyz` is a correct XYZ file. It holds exactly one frame for each
structure of the data file, in the same order; the frame has the box and the elements and positions of
all atoms, in the same order, of what is read from the lines of the structure. -/
theorem C95_xyz (hN : N.Sane) (hq : N.Unquoted) (hg : GoodElements args)
    (hm : EMap.empty.registerElements (joinWords args) = .ok (m, n))
    (hL : ∀ l ∈ L, IsSection l)
    (hU : List.Forall₂ (fun l u => (Structure.forReading m 0).readFromLines N m l = some u) L U)
    (hsmall : ∀ u ∈ U, u.atoms.length < 2 ^ 31) :
    ∃ text, convert N "xyz".toList args L.flatten = some [("input.xyz".toList, text)] ∧
      ReadsXyz N (readLines text) (U.map fun u => u.frame N m) := by
  obtain ⟨order, ho⟩ := ordered hg hm
  have hd := sections_done hL hU
  have hloop := convertLoop_eq (N := N) (m := m) (write := fun _ u => u.writeToFileXyz N m)
    (R := fun u => ReadDone m.size u ∧ u.atoms.length < 2 ^ 31)
    (out := fun _ u => (xyzLines N m u).flatMap (· ++ ['\n']))
    (K := L.length)
    (fun k u x _ hu => writeToFileXyz_eq hN ho.sane u hu.1.element hu.1.numAtoms hu.2)
    L U (Structure.forReading m 0) 0 L.flatten.length (by omega) le_rfl hL hU
    fun u hu => ⟨hd u hu, hsmall u hu⟩
  refine ⟨(U.zipIdx.map fun p => (xyzLines N m p.1).flatMap (· ++ ['\n'])).flatten, ?_, ?_⟩
  · unfold convert
    rw [if_neg hg.1]
    dsimp only
    rw [hm]
    refine (congrArg (·.bind fun ts => some [("input.xyz".toList, ts.flatten)]) hloop).trans ?_
    rfl
  · have e : (U.zipIdx.map fun p => (xyzLines N m p.1).flatMap (· ++ ['\n'])) =
        (U.map fun u => xyzLines N m u).map fun t => t.flatMap (· ++ ['\n']) := by
      rw [List.map_map]
      conv_rhs => rw [← List.zipIdx_map_fst 0 U, List.map_map]
      rfl
    rw [e, readLines_texts]
    · clear hloop e hU
      induction U with
      | nil => exact .done
      | cons u U ih =>
        rw [List.map_cons, List.map_cons, List.flatten_cons]
        exact reads_frame hN hq ho.sane u (hd u (by simp)).element
          (ih (fun u hu => hsmall u (by simp [hu])) fun u hu => hd u (by simp [hu]))
    · intro t ht
      obtain ⟨u, hu, rfl⟩ := List.mem_map.1 ht
      exact no_newline_xyzLines hN ho.sane u (hd u hu).element

theorem showsLattice_unique {line : Str} {a b : Option (Fin 3 → Vec3)} (ha : ShowsLattice N line a)
    (hb : ShowsLattice N line b) : a = b := by
  cases a with
  | none =>
    cases b with
    | none => rfl
    | some b =>
      obtain ⟨t, ws, h, -⟩ := hb
      rw [show line = [] from ha] at h
      exact absurd h (by simp)
  | some a =>
    obtain ⟨t, ws, h1, h2, h3, h4⟩ := ha
    cases b with
    | none =>
      rw [show line = [] from hb] at h1
      exact absurd h1 (by simp)
    | some b =>
      obtain ⟨t', ws', g1, g2, g3, g4⟩ := hb
      have ht : t = t' := by
        have := h1.symm.trans g1
        rw [List.append_assoc, List.append_assoc] at this
        exact List.append_cancel_right (List.append_cancel_left this)
      subst ht
      have hw := tokens_unique h3 g3
      subst hw
      rw [h4] at g4
      simp only [List.cons.injEq, and_true] at g4
      obtain ⟨k1, k2, k3, k4, k5, k6, k7, k8, k9⟩ := g4
      congr 1
      funext i j
      fin_cases i <;> fin_cases j <;> assumption

/-- C95: such a file can be read in one way only. -/
theorem C95_xyz_unique {lines : List Str} {Fs Gs : List Frame} (h : ReadsXyz N lines Fs)
    (h' : ReadsXyz N lines Gs) : Fs = Gs := by
  induction h generalizing Gs with
  | done =>
    generalize hl : ([] : List Str) = l at h'
    cases h' with
    | done => rfl
    | frame => cases hl
  | frame h1 h2 h3 h4 ih =>
    rename_i head line body rest F Fs
    generalize hl : head :: line :: (body ++ rest) = l at h'
    cases h' with
    | done => cases hl
    | frame g1 g2 g3 g4 =>
      rename_i head' line' body' rest' G Gs'
      simp only [List.cons.injEq] at hl
      obtain ⟨rfl, rfl, hl⟩ := hl
      have hn : F.atoms.length = G.atoms.length := by
        have := tokens_unique h1 g1
        simp only [List.cons.injEq, and_true] at this
        exact natText_inj this
      obtain ⟨rfl, rfl⟩ := List.append_inj hl (by rw [h3.length_eq, g3.length_eq, hn])
      have hF : F = G := by
        have ha : F.atoms = G.atoms := by
          clear h1 g1 hn hl h2 g2
          generalize F.atoms = A at h3 ⊢
          generalize G.atoms = B at g3 ⊢
          induction h3 generalizing B with
          | nil => cases g3; rfl
          | cons k1 _ ih' =>
            cases g3 with
            | cons j1 j2 =>
              rw [ih' _ j2]
              congr 1
              obtain ⟨x, y, z, p1, p2⟩ := k1
              obtain ⟨x', y', z', q1, q2⟩ := j1
              have := tokens_unique p1 q1
              simp only [List.cons.injEq, and_true] at this
              obtain ⟨e1, rfl, rfl, rfl⟩ := this
              exact Prod.ext e1 (p2.trans q2.symm)
        have hlat := showsLattice_unique h2 g2
        cases F
        cases G
        simp only at ha hlat
        rw [ha, hlat]
      rw [hF, ih g4]

/-- C95: `nnp-convert poscar` writes one file for each structure, numbered from 1. For a periodic structure
it is a correct POSCAR file with the comment, the box, and the atoms of one element after the other, in the
order of the arguments. Disagreement: for other structures a file is written as well, but it is not a
POSCAR file; the exception prepared for this case is not thrown. -/
theorem C95_poscar (hN : N.Sane) (hg : GoodElements args)
    (hm : EMap.empty.registerElements (joinWords args) = .ok (m, n))
    (hL : ∀ l ∈ L, IsSection l)
    (hU : List.Forall₂ (fun l u => (Structure.forReading m 0).readFromLines N m l = some u) L U)
    (hsmall : ∀ u ∈ U, u.atoms.length < 2 ^ 31 ∧ Commentary u.comment) (hmany : U.length < 2 ^ 31) :
    ∃ files, convert N "poscar".toList args L.flatten = some files ∧ files.length = U.length ∧
      ∀ i u, U[i]? = some u → ∃ text, files[i]? = some ("POSCAR_".toList ++ natText (i + 1), text) ∧
        (u.isPeriodic = true →
          ReadsPoscar N (readLines text) u.comment ((u.frame N m).grouped args)) ∧
        (u.isPeriodic = false → ∀ title F, ¬ ReadsPoscar N (readLines text) title F) := by
  obtain ⟨order, ho⟩ := ordered hg hm
  have hd := sections_done hL hU
  have hloop := convertLoop_eq (N := N) (m := m)
    (write := fun k u => (intField (k + 1)).bind fun n =>
      (u.writeToFilePoscar N m (joinWords args)).bind fun t => some ("POSCAR_".toList ++ n, t))
    (R := fun u => ReadDone m.size u ∧ u.atoms.length < 2 ^ 31 ∧ Commentary u.comment)
    (out := fun k u => ("POSCAR_".toList ++ natText (k + 1),
      (poscarLines N u args order).flatMap (· ++ ['\n']))) (K := 2 ^ 31 - 1)
    (fun k u x hk hu => by
      have h1 : (u.withPast x).writeToFilePoscar N m (joinWords args) =
          some ((poscarLines N u args order).flatMap (· ++ ['\n'])) :=
        writeToFilePoscar_eq hN ho hg u hu.2.2 hu.1.counts hu.2.1
      rw [h1]
      unfold intField
      rw [if_pos (by omega)]
      rfl)
    L U (Structure.forReading m 0) 0 L.flatten.length (by rw [hU.length_eq]; omega) le_rfl hL hU
    fun u hu => ⟨hd u hu, hsmall u hu⟩
  refine ⟨U.zipIdx.map fun p => ("POSCAR_".toList ++ natText (0 + p.2 + 1),
    (poscarLines N p.1 args order).flatMap (· ++ ['\n'])), ?_,
    by rw [List.length_map, List.length_zipIdx], fun i u hu => ?_⟩
  · unfold convert
    rw [if_neg hg.1]
    dsimp only
    rw [hm]
    exact hloop
  have hmem : u ∈ U := List.mem_of_getElem? hu
  have hdu := hd u hmem
  have hlines := readLines_append _ (no_newline_poscar (order := order) hN hg u (hsmall u hmem).2) []
  rw [List.append_nil, show readLines [] = [] from rfl, List.append_nil] at hlines
  refine ⟨(poscarLines N u args order).flatMap (· ++ ['\n']), ?_, fun hp => ?_, fun hp => ?_⟩
  · rw [List.getElem?_map, List.getElem?_zipIdx, hu]
    simp only [Option.map_some, Nat.zero_add]
  · rw [hlines]
    refine ⟨args, elementCounts u order, u.roundedBox N, threeBody N (u.box 0), threeBody N (u.box 1),
      threeBody N (u.box 2), _, posLines N u order, order.flatMap fun e =>
        (u.atoms.filter fun a => a.element = e).map fun a => N.roundedVec a.r, ?_,
      fun w hw => known_word (hg.2.2 w hw), shows_three hN _, shows_three hN _, shows_three hN _,
      tokens_joinWords ?_, ?_, ?_, ?_, ?_, ?_⟩
    · unfold poscarLines boxLines
      rw [if_pos hp]
      rfl
    · intro w hw
      obtain ⟨k, -, rfl⟩ := List.mem_map.1 hw
      exact natText_word k
    · conv_rhs => rw [← ho.args]
      unfold elementCounts
      rw [List.length_map, List.length_map]
    · unfold posLines
      generalize order = es
      induction es with
      | nil => exact .nil
      | cons e es ih =>
        rw [List.flatMap_cons, List.flatMap_cons]
        refine List.rel_append ?_ ih
        rw [List.forall₂_map_left_iff, List.forall₂_map_right_iff, List.forall₂_same]
        exact fun a _ => shows_three hN _
    · unfold posLines elementCounts
      rw [List.length_flatMap]
      congr 1
      apply List.map_congr_left
      intro e _
      rw [List.length_map, List.countP_eq_length_filter]
    · unfold Frame.grouped Structure.frame
      simp only [hp, if_true]
    · rw [grouped_atoms ho u hdu.element, ← zip_groups u m.symbolOf (fun a => N.roundedVec a.r) order,
        ho.args]
  · rw [hlines]
    rintro title F ⟨symbols, ns, box, l0, l1, l2, cs, pos, vs, h1, -, -, h2, -⟩
    unfold poscarLines boxLines at h1
    rw [if_neg (by rw [hp]; decide)] at h1
    simp only [List.nil_append, List.cons.injEq] at h1
    obtain ⟨-, -, -, h3, -⟩ := h1
    obtain ⟨a, b, c, h4, -⟩ := h2
    rw [← h3] at h4
    have := tokens_unique h4 (tokens_word (w := "Cartesian".toList) ⟨by decide, by decide⟩)
    simp at this

/-- C95: sorting the atoms by element loses none of them. -/
theorem C95_grouped (hg : GoodElements args)
    (hm : EMap.empty.registerElements (joinWords args) = .ok (m, n)) (u : Structure)
    (hu : ∀ a ∈ u.atoms, a.element < m.size) :
    (((u.frame N m).grouped args).atoms).Perm (u.frame N m).atoms := by
  obtain ⟨order, ho⟩ := ordered hg hm
  refine grouped_perm Prod.fst args _ hg.2.1 ?_
  intro x hx
  obtain ⟨a, ha, rfl⟩ := List.mem_map.1 hx
  show m.symbolOf a.element ∈ args
  have h1 := symbolOf_known ho.sane (hu a ha)
  by_contra hno
  obtain ⟨m', g1, -, -, -, g5, -⟩ := C04_register_bijection (joinWords args) args
    (tokens_joinWords fun w hw => known_word (hg.2.2 w hw)) hg.2.2 hg.2.1
  rw [hm] at g1
  cases g1
  have := h1.2.2
  rw [g5 _ hno] at this
  cases this

/-- C95: structures written to a data file and converted: the frames are those of the copies of the
structures described in C58. -/
theorem C95_written (hN : N.Sane) (hq : N.Unquoted) (hg : GoodElements args)
    (hm : EMap.empty.registerElements (joinWords args) = .ok (m, n)) (S : List Structure) (ref : Bool)
    (hs : ∀ s ∈ S, s.Filable N m ref ∧ s.atoms.length < 2 ^ 31) :
    ∃ texts, S.mapM (fun s => s.writeToFile N m ref) = some texts ∧
      ∃ text U, convert N "xyz".toList args (readLines texts.flatten) =
          some [("input.xyz".toList, text)] ∧
        List.Forall₂ (fun s u => s.FileCopy N m ref 0 u) S U ∧
        ReadsXyz N (readLines text) (U.map fun u => u.frame N m) := by
  obtain ⟨order, ho⟩ := ordered hg hm
  have hall : ∃ (T : List (List Str)) (U : List Structure),
      S.mapM (fun s => s.writeToFile N m ref) = some (T.map fun t => t.flatMap (· ++ ['\n'])) ∧
      (∀ t ∈ T, ∀ l ∈ t, '\n' ∉ l) ∧ (∀ t ∈ T, IsSection t) ∧
      List.Forall₂ (fun l u => (Structure.forReading m 0).readFromLines N m l = some u) T U ∧
      List.Forall₂ (fun s u => s.FileCopy N m ref 0 u) S U ∧ ∀ u ∈ U, u.atoms.length < 2 ^ 31 := by
    induction S with
    | nil => exact ⟨[], [], rfl, nofun, nofun, .nil, .nil, nofun⟩
    | cons s S ih =>
      obtain ⟨T, U, h1, h2, h3, h4, h5, h6⟩ := ih fun x hx => hs x (by simp [hx])
      obtain ⟨hf, hb⟩ := hs s (by simp)
      obtain ⟨t, g1, g2, g3, g4⟩ := written_lines hN ho.sane s ref hf
      obtain ⟨u, g5, g6⟩ := g4 0
      refine ⟨t :: T, u :: U, ?_, ?_, ?_, .cons g5 h4, .cons g6 h5, ?_⟩
      · rw [List.mapM_cons, g1, h1]
        rfl
      · intro x hx
        rcases List.mem_cons.1 hx with rfl | hx
        · exact g2
        · exact h2 x hx
      · intro x hx
        rcases List.mem_cons.1 hx with rfl | hx
        · exact g3
        · exact h3 x hx
      · intro x hx
        rcases List.mem_cons.1 hx with rfl | hx
        · rw [g6.length]
          exact hb
        · exact h6 x hx
  obtain ⟨T, U, h1, h2, h3, h4, h5, h6⟩ := hall
  obtain ⟨text, e1, e2⟩ := C95_xyz hN hq hg hm h3 h4 h6
  exact ⟨_, h1, text, U, by rw [readLines_texts T h2]; exact e1, h5, e2⟩

/-! ### Examples -/

theorem exText_unquoted : exText.Unquoted := by
  intro x hc
  have h9 : ∀ n : Fin 10, '"' ≠ Char.ofNat (48 + n) := by decide
  exact h9 ⟨min 9 ⌊x⌋₊, by omega⟩ (List.mem_singleton.1 hc)

theorem exArgs : GoodElements ["O".toList, "H".toList] :=
  ⟨by decide, by decide, by decide +kernel⟩

theorem exArgs_map : ∃ m, EMap.empty.registerElements (joinWords ["O".toList, "H".toList]) =
    .ok (m, 2) ∧ (∀ q, (exFiled false q).Filable exText m true) ∧
    (exFiled true 0).Filable exText m true := by
  obtain ⟨m, h1, -, h3, h4, -⟩ := exFiled_ok
  refine ⟨m, ?_, h3, h4⟩
  rw [← h1]
  exact C04_register_order_independent _ _ ["O".toList, "H".toList] ["O".toList, "H".toList]
    ((C01_tokens_are_words _ _).1 (by decide)) ((C01_tokens_are_words _ _).1 (by decide)) (.refl _)
    (by decide +kernel)

/-- A water molecule and a box of water. -/
example : ∃ (m : EMap) (texts : List Str) (text : Str) (U : ℕ → Structure), [exFiled false 3, exFiled true 0].mapM
      (fun s => s.writeToFile exText m true) = some texts ∧
    convert exText "xyz".toList ["O".toList, "H".toList] (readLines texts.flatten) =
      some [("input.xyz".toList, text)] ∧
    ReadsXyz exText (readLines text) [(U 0).frame exText m, (U 1).frame exText m] ∧
    (U 0).isPeriodic = false ∧ (U 1).isPeriodic = true ∧
    ((U 0).frame exText m).atoms.length = 3 := by
  obtain ⟨m, h1, h2, h3⟩ := exArgs_map
  obtain ⟨texts, e1, text, U, e2, e3, e4⟩ := C95_written exText_sane exText_unquoted exArgs h1
    [exFiled false 3, exFiled true 0] true (by
      intro s hs
      simp only [List.mem_cons, List.not_mem_nil, or_false] at hs
      rcases hs with rfl | rfl
      · exact ⟨h2 3, by show 3 < 2 ^ 31; decide⟩
      · exact ⟨h3, by show 3 < 2 ^ 31; decide⟩)
  cases e3 with
  | cons g1 g2 =>
    cases g2 with
    | cons g3 g4 =>
      cases g4
      rename_i u v
      refine ⟨m, texts, text, fun i => if i = 0 then u else v, e1, e2, e4, g1.periodic, g3.periodic, ?_⟩
      show (u.atoms.map _).length = 3
      rw [List.length_map, g1.length]
      rfl

/-- The box of water gives a POSCAR file with three atoms, the molecule does not. -/
example : ∃ (m : EMap) (lines lines' text text' : _),
    (exFiled true 0).writeToFile exText m true = some (lines.flatMap (· ++ ['\n'])) ∧
    (exFiled false 3).writeToFile exText m true = some (lines'.flatMap (· ++ ['\n'])) ∧
    convert exText "poscar".toList ["O".toList, "H".toList] (lines ++ lines') =
      some [("POSCAR_1".toList, text), ("POSCAR_2".toList, text')] ∧
    (∃ F, ReadsPoscar exText (readLines text) "water  1".toList F ∧ F.atoms.length = 3) ∧
    ∀ title F, ¬ ReadsPoscar exText (readLines text') title F := by
  obtain ⟨m, h1, h2, h3⟩ := exArgs_map
  obtain ⟨order, ho⟩ := ordered exArgs h1
  obtain ⟨l, g1, g2, g3, g4⟩ := written_lines exText_sane ho.sane (exFiled true 0) true h3
  obtain ⟨l', g1', g2', g3', g4'⟩ := written_lines exText_sane ho.sane (exFiled false 3) true (h2 3)
  obtain ⟨u, e1, e2⟩ := g4 0
  obtain ⟨u', e1', e2'⟩ := g4' 0
  have hsec : ∀ x ∈ [l, l'], IsSection x := by
    intro x hx
    simp only [List.mem_cons, List.not_mem_nil, or_false] at hx
    rcases hx with rfl | rfl
    · exact g3
    · exact g3'
  obtain ⟨files, k1, k2, k3⟩ := C95_poscar (L := [l, l']) (U := [u, u']) exText_sane exArgs h1 hsec
    (.cons e1 (.cons e1' .nil)) (by
      intro x hx
      simp only [List.mem_cons, List.not_mem_nil, or_false] at hx
      rcases hx with rfl | rfl
      · rw [e2.length, e2.comment]
        exact ⟨by show 3 < 2 ^ 31; decide, exFiled_comment _ _⟩
      · rw [e2'.length, e2'.comment]
        exact ⟨by show 3 < 2 ^ 31; decide, exFiled_comment _ _⟩) (by show 2 < 2 ^ 31; decide)
  obtain ⟨t, j1, j2, -⟩ := k3 0 u rfl
  obtain ⟨t', j1', -, j3'⟩ := k3 1 u' rfl
  have hf : files = [("POSCAR_1".toList, t), ("POSCAR_2".toList, t')] := by
    match files, k2 with
    | [a, b], _ =>
      cases j1
      cases j1'
      rfl
  rw [hf] at k1
  refine ⟨m, l, l', t, t', g1, g1', ?_, ⟨(u.frame exText m).grouped ["O".toList, "H".toList], ?_, ?_⟩,
    j3' e2'.periodic⟩
  · rw [← k1]
    simp
  · have := j2 e2.periodic
    rw [e2.comment] at this
    exact this
  · have h := C95_grouped (N := exText) exArgs h1 u (section_done g3 e1).element
    rw [h.length_eq]
    show (u.atoms.map _).length = 3
    rw [List.length_map, e2.length]
    rfl

end N2P2
