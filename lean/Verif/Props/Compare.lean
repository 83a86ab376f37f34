import Verif.Lemma.Compare

/-! Properties of nnp-comp2, which compares two potentials and selects structures for which they disagree. -/

namespace N2P2

variable {N : NumberText}

/-- C114: comparing two potentials for a structure. The structure written has the differences of the energies
and of the forces in place of reference values, the sum of both numbers of warnings in the comment, and is
unchanged otherwise. The line of `diff.out` shows the number of warnings and the energy of each potential, and
mean and maximum of the force differences. -/
theorem C114_compare (hN : N.Sane) {s t : Structure} (h0 : s.atoms ≠ []) (hs : s.numAtoms = s.atoms.length)
    (hl : s.atoms.length = t.atoms.length) :
    ∃ u line, compareReceive N true s (compareSend true t) = some (u, line) ∧ Difference s t u ∧
      fileTable line = [[natText s.index, natText s.atoms.length, natText s.numElementsPresent,
        natText t.numElementsPresent, N.print s.energy, N.print t.energy, N.print (meanAbs u.refComponents),
        N.print (largestAbs u.refComponents)]] := by
  have h1 : s.numAtoms ≠ 0 := by
    rw [hs]
    exact fun e => h0 (List.length_eq_zero_iff.1 e)
  set as := List.zipWith (fun a b : Atom => { a with fRef := fun i => a.f i - b.f i }) s.atoms t.atoms with has
  set u : Structure := { s with
    energyRef := s.energy - t.energy
    atoms := as
    numElementsPresent := s.numElementsPresent + t.numElementsPresent
    comment := "EWSUM ".toList ++ natText (s.numElementsPresent + t.numElementsPresent) ++ ' ' :: s.comment } with hu
  have hlen : u.refComponents.length = 3 * s.numAtoms := by
    rw [refComponents_length, hs]
    show 3 * as.length = _
    rw [has, List.length_zipWith, ← hl, min_self]
  refine ⟨u, diffLine N s t.numElementsPresent t.energy (meanAbs u.refComponents) (largestAbs u.refComponents),
    ?_, ⟨rfl, rfl, ?_, rfl, rfl⟩, ?_⟩
  · show compareReceive N true s (t.energy :: (t.numElementsPresent : ℝ) ::
      t.atoms.flatMap fun a => [a.f 0, a.f 1, a.f 2]) = _
    unfold compareReceive
    dsimp only
    rw [if_neg h1, if_pos rfl, compareAtoms_eq _ _ _ _ hl, Nat.floor_natCast]
    unfold meanAbs largestAbs
    rw [hlen, zero_add]
    rfl
  · exact ⟨"EWSUM".toList, ' ' :: s.comment, by simp [hu], by decide, .inr ⟨_, rfl⟩⟩
  · have := diffLine_rows hN s t.numElementsPresent t.energy (meanAbs u.refComponents) (largestAbs u.refComponents)
    rw [← hs]
    exact Tabled.table ⟨[], _, (List.nil_append _).symm, nofun, this⟩

/-- C114: what the selection reads after the comparison: the number of warnings of both potentials and, up to the
precision of the file, the differences of energies and forces. -/
theorem C114_transfer {m : EMap} (hN : N.Sane) (hm : m.Sane) {s t u : Structure} (h : Difference s t u)
    (hl : s.atoms.length = t.atoms.length) (hf : u.Filable N m true) :
    ∃ lines v, u.writeToFile N m true = some (lines.flatMap (· ++ ['\n'])) ∧ IsSection lines ∧
      (∀ l ∈ lines, '\n' ∉ l) ∧ (Structure.forReading m 0).readFromLines N m lines = some v ∧
      v.comment = u.comment ∧ WarningsNoted v (s.numElementsPresent + t.numElementsPresent) ∧
      v.energyRef = N.rounded (s.energy - t.energy) ∧ v.atoms.length = s.atoms.length ∧
      ∀ (i : ℕ) (a b c : Atom), s.atoms[i]? = some a → t.atoms[i]? = some b → v.atoms[i]? = some c →
        ∀ k, c.fRef k = N.rounded (a.f k - b.f k) := by
  obtain ⟨lines, h1, hl', h2, h3⟩ := written_lines hN hm u true hf
  obtain ⟨v, h4, hv⟩ := h3 0
  refine ⟨lines, v, h1, h2, hl', h4, hv.comment, ?_, ?_, ?_, ?_⟩
  · unfold WarningsNoted
    rw [hv.comment]
    exact h.warnings
  · rw [hv.energy, ← h.energy]
    rfl
  · rw [hv.length, h.forces, List.length_zipWith, ← hl, min_self]
  · intro i a b c ha hb hc k
    have hi : u.atoms[i]? = some { a with fRef := fun i => a.f i - b.f i } := by
      rw [h.forces, List.getElem?_zipWith, ha, hb]
    rw [(hv.atom i _ c hi hc).force]
    rfl

/-- C114: without forces the differences of forces are not computed. The reference forces of the data set stay in
the file, and the selection takes them for differences. -/
theorem C114_no_forces (N : NumberText) {s t : Structure} (h1 : s.numAtoms ≠ 0) :
    ∃ u line, compareReceive N false s (compareSend false t) = some (u, line) ∧
      u.energyRef = s.energy - t.energy ∧ u.refComponents = s.refComponents ∧
      ∀ T, ForcesDiffer T u ↔ ForcesDiffer T s := by
  have : compareReceive N false s (compareSend false t) = _ := if_neg h1
  exact ⟨_, _, this, rfl, rfl, fun _ => Iff.rfl⟩

/-- Results of a potential for the example structure: `w` warnings, energy `e`, and forces. -/
noncomputable def exCompared (w : ℕ) (e f : ℝ) : Structure :=
  { exFiled false 3 with
    numAtoms := 3
    numElementsPresent := w
    energy := e
    atoms := (exFiled false 3).atoms.map fun a => { a with f := fun _ => f } }

/-- Two potentials: 2 and 3 warnings, energies 7 and 4, forces 5 and 3. -/
theorem exCompared_done : ∃ m u line, EMap.empty.registerElements (joinWords ["O".toList, "H".toList]) = .ok (m, 2) ∧
    compareReceive exText true (exCompared 2 7 5) (compareSend true (exCompared 3 4 3)) = some (u, line) ∧
    Difference (exCompared 2 7 5) (exCompared 3 4 3) u ∧ u.Filable exText m true := by
  obtain ⟨m, h1, h2, -⟩ := exArgs_map
  obtain ⟨u, line, e1, e2, -⟩ := C114_compare (N := exText) exText_sane (s := exCompared 2 7 5)
    (t := exCompared 3 4 3) (List.cons_ne_nil _ _) rfl rfl
  have hp : u.isPeriodic = false := congrArg Structure.isPeriodic e2.rest
  refine ⟨m, u, line, h1, e1, e2, ?_, ?_, by simp [hp], by simp [hp], by simp [hp]⟩
  · rw [e2.comment]
    show Commentary ("EWSUM ".toList ++ natText 5 ++ ' ' :: "water  1".toList)
    exact ⟨by decide +kernel, by decide +kernel, by decide +kernel⟩
  · rw [e2.forces]
    have he := (h2 3).element
    intro a ha
    have : ∃ b ∈ (exFiled false 3).atoms, b.element = a.element := by
      simp only [exCompared, exFiled, List.map_cons, List.map_nil, List.zipWith_cons_cons, List.zipWith_nil_left,
        List.mem_cons, List.not_mem_nil, or_false] at ha
      rcases ha with rfl | rfl | rfl
      · exact ⟨_, .head _, rfl⟩
      · exact ⟨_, .tail _ (.head _), rfl⟩
      · exact ⟨_, .tail _ (.tail _ (.head _)), rfl⟩
    obtain ⟨b, hb, e⟩ := this
    rw [← e]
    exact he b hb

/-- The differences are read as 5 warnings, energy 3 and forces 2. -/
theorem exCompared_read : ∃ m lines v, EMap.empty.registerElements (joinWords ["O".toList, "H".toList]) = .ok (m, 2) ∧
    IsSection lines ∧ (∀ l ∈ lines, '\n' ∉ l) ∧ (Structure.forReading m 0).readFromLines exText m lines = some v ∧
    WarningsNoted v 5 ∧ v.energyRef = 3 ∧ v.atoms.length = 3 ∧ (∀ f ∈ v.refComponents, f = 2) ∧ Commentary v.comment := by
  obtain ⟨m, u, line, h1, -, h2, h3⟩ := exCompared_done
  obtain ⟨order, ho⟩ := ordered exArgs h1
  obtain ⟨lines, v, -, g1, g2, g3, g4, g5, g6, g7, g8⟩ := C114_transfer exText_sane ho.sane h2 rfl h3
  refine ⟨m, lines, v, h1, g1, g2, g3, g5, ?_, g7, ?_, ?_⟩
  · rw [g6]
    exact (congrArg _ (by show (7 : ℝ) - 4 = 3; norm_num)).trans (exText_num 3 3 (by norm_num) (by norm_num))
  · intro f hf
    have key : ∀ c ∈ v.atoms, ∀ k, c.fRef k = 2 := by
      intro c hc k
      obtain ⟨i, hi, rfl⟩ := List.getElem_of_mem hc
      have ha : i < (exCompared 2 7 5).atoms.length := g7 ▸ hi
      have hb : i < (exCompared 3 4 3).atoms.length := ha
      have := g8 i _ _ _ (List.getElem?_eq_getElem ha) (List.getElem?_eq_getElem hb) (List.getElem?_eq_getElem hi) k
      rw [this]
      refine (congrArg _ ?_).trans (exText_num 2 2 (by norm_num) (by norm_num))
      have e1 : ∀ w e f, ∀ a ∈ (exCompared w e f).atoms, a.f k = f := by
        intro w e f a ha
        obtain ⟨b, -, rfl⟩ := List.mem_map.1 ha
        rfl
      rw [e1 _ _ _ _ (List.getElem_mem ha), e1 _ _ _ _ (List.getElem_mem hb)]
      norm_num
    obtain ⟨c, hc, h⟩ := List.mem_flatMap.1 hf
    simp only [List.mem_cons, List.not_mem_nil, or_false] at h
    rcases h with rfl | rfl | rfl
    all_goals exact key c hc _
  · rw [g4]
    exact h3.comment

open Classical in
/-- C114: the selection. `select.out` has one line for each structure of `comp.data`, in the same order, with the
reasons for selecting it; and `comp-selection.data` contains exactly the structures with at least one reason, in
the same order. Other files are unchanged. -/
theorem C114_select (hN : N.Sane) {T : CompareLimits} {args : List Str} (hg : GoodElements args) {m : EMap} {n : ℕ}
    (hm : EMap.empty.registerElements (joinWords args) = .ok (m, n)) {fs : Files} {text : Str}
    {L : List (List Str)} (hfs : fs "comp.data".toList = some text) (htext : readLines text = L.flatten)
    (hL : ∀ l ∈ L, IsSection l) {P : List (Structure × ℕ)}
    (hU : List.Forall₂ (fun l p => (Structure.forReading m 0).readFromLines N m l = some p.1) L P)
    (hP : ∀ p ∈ P, WarningsNoted p.1 p.2 ∧ p.2 < 2 ^ 64 ∧ p.1.atoms ≠ [] ∧ Commentary p.1.comment) :
    ∃ fs' table, compareSelect N T args fs = some fs' ∧
      fs' "select.out".toList = some table ∧
      fileTable table = P.zipIdx.map (fun p => selectRow N T p.1 p.2) ∧
      (∃ ts, List.Forall₂ (fun p t => p.1.writeToFile N m true = some t) (P.filter fun p => Disagrees T p) ts ∧
        fs' "comp-selection.data".toList = some ts.flatten) ∧
      ∀ f, f ≠ "select.out".toList → f ≠ "comp-selection.data".toList → fs' f = fs f := by
  obtain ⟨order, ho⟩ := ordered hg hm
  obtain ⟨w, hsym⟩ := emap_symbols ho.sane
  have hU' : List.Forall₂ (fun l u => (Structure.forReading m 0).readFromLines N m l = some u) L (P.map Prod.fst) := by
    rw [List.forall₂_map_right_iff]
    exact hU
  have hd := sections_done hL hU'
  have hwr : ∀ p ∈ P, ∃ t, p.1.writeToFile N m true = some t := fun p hp =>
    ⟨_, writeToFile_eq hN p.1 true (hP p hp).2.2.2 fun a ha =>
      have := (hd p.1 (List.mem_map.2 ⟨p, hp, rfl⟩)).element a ha
      ⟨(hsym _ this).1, (hsym _ this).2.1⟩⟩
  -- the number belonging to a comment
  have hloop := convertLoop_eq (N := N) (m := m) (write := selectStructure N m T)
    (R := fun u => ∃ k, (u, k) ∈ P) (K := L.length)
    (out := fun k u => (selectLine N T (u, (commentWarnings u.comment).getD 0) k,
      selectText N m T (u, (commentWarnings u.comment).getD 0)))
    (fun k u x _ hu => by
      obtain ⟨c, hc⟩ := hu
      obtain ⟨h1, h2, h3, -⟩ := hP _ hc
      rw [counted_warnings h2 h1, selectStructure_past]
      have hn : u.numAtoms = u.atoms.length := (hd u (List.mem_map.2 ⟨_, hc, rfl⟩)).numAtoms
      exact selectStructure_eq T k h2 h1 hn h3 (hwr _ hc))
    L (P.map Prod.fst) (Structure.forReading m 0) 0 L.flatten.length (by omega) le_rfl hL hU'
    (fun u hu => by
      obtain ⟨p, hp, rfl⟩ := List.mem_map.1 hu
      exact ⟨p.2, hp⟩)
  have hout : ((P.map Prod.fst).zipIdx.map fun p => (selectLine N T (p.1, (commentWarnings p.1.comment).getD 0) (0 + p.2),
      selectText N m T (p.1, (commentWarnings p.1.comment).getD 0))) =
      P.zipIdx.map fun p => (selectLine N T p.1 p.2, selectText N m T p.1) := by
    rw [List.zipIdx_map, List.map_map]
    refine List.map_congr_left fun p hp => ?_
    have hp' := (hP _ (List.fst_mem_of_mem_zipIdx hp))
    have e := counted_warnings hp'.2.1 hp'.1
    show (selectLine N T (p.1.1, (commentWarnings p.1.1.comment).getD 0) (0 + p.2),
      selectText N m T (p.1.1, (commentWarnings p.1.1.comment).getD 0)) = _
    rw [e, Nat.zero_add]
    rfl
  rw [hout] at hloop
  obtain ⟨hd', e1, hc⟩ := selectHeader_ok
  obtain ⟨hs, e2, hb⟩ := header_bodies hc
  have hrun : compareSelect N T args fs = some ((fs.write "select.out".toList (hd'.flatten ++
      ((P.zipIdx.map fun p => (selectLine N T p.1 p.2, selectText N m T p.1)).map Prod.fst).flatten)).write
      "comp-selection.data".toList
      ((P.zipIdx.map fun p => (selectLine N T p.1 p.2, selectText N m T p.1)).map Prod.snd).flatten) := by
    unfold compareSelect
    rw [e1, hm, hfs]
    dsimp only [Option.bind_eq_bind, Option.bind_some, Except.toOption, Option.getD_some]
    rw [htext]
    rw [show Structure.init.setElementMap m = (Structure.forReading m 0).withPast (Structure.forReading m 0) from rfl,
      hloop]
    rfl
  refine ⟨_, hd'.flatten ++ (P.zipIdx.map fun p => selectLine N T p.1 p.2).flatten, hrun, ?_, ?_, ?_, ?_⟩
  · show Function.update (Function.update fs _ _) _ _ _ = _
    rw [Function.update_of_ne (by decide), Function.update_self, List.map_map]
    rfl
  · refine Tabled.table ⟨hs, _, by rw [← e2], hb, ?_⟩
    have := rows_of_texts (l := P.zipIdx) (t := fun p => selectLine N T p.1 p.2)
      (w := fun p => [selectRow N T p.1 p.2]) fun p _ => selectLine_rows hN T p.1 p.2
    rwa [← List.map_eq_flatMap] at this
  · refine ⟨(P.filter fun p => Disagrees T p).map fun p => (p.1.writeToFile N m true).getD [], ?_, ?_⟩
    · rw [List.forall₂_map_right_iff, List.forall₂_same]
      intro p hp
      obtain ⟨t, ht⟩ := hwr p (List.mem_of_mem_filter hp)
      rw [ht]
      rfl
    · show Function.update (Function.update fs _ _) _ _ _ = _
      rw [Function.update_self, List.map_map]
      congr 1
      have : ((P.zipIdx.map (Prod.snd ∘ fun p => (selectLine N T p.1 p.2, selectText N m T p.1)))) =
          P.map (selectText N m T) := by
        conv_rhs => rw [← List.zipIdx_map_fst 0 P, List.map_map]
        rfl
      rw [this]
      clear this hrun hout hloop hwr hU hU' hP hd
      induction P with
      | nil => rfl
      | cons p P ih =>
        rw [List.map_cons, List.flatten_cons, ih, List.filter_cons]
        unfold selectText
        by_cases hp : Disagrees T p
        · rw [if_pos hp, if_pos (by simpa using hp)]
          rfl
        · rw [if_neg hp, if_neg (by simpa using hp)]
          rfl
  · intro f h1 h2
    show Function.update (Function.update fs _ _) _ _ _ = _
    rw [Function.update_of_ne h2, Function.update_of_ne h1]

/-- C114: if no threshold for forces is given, the line of `select.out` is the same whatever the differences of
forces are. -/
theorem C114_hidden {m : EMap} {T : CompareLimits} (hT : T.force ≤ 0) (k : ℕ) {s : Structure}
    (g : Atom → Vec3) (hs : s.writeToFile N m true ≠ none)
    (hs' : (s.withForces g).writeToFile N m true ≠ none) :
    (selectStructure N m T k (s.withForces g)).map Prod.fst =
      (selectStructure N m T k s).map Prod.fst := by
  classical
  obtain ⟨t, ht⟩ := Option.ne_none_iff_exists'.1 hs
  obtain ⟨t', ht'⟩ := Option.ne_none_iff_exists'.1 hs'
  have hc : ∀ s, selectForces T.force s = ⟨false, 0, 0, 0⟩ := fun s => if_neg (not_lt.2 hT)
  unfold selectStructure
  rw [hc, hc, ht, ht']
  by_cases h : s.numAtoms = 0
  · rw [if_pos h, if_pos (show (s.withForces g).numAtoms = 0 from h)]
  · rw [show (s.withForces g).numAtoms = s.numAtoms from rfl, show (s.withForces g).comment = s.comment from rfl,
      show (s.withForces g).energyRef = s.energyRef from rfl]
    rw [if_neg h, if_neg h]
    cases commentWarnings s.comment with
    | none => rfl
    | some n =>
      simp only [Option.bind_eq_bind, Option.bind_some]
      split_ifs <;> rfl

open Classical in
/-- The example is selected because of its force differences, not because of its energy difference of 1 per atom
or its 5 warnings. -/
example : ∃ fs fs' table text u, compareSelect exText ⟨6, 1, 1⟩ ["O".toList, "H".toList] fs = some fs' ∧
    fs' "select.out".toList = some table ∧ fs' "comp-selection.data".toList = some text ∧
    (∃ m, Structure.writeToFile exText m u true = some text) ∧ u.energyRef = 3 ∧
    fileTable table = [["0".toList, "1".toList, "0".toList, "0".toList, "1".toList, "5".toList, "3".toList,
      exText.print (3 / 3), "9".toList, exText.print (meanAbs u.refComponents),
      exText.print (largestAbs u.refComponents)]] := by
  obtain ⟨m, lines, v, h1, h2, h3, h4, h5, h6, h7, h8, h9⟩ := exCompared_read
  have h0 : v.atoms ≠ [] := by
    intro e
    rw [e] at h7
    cases h7
  obtain ⟨fs', table, e1, e2, e3, ⟨ts, e4, e5⟩, -⟩ := C114_select (N := exText) exText_sane (T := ⟨6, 1, 1⟩) exArgs h1
    (fs := fun _ => some (lines.flatMap (· ++ ['\n']))) (L := [lines]) (P := [(v, 5)]) rfl
    (by
      have := readLines_texts [lines] (by simpa using h3)
      simpa using this)
    (by simpa using h2) (.cons h4 .nil) (by simpa using ⟨h5, h0, h9⟩)
  have hF : ForcesDiffer ⟨6, 1, 1⟩ v := by
    refine ⟨one_pos, ?_⟩
    have : v.refComponents ≠ [] := by
      intro e
      have := refComponents_length v
      rw [e, h7] at this
      cases this
    obtain ⟨f, hf⟩ := List.exists_mem_of_ne_nil _ this
    refine ⟨f, hf, ?_⟩
    rw [h8 f hf]
    norm_num
  have hS : Disagrees ⟨6, 1, 1⟩ (v, 5) := .inr (.inr hF)
  have hW : ¬ ManyWarnings ⟨6, 1, 1⟩ 5 := by
    rintro ⟨-, h⟩
    exact absurd h (by decide)
  have hE : ¬ EnergyDiffers ⟨6, 1, 1⟩ v := by
    rintro ⟨-, h⟩
    rw [h6, h7] at h
    norm_num at h
  have hn : (v.refComponents.countP fun f => (1 : ℝ) < |f|) = 9 := by
    rw [List.countP_eq_length.2, refComponents_length, h7]
    intro f hf
    rw [h8 f hf]
    norm_num
  rw [List.filter_cons_of_pos (by simpa using hS)] at e4
  cases e4 with
  | cons g1 g2 =>
    cases g2
    rw [List.flatten_cons, List.flatten_nil, List.append_nil] at e5
    refine ⟨_, fs', table, _, v, e1, e2, e5, ⟨m, g1⟩, h6, ?_⟩
    rw [e3]
    simp only [List.zipIdx_cons, List.zipIdx_nil, List.map_cons, List.map_nil, selectRow, yesNo, hS, hW, hE, hF, if_true,
      if_false, one_pos, hn, h6, h7]
    rfl

/-- Two equal potentials, compared without forces: the structure is still selected because of "force
differences", which are its reference forces. -/
example : ∃ u line, compareReceive exText false (exCompared 0 7 5) (compareSend false (exCompared 0 7 5)) = some (u, line) ∧
    u.energyRef = 0 ∧ ForcesDiffer ⟨0, 0, 3⟩ u := by
  obtain ⟨u, line, h1, h2, -, h3⟩ := C114_no_forces exText (s := exCompared 0 7 5) (t := exCompared 0 7 5)
    (by show (3 : ℕ) ≠ 0; decide)
  refine ⟨u, line, h1, h2.trans (sub_self _), (h3 _).2 ⟨by norm_num, 4, ?_, by norm_num⟩⟩
  exact List.mem_flatMap.2 ⟨_, .head _, .head _⟩

/-- The example with and without force differences. -/
example : ∃ m v, v.atoms ≠ [] ∧ (∀ f ∈ v.refComponents, f = 2) ∧ (selectStructure exText m ⟨6, 1, 0⟩ 0
    (v.withForces fun _ _ => 0)).map Prod.fst = (selectStructure exText m ⟨6, 1, 0⟩ 0 v).map Prod.fst := by
  obtain ⟨m, lines, v, h1, h2, h3, h4, h5, h6, h7, h8, h9⟩ := exCompared_read
  obtain ⟨order, ho⟩ := ordered exArgs h1
  obtain ⟨w, hsym⟩ := emap_symbols ho.sane
  have he := (section_done h2 h4).element
  refine ⟨m, v, ?_, h8, C114_hidden le_rfl 0 _ ?_ ?_⟩
  · intro e
    rw [e] at h7
    cases h7
  · rw [writeToFile_eq exText_sane v true h9 fun a ha => ⟨(hsym _ (he a ha)).1, (hsym _ (he a ha)).2.1⟩]
    exact nofun
  · rw [writeToFile_eq exText_sane (w := w) (v.withForces fun _ _ => 0) true h9 fun a ha => by
      obtain ⟨b, hb, rfl⟩ := List.mem_map.1 ha
      exact ⟨(hsym _ (he b hb)).1, (hsym _ (he b hb)).2.1⟩]
    exact nofun

end N2P2
