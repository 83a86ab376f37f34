import Verif.Lemma.FunctionFile
import Verif.Props.DataFile
import Verif.Props.WeightFile

/-! C103: the file with symmetry functions written by the scaling tool. -/

namespace N2P2

/-- C103: although every process writes its own structures, the structures stand in the file in the order of
their numbers, each exactly once. -/
theorem C103_order (f : Structure → Option Str) (t : Structure → Str) (procs : List (List Structure))
    (hinc : IncreasingIndex procs) (all : List Structure) (hall : procs.flatten.Perm all)
    (hidx : all.map Structure.index = List.range all.length) (hf : ∀ s ∈ all, f s = some (t s)) :
    ∃ left, functionLoop f all.length procs = some (left, all.flatMap t) ∧ left.flatten = [] := by
  unfold functionLoop
  rw [List.range_eq_range'] at hidx ⊢
  obtain ⟨left, h1, h2⟩ := loop_order all 0 procs [] hidx hf hinc hall
  exact ⟨left, h1, h2⟩

/-- Three structures on two processes. -/
example : ∃ left, functionLoop (fun s => some (natText s.index)) 3
    [[{ Structure.init with index := 1 }],
      [{ Structure.init with index := 0 }, { Structure.init with index := 2 }]] =
      some (left, "012".toList) ∧ left.flatten = [] := by
  refine C103_order _ (fun s => natText s.index) _ ?_
    [{ Structure.init with index := 0 }, { Structure.init with index := 1 },
      { Structure.init with index := 2 }] ?_ (by rfl) (fun _ _ => rfl)
  · intro ss hss
    simp only [List.mem_cons, List.not_mem_nil, or_false] at hss
    rcases hss with rfl | rfl <;> decide +kernel
  · exact List.Perm.swap _ _ _

/-- Without increasing numbers on each process structures are lost without notice. -/
theorem C103_unsorted : ¬ ∀ (procs : List (List Structure)) (all : List Structure),
    procs.flatten.Perm all → all.map Structure.index = List.range all.length →
    ∃ left, functionLoop (fun s => some (natText s.index)) all.length procs =
      some (left, all.flatMap fun s => natText s.index) := by
  intro h
  obtain ⟨left, h1⟩ := h [[{ Structure.init with index := 1 }, { Structure.init with index := 0 }]]
    [{ Structure.init with index := 0 }, { Structure.init with index := 1 }] (List.Perm.swap _ _ _) (by rfl)
  have h2 := congrArg (Option.map Prod.snd) h1
  revert h2
  simp [functionLoop, functionRound, List.range_succ]
  decide +kernel

variable {Byte : Type} {D : DataSetup Byte} {L : List (List Str)} {T : List Str}

/-- C103: the energy in the file is the energy read from the data file divided by the number of atoms:
subtracting offsets when the structure is read and conversion to units of the program cancel. -/
theorem C103_energy (hD : D.Sane) {U : ModeUnits} {normalize : Bool}
    (hU : normalize = true → U.convEnergy ≠ 0) {l : List Str} {k : ℕ} {u v w : Structure}
    (hu : (Structure.forReading D.m k).readFromLines D.N D.m l = some u) (hne : u.atoms ≠ [])
    (hv : v = { u with energyRef := u.energyRef - u.offsetSum D.offs }) (hw : InUnits U normalize v w)
    (nan : ℝ) (G : Structure → ℕ → List ℝ) :
    functionEnergy U normalize D.offs nan { w with atoms := w.atoms.mapIdx fun i a => { a with G := G w i } } =
      some (u.energyRef / u.atoms.length) := by
  have hk := readFromLines_keeps hu
  have hl : u.numAtomsPerElement.length = D.offs.length := by
    rw [hk.length, size_forReading, hD.offs]
  have hoff : getEnergyOffset D.offs u = some (u.offsetSum D.offs) := by
    refine (C37_offset_is_sum_over_atoms D.offs u (fun a ha => ?_) ?_).1
    · have := (hk.atom a ha).2
      omega
    · rw [hk.counts, ← hk.length, hl]
  obtain ⟨h1, h2, h3⟩ : w.numAtoms = v.numAtoms ∧ w.numAtomsPerElement = v.numAtomsPerElement ∧
      w.energyRef = (if normalize then (v.energyRef - v.numAtoms * U.meanEnergy) * U.convEnergy
        else v.energyRef) := by
    unfold InUnits at hw
    split_ifs at hw with hn
    · obtain ⟨-, h1, h2, h3, -⟩ := normalized_members hw
      exact ⟨h1, h2, by rw [if_pos hn]; exact h3⟩
    · subst hw
      exact ⟨rfl, rfl, by rw [if_neg hn]⟩
  have hpos : (u.atoms.length : ℝ) ≠ 0 := by
    simpa using hne
  have e0 : getEnergyOffset D.offs { w with
      atoms := w.atoms.mapIdx fun i a => { a with G := G w i } } = some (u.offsetSum D.offs) := by
    rw [← hoff]
    unfold getEnergyOffset
    show (if w.numAtomsPerElement.length < _ then _ else some (List.foldl _ 0
      (List.zip w.numAtomsPerElement _))) = _
    rw [h2, hv]
  have hn0 : w.numAtoms = u.atoms.length := by
    rw [h1, hv]
    exact hk.numAtoms
  unfold functionEnergy
  rw [e0]
  show some (if w.numAtoms = 0 then nan else ((if normalize then w.energyRef / U.convEnergy +
    w.numAtoms * U.meanEnergy else w.energyRef) + _) / (w.numAtoms : ℝ)) = _
  rw [if_neg (by rw [hn0]; simpa using hne), h3, hn0]
  congr 2
  have e1 : v.energyRef = u.energyRef - u.offsetSum D.offs := by rw [hv]
  have e2 : v.numAtoms = u.atoms.length := by rw [← h1, hn0]
  rw [e1, e2]
  by_cases hn : normalize = true
  · have := hU hn
    rw [if_pos hn, if_pos hn]
    field_simp
    ring
  · rw [if_neg hn, if_neg hn]
    ring

theorem perm_map_lift {α β : Type} (f : α → β) {l : List α} {m : List β} (h : (l.map f).Perm m) :
    ∃ l', l.Perm l' ∧ l'.map f = m := by
  have h1 : List.Forall₂ (fun b a => f a = b) (l.map f) l := by
    rw [List.forall₂_map_left_iff]
    exact List.forall₂_same.2 fun _ _ => rfl
  obtain ⟨l', h2, h3⟩ := List.perm_comp_forall₂ h.symm h1
  refine ⟨l', h3.symm, ?_⟩
  clear h h1 h3
  induction h2 with
  | nil => rfl
  | cons h _ ih => rw [List.map_cons, h, ih]

/-- C103: the scaling tool writes exactly one new file. It has a block for each structure of the data file, in the order of the data
file and for any number of processes: number of atoms, for each atom its atomic number and its symmetry functions, and the
energy per atom of the data file. -/
theorem C103_file {N : NumberText} (hN : N.Data) (hD : D.Sane) (hL : ∀ l ∈ L, D.Readable l)
    (hT : getNumStructures T = 0) (P : ℕ) (randomize excl : Bool) (draws : List ℕ)
    (hP : if excl then 2 ≤ P else 1 ≤ P) (hn : (if excl then P - 1 else P) ≤ L.length)
    (hd : ∀ p ∈ draws, p < P) (hmany : randomize = true → ∀ p < P, L.length ≤ draws.count p)
    (hatoms : ∀ l ∈ L, ∀ k u, (Structure.forReading D.m k).readFromLines D.N D.m l = some u →
      u.atoms ≠ [] ∧ u.atoms.length < 2 ^ 64)
    {U : ModeUnits} {normalize : Bool} (hU : normalize = true → U.convEnergy ≠ 0) {Z : ℕ → ℕ}
    (hZ : ∀ e < D.m.size, Z e < 2 ^ 64) (nan : ℝ) (G : Structure → ℕ → List ℝ) (fs : Files) :
    ∃ (s : FileState) (fs' : Files) (text : Str) (blocks : List (List (List Str))),
      distributeFile D P randomize excl draws (L.flatten ++ T) = .ok s ∧
      functionTool N Z U normalize D.offs nan G L.length ((List.range P).map s.held) fs = some fs' ∧
      fs' "function.data".toList = some text ∧ (∀ x, x ≠ "function.data".toList → fs' x = fs x) ∧
      fileTable text = blocks.flatten ∧ blocks.length = L.length ∧
      ∀ i l, L[i]? = some l → ∃ u w,
        (Structure.forReading D.m i).readFromLines D.N D.m l = some u ∧
        InUnits U normalize { u with energyRef := u.energyRef - u.offsetSum D.offs } w ∧
        blocks[i]? = some (functionRows N Z u.energyRef
          (u.atoms.mapIdx fun j a => (a.element, G w j))) := by
  have hP0 : 0 < P := by
    split_ifs at hP <;> omega
  obtain ⟨s, hs, hperm, hholds, -, -⟩ := C93_distributed hD hL hT P randomize excl draws hP hn hd hmany
  have hinc : IncreasingIndex ((List.range P).map s.held) := by
    have hx : ¬ (excl = true ∧ P = 1) := by
      rintro ⟨h1, h2⟩
      rw [if_pos h1] at hP
      omega
    have hrun : ∃ d, distributeStructures L.length P randomize excl draws = .ok (some d) := by
      cases randomize with
      | true => exact C41_random_finishes L.length P hP0 excl draws hd (hmany rfl) hn hx
      | false =>
        have hne : ¬ ∃ e, distributeStructures L.length P false excl draws = .error e := by
          rw [C41_error_iff]
          rintro (h | h)
          · exact hx h
          · omega
        unfold distributeStructures at hne ⊢
        cases hq : structuresPerProc L.length P excl with
        | error e => rw [hq] at hne; exact absurd ⟨e, rfl⟩ hne
        | ok quota => exact ⟨_, rfl⟩
    obtain ⟨d, hd'⟩ := hrun
    exact held_increasing hD hL hT P hP0 randomize excl draws hd' hs
  set procs := (List.range P).map s.held with hprocs
  have hp1 : (procs.flatten.map Structure.index).Perm (List.range L.length) := by
    have e : procs.flatten.map Structure.index =
        (List.range P).flatMap fun p => (s.held p).map Structure.index := by
      rw [hprocs, List.map_flatten, List.flatMap_def, List.map_map]
      rfl
    rw [e]
    exact hperm
  obtain ⟨all, hall, hidx⟩ := perm_map_lift _ hp1
  have hlen : all.length = L.length := by
    have := congrArg List.length hidx
    rwa [List.length_map, List.length_range] at this
  -- every structure
  have hone : ∀ v ∈ procs.flatten, ∃ x : Structure × (Structure × (Structure × Str)),
      (∃ l, L[v.index]? = some l ∧
        (Structure.forReading D.m v.index).readFromLines D.N D.m l = some x.1) ∧
      InUnits U normalize { x.1 with energyRef := x.1.energyRef - x.1.offsetSum D.offs } x.2.1 ∧
      scalingStructure U normalize G v = some x.2.2.1 ∧ x.2.2.1.index = v.index ∧
      functionText N Z U normalize D.offs nan x.2.2.1 = some x.2.2.2 ∧
      Rows x.2.2.2 (functionRows N Z x.1.energyRef
        (x.1.atoms.mapIdx fun j a => (a.element, G x.2.1 j))) := by
    intro v hv
    obtain ⟨ss, hss, hv⟩ := List.mem_flatten.1 hv
    obtain ⟨p, hp, rfl⟩ := List.mem_map.1 hss
    obtain ⟨l, hl, u, hu, hvu⟩ := hholds p (List.mem_range.1 hp) v hv
    have hk := readFromLines_keeps hu
    have hbare : ∀ a ∈ v.atoms, a.Bare := by
      rw [hvu]
      exact fun a ha => (hk.atom a ha).1
    obtain ⟨w, hw, h1, h2, h3, h4, h5, h6⟩ := scalingStructure_ok U normalize G hbare
    obtain ⟨hne, hsize⟩ := hatoms l (List.mem_of_getElem? hl) _ u hu
    have h7 := C103_energy hD hU hu hne hvu hw nan G
    set y : Structure := { w with atoms := w.atoms.mapIdx fun i a => { a with G := G w i } } with hy
    have h8 : w.atoms.map Atom.element = u.atoms.map Atom.element := by
      rw [h6, hvu]
    have hwl : w.atoms.length = u.atoms.length := by
      have := congrArg List.length h8
      rwa [List.length_map, List.length_map] at this
    have hyl : y.atoms.length = u.atoms.length := by
      rw [hy]
      show (w.atoms.mapIdx _).length = _
      rw [List.length_mapIdx, hwl]
    have hye : (y.atoms.map fun a => (a.element, a.G)) =
        u.atoms.mapIdx fun j a => (a.element, G w j) := by
      apply List.ext_getElem?
      intro i
      have h9 := congrArg (fun l => l[i]?) h8
      simp only [List.getElem?_map] at h9
      show ((w.atoms.mapIdx fun i a => { a with G := G w i }).map fun a => (a.element, a.G))[i]? = _
      rw [List.getElem?_map, List.getElem?_mapIdx, List.getElem?_mapIdx, Option.map_map]
      cases hwi : w.atoms[i]? with
      | none =>
        rw [hwi] at h9
        cases hui : u.atoms[i]? with
        | none => rfl
        | some b => rw [hui] at h9; cases h9
      | some b =>
        rw [hwi] at h9
        cases hui : u.atoms[i]? with
        | none => rw [hui] at h9; cases h9
        | some c =>
          rw [hui] at h9
          have : b.element = c.element := by simpa using h9
          simp [this]
    have hnum : y.numAtoms = y.atoms.length := by
      rw [hyl]
      show w.numAtoms = _
      rw [h3, hvu]
      exact hk.numAtoms
    obtain ⟨t, h10, h11⟩ := functionText_ok hN (Z := Z) (U := U) (normalize := normalize)
      (offs := D.offs) (nan := nan) (s := y) (by
        intro a ha
        have : a.element ∈ u.atoms.map Atom.element := by
          rw [← h8]
          obtain ⟨i, hi, rfl⟩ := List.mem_mapIdx.1 ha
          exact List.mem_map.2 ⟨_, List.getElem_mem hi, rfl⟩
        obtain ⟨b, hb, e⟩ := List.mem_map.1 this
        refine hZ _ ?_
        rw [← e]
        have := (hk.atom b hb).2
        rwa [hk.length, size_forReading] at this) (by rw [hyl]; exact hsize) hnum
      (e := u.energyRef) (by rw [hyl]; exact h7)
    refine ⟨(u, w, y, t), ⟨l, hl, hu⟩, ?_, h1, h2, h10, ?_⟩
    · rw [← hvu]
      exact hw
    · rw [← hye]
      exact h11
  classical
  have hinh : Nonempty (Structure × (Structure × (Structure × Str))) :=
    ⟨(Structure.init, Structure.init, Structure.init, [])⟩
  choose! x hx1 hx2 hx3 hx4 hx5 hx6 using hone
  have hm : ∀ v ∈ all, v ∈ procs.flatten := fun v hv => hall.mem_iff.2 hv
  have e1 : procs.mapM (fun ss => ss.mapM (scalingStructure U normalize G)) =
      some (procs.map fun ss => ss.map fun v => (x v).2.2.1) := by
    refine mapM_of_map fun ss hss => mapM_of_map fun v hv => ?_
    exact hx3 v (List.mem_flatten.2 ⟨ss, hss, hv⟩)
  obtain ⟨back, hback⟩ : ∃ back : Structure → Str, ∀ v ∈ all, back (x v).2.2.1 = (x v).2.2.2 := by
    refine ⟨fun y => (functionText N Z U normalize D.offs nan y).getD [], fun v hv => ?_⟩
    dsimp only
    rw [hx5 v (hm v hv)]
    rfl
  obtain ⟨left, e2, -⟩ := C103_order (functionText N Z U normalize D.offs nan) back
    (procs.map fun ss => ss.map fun v => (x v).2.2.1) (by
      intro ss hss
      obtain ⟨ss', hss', rfl⟩ := List.mem_map.1 hss
      have e : (ss'.map fun v => (x v).2.2.1).map Structure.index = ss'.map Structure.index := by
        rw [List.map_map]
        exact List.map_congr_left fun v hv => hx4 v (List.mem_flatten.2 ⟨ss', hss', hv⟩)
      rw [e]
      exact hinc ss' hss') (all.map fun v => (x v).2.2.1) (by
      rw [← List.map_flatten]
      exact hall.map _) (by
      rw [List.map_map, List.length_map, hlen, ← hidx]
      exact List.map_congr_left fun v hv => hx4 v (hm v hv)) (by
      intro y hy
      obtain ⟨v, hv, rfl⟩ := List.mem_map.1 hy
      rw [hback v hv]
      exact hx5 v (hm v hv))
  rw [List.length_map, hlen] at e2
  have e3 : (all.map fun v => (x v).2.2.1).flatMap back = all.flatMap fun v => (x v).2.2.2 := by
    rw [List.flatMap_map]
    exact List.flatMap_congr fun v hv => hback v hv
  rw [e3] at e2
  let rows : Structure → List (List Str) := fun v => functionRows N Z (x v).1.energyRef
    ((x v).1.atoms.mapIdx fun j a => (a.element, G (x v).2.1 j))
  have hrows : ∀ A : List Structure, (∀ v ∈ A, v ∈ all) →
      Rows (A.flatMap fun v => (x v).2.2.2) (A.flatMap rows) := by
    intro A
    induction A with
    | nil => exact fun _ => rows_nil
    | cons v A ih =>
      intro h
      rw [List.flatMap_cons, List.flatMap_cons]
      exact rows_append (hx6 v (hm v (h v (by simp)))) (ih fun y hy => h y (by simp [hy]))
  refine ⟨s, fs.write "function.data".toList (all.flatMap fun v => (x v).2.2.2),
    all.flatMap fun v => (x v).2.2.2, all.map rows, hs, ?_, ?_, ?_, ?_, ?_, ?_⟩
  · unfold functionTool writeFunctionFile
    rw [e1]
    show (functionLoop _ _ _).bind _ = _
    rw [e2]
    rfl
  · exact Function.update_self _ _ _
  · intro y hy
    exact Function.update_of_ne hy _ _
  · have := fileTable_eq (hs := []) (by simp) (hrows all fun v hv => hv)
    rw [List.flatMap_nil, List.nil_append] at this
    rw [this, List.flatMap_def]
  · rw [List.length_map, hlen]
  · intro i l hl
    have hi : i < all.length := by
      rw [hlen]
      exact (List.getElem?_eq_some_iff.1 hl).1
    have hv : all[i] ∈ all := List.getElem_mem hi
    have hii : all[i].index = i := by
      have := congrArg (fun l => l[i]?) hidx
      simp only [List.getElem?_map] at this
      rw [List.getElem?_eq_getElem hi, List.getElem?_range (by omega)] at this
      simpa using this
    obtain ⟨l', h1, h2⟩ := hx1 _ (hm _ hv)
    rw [hii] at h1 h2
    rw [hl] at h1
    cases h1
    refine ⟨(x all[i]).1, (x all[i]).2.1, h2, hx2 _ (hm _ hv), ?_⟩
    rw [List.getElem?_map, List.getElem?_eq_getElem hi]
    rfl

/-- Two structures of three atoms on two processes, normalized units. -/
example : ∃ (D : DataSetup (Option ((T : MpiType) × T.Val))) (L : List (List Str)) (s : FileState) (fs' : Files) (text : Str), L.length = 2 ∧
    distributeFile D 2 false false [] (L.flatten ++ []) = .ok s ∧
    functionTool exText (fun e => [8, 1].getD e 0) ⟨1 / 2, 2, 3, 1⟩ true D.offs 0 (fun _ j => [(j : ℝ)]) 2
      ((List.range 2).map s.held) (fun _ => none) = some fs' ∧
    fs' "function.data".toList = some text ∧ (fileTable text).length = 10 ∧
    (fileTable text)[4]? = some [exText.print 0, exText.print (7 / 3), exText.print (7 / 3),
      exText.print 0] := by
  obtain ⟨m, h1, h2, h3, -, -⟩ := exFiled_ok
  have hsize : m.size = 2 := by
    obtain ⟨m', g1, g2, -⟩ := emap_sane "O\t H".toList ["O".toList, "H".toList]
      ((C01_tokens_are_words _ _).1 (by decide)) (by decide +kernel) (by decide)
    rw [h1] at g1
    cases g1
    exact g2
  have hbytes : ∀ q, newMessageBytes exFormat (exFiled false q).atoms.length m.size
      (exFiled false q).comment.length < 2 ^ 31 := by
    intro q
    rw [hsize]
    show newMessageBytes exFormat 3 2 "water  1".toList.length < 2 ^ 31
    decide
  obtain ⟨l1, -, -, a1, b1⟩ := written_section (D := ⟨exText, m, [5, 1], exFormat, exMachine⟩)
    exText_sane h2 (exFiled false 3) true (h3 3) (hbytes 3)
  obtain ⟨l2, -, -, a2, b2⟩ := written_section (D := ⟨exText, m, [5, 1], exFormat, exMachine⟩)
    exText_sane h2 (exFiled false 1) true (h3 1) (hbytes 1)
  have hlen : ∀ {q : ℝ} {k : ℕ} {u : Structure}, (exFiled false q).FileCopy exText m true k u →
      u.atoms.length = 3 := fun h => h.length
  have hE : ∀ {q : ℝ} {k : ℕ} {u : Structure}, (exFiled false q).FileCopy exText m true k u →
      u.energyRef = 7 := fun h => h.energy.trans (exText_num 7 7 (by norm_num) (by norm_num))
  obtain ⟨s, fs', text, blocks, e1, e2, e3, -, e5, e6, e7⟩ := C103_file
    (D := ⟨exText, m, [5, 1], exFormat, exMachine⟩) (L := [l1, l2]) (T := []) exText_data
    ⟨hsize.symm, exMachine_survives⟩ (by
      intro l hl
      simp only [List.mem_cons, List.not_mem_nil, or_false] at hl
      rcases hl with rfl | rfl
      · exact a1
      · exact a2) rfl 2 false false [] (by decide) (show 2 ≤ 2 from le_rfl) (by simp) (by simp) (by
      intro l hl k u hu
      have : u.atoms.length = 3 := by
        simp only [List.mem_cons, List.not_mem_nil, or_false] at hl
        rcases hl with rfl | rfl
        · exact hlen (b1 k u hu)
        · exact hlen (b2 k u hu)
      exact ⟨fun h => absurd this (by rw [h]; decide), by rw [this]; norm_num⟩)
    (U := ⟨1 / 2, 2, 3, 1⟩) (normalize := true) (fun _ => by norm_num) (Z := fun e => [8, 1].getD e 0) (by
      intro e he
      rw [hsize] at he
      rcases e with _ | _ | e
      · show 8 < 2 ^ 64
        norm_num
      · show 1 < 2 ^ 64
        norm_num
      · omega) 0 (fun _ j => [(j : ℝ)]) (fun _ => none)
  refine ⟨⟨exText, m, [5, 1], exFormat, exMachine⟩, [l1, l2], s, fs', text, rfl, e1, e2, e3, ?_⟩
  obtain ⟨u, w, f1, -, f3⟩ := e7 0 l1 rfl
  obtain ⟨u', w', g1, -, g3⟩ := e7 1 l2 rfl
  have hu := b1 _ u f1
  have hu' := b2 _ u' g1
  match blocks, e6 with
  | [A, B], _ =>
    cases f3
    cases g3
    have r : ∀ (x : Structure) (k : ℕ) (q : ℝ) (w : Structure), (exFiled false q).FileCopy exText m true k x →
        (functionRows exText (fun e => [8, 1].getD e 0) x.energyRef
          (x.atoms.mapIdx fun j a => (a.element, [(j : ℝ)]))).length = 5 ∧
        (functionRows exText (fun e => [8, 1].getD e 0) x.energyRef
          (x.atoms.mapIdx fun j a => (a.element, [(j : ℝ)])))[4]? =
          some [exText.print 0, exText.print (7 / 3), exText.print (7 / 3), exText.print 0] := by
      intro x k q w h
      have h3 := hlen h
      rw [hE h]
      match hx : x.atoms, h3 with
      | [a, b, c], _ => exact ⟨rfl, by simp [functionRows]⟩
    rw [e5, List.flatten_cons, List.flatten_cons, List.flatten_nil, List.append_nil]
    refine ⟨?_, ?_⟩
    · rw [List.length_append, (r u _ _ w hu).1, (r u' _ _ w' hu').1]
    · rw [List.getElem?_append_left (by rw [(r u _ _ w hu).1]; norm_num)]
      exact (r u _ _ w hu).2

end N2P2
