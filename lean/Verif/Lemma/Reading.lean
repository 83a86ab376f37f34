import Verif.Spec.Prediction
import Verif.Lemma.StructureFile
import Verif.Props.Geometry

/-! Properties of all structures read from files. -/

namespace N2P2

/-! ### Reading with a used object -/

/-- Members which `reset` does not touch. -/
def Structure.withPast (s x : Structure) : Structure :=
  { s with
    neighborListIsSorted := x.neighborListIsSorted
    energyShort := x.energyShort
    energyElec := x.energyElec
    hasCharges := x.hasCharges
    maxCutoffRadiusOverall := x.maxCutoffRadiusOverall
    lambda := x.lambda
    hasAMatrix := x.hasAMatrix
    A := x.A }

theorem resizeNat_replicate (k n : ℕ) :
    resizeNat (List.replicate k 0) n = List.replicate n 0 := by
  unfold resizeNat
  rw [List.take_replicate, List.length_replicate, List.replicate_append_replicate]
  congr 1
  omega

theorem reset_eq (x : Structure) (k : ℕ) (m : EMap) :
    (x.reset k).setElementMap m = (Structure.forReading m 0).withPast x := by
  have h : resizeNat (List.replicate k 0) m.size = resizeNat [] m.size :=
    (resizeNat_replicate k m.size).trans (resizeNat_replicate 0 m.size).symm
  unfold Structure.setElementMap Structure.reset
  dsimp only
  rw [h]
  rfl

variable {N : NumberText} {m : EMap} (x : Structure)

theorem readBegin_past (words : List Str) (s : Structure) :
    readBegin (s.withPast x) words = (readBegin s words).map (·.withPast x) := by
  unfold readBegin
  induction words generalizing s with
  | nil => rfl
  | cons w ws ih =>
    rw [List.foldlM_cons, List.foldlM_cons]
    by_cases h1 : w = "set=train".toList
    · rw [if_pos h1, if_pos h1]
      exact ih { s with sampleType := .training }
    · rw [if_neg h1, if_neg h1]
      by_cases h2 : w = "set=test".toList
      · rw [if_pos h2, if_pos h2]
        exact ih { s with sampleType := .test }
      · rw [if_neg h2, if_neg h2]
        rfl

theorem readComment_past (line : Str) (s : Structure) :
    readComment (s.withPast x) line = (readComment s line).map (·.withPast x) := by
  unfold readComment
  cases findText keyComment line <;> rfl

theorem readLattice_past (n : ℕ) (words : List Str) (s : Structure) :
    readLattice N (s.withPast x) n words =
      (readLattice N s n words).map fun r => (r.1.withPast x, r.2) := by
  unfold readLattice
  by_cases h : n < 3
  · rw [dif_pos h, dif_pos h]
    cases words[1]? with
    | none => rfl
    | some a =>
      cases words[2]? with
      | none => rfl
      | some b =>
        cases words[3]? with
        | none => rfl
        | some c =>
          show some _ = some _
          dsimp only
          by_cases h' : n + 1 = 3
          · rw [if_pos h', if_pos h']
            rfl
          · rw [if_neg h', if_neg h']
            rfl
  · rw [dif_neg h, dif_neg h]
    rfl

theorem readAtom_past (words : List Str) (s : Structure) :
    readAtom N m (s.withPast x) words = (readAtom N m s words).map (·.withPast x) := by
  unfold readAtom
  cases words[1]? with
  | none => rfl
  | some a1 =>
  cases words[2]? with
  | none => rfl
  | some a2 =>
  cases words[3]? with
  | none => rfl
  | some a3 =>
  cases words[4]? with
  | none => rfl
  | some a4 =>
  show ((m.index a4).toOption.bind _) = ((m.index a4).toOption.bind _).map _
  cases (m.index a4).toOption with
  | none => rfl
  | some e =>
  cases words[5]? with
  | none => rfl
  | some a5 =>
  cases words[7]? with
  | none => rfl
  | some a7 =>
  cases words[8]? with
  | none => rfl
  | some a8 =>
  cases words[9]? with
  | none => rfl
  | some a9 =>
  show ((s.numAtomsPerElement[e]?).bind _) = ((s.numAtomsPerElement[e]?).bind _).map _
  cases s.numAtomsPerElement[e]? with
  | none => rfl
  | some c => rfl

theorem checkEnd_past (n : ℕ) (s : Structure) :
    checkEnd (s.withPast x) n = (checkEnd s n).map (·.withPast x) := by
  unfold checkEnd
  by_cases h1 : ¬ (n = 0 ∨ n = 3)
  · rw [if_pos h1, if_pos h1]
    rfl
  · rw [if_neg h1, if_neg h1]
    by_cases h2 : s.isPeriodic ∧ |s.chargeRef| > 10 * doubleEpsilon
    · rw [if_pos h2]
      exact (if_pos h2)
    · rw [if_neg h2]
      exact (if_neg h2)

theorem map_bind_past {α β : Type} {f f' : α → Option β} (o : Option α) (g : β → β)
    (h : ∀ a, f' a = (f a).map g) : o.bind f' = (o.bind f).map g := by
  cases o with
  | none => rfl
  | some a => exact h a

theorem readLoop_empty (line : Str) (lines : List Str) (s : Structure) (n : ℕ)
    (h : split (reduce line) = []) : readLoop N m (line :: lines) s n = none := by
  unfold readLoop
  rw [h]
  rfl

theorem readLoop_past (lines : List Str) (s : Structure) (n : ℕ) :
    readLoop N m lines (s.withPast x) n = (readLoop N m lines s n).map (·.withPast x) := by
  induction lines generalizing s n with
  | nil => rfl
  | cons line lines ih =>
    cases hw : split (reduce line) with
    | nil => rw [readLoop_empty _ _ _ _ hw, readLoop_empty _ _ _ _ hw]; rfl
    | cons key ws =>
      rw [readLoop_cons _ _ _ _ _ _ _ _ hw, readLoop_cons _ _ _ _ _ _ _ _ hw]
      by_cases h1 : key = keyBegin
      · rw [if_pos h1, if_pos h1, readBegin_past]
        cases readBegin s ws with
        | none => rfl
        | some s' => exact ih s' n
      rw [if_neg h1, if_neg h1]
      by_cases h2 : key = keyComment
      · rw [if_pos h2, if_pos h2, readComment_past]
        cases readComment s line with
        | none => rfl
        | some s' => exact ih s' n
      rw [if_neg h2, if_neg h2]
      by_cases h3 : key = keyLattice
      · rw [if_pos h3, if_pos h3, readLattice_past]
        cases readLattice N s n (key :: ws) with
        | none => rfl
        | some r => exact ih r.1 r.2
      rw [if_neg h3, if_neg h3]
      by_cases h4 : key = keyAtom
      · rw [if_pos h4, if_pos h4, readAtom_past]
        cases readAtom N m s (key :: ws) with
        | none => rfl
        | some s' => exact ih s' n
      rw [if_neg h4, if_neg h4]
      by_cases h5 : key = keyEnergy
      · rw [if_pos h5, if_pos h5]
        cases (key :: ws)[1]? with
        | none => rfl
        | some w => exact ih { s with energyRef := N.atof w } n
      rw [if_neg h5, if_neg h5]
      by_cases h6 : key = keyCharge
      · rw [if_pos h6, if_pos h6]
        cases (key :: ws)[1]? with
        | none => rfl
        | some w => exact ih { s with chargeRef := N.atof w } n
      rw [if_neg h6, if_neg h6]
      by_cases h7 : key = keyEnd
      · rw [if_pos h7, if_pos h7]
        exact checkEnd_past x n s
      · rw [if_neg h7, if_neg h7]
        rfl

theorem countPresent_past (s : Structure) :
    (s.withPast x).countPresent = s.countPresent.map (·.withPast x) := by
  unfold Structure.countPresent
  show (List.range s.numElements).foldlM _ _ = _
  generalize List.range s.numElements = L
  induction L generalizing s with
  | nil => rfl
  | cons i L ih =>
    rw [List.foldlM_cons, List.foldlM_cons]
    show ((s.numAtomsPerElement[i]?).bind _).bind _ = (((s.numAtomsPerElement[i]?).bind _).bind _).map _
    cases s.numAtomsPerElement[i]? with
    | none => rfl
    | some c =>
      show List.foldlM _ (if 0 < c then _ else _) L = Option.map _ (List.foldlM _ (if 0 < c then _ else _) L)
      by_cases h : 0 < c
      · rw [if_pos h, if_pos h]
        exact ih { s with numElementsPresent := s.numElementsPresent + 1 }
      · rw [if_neg h, if_neg h]
        exact ih s

theorem remapIfPeriodic_past (s : Structure) :
    (s.withPast x).remapIfPeriodic = s.remapIfPeriodic.map (·.withPast x) := by
  unfold Structure.remapIfPeriodic
  by_cases h : s.isPeriodic = true
  · rw [if_pos h]
    refine (if_pos h).trans ?_
    unfold Structure.remap
    show Option.map _ (s.atoms.mapM fun a => (s.remapPosition a.r).map _) = _
    cases s.atoms.mapM fun a => (s.remapPosition a.r).map fun r => { a with r := r } <;> rfl
  · rw [if_neg h]
    exact if_neg h

theorem readFromFile_past (file : List Str) (s : Structure) :
    (s.withPast x).readFromFile N m file =
      (s.readFromFile N m file).map fun r => (r.1.withPast x, r.2) := by
  have hlines : ∀ lines, (s.withPast x).readFromLines N m lines =
      (s.readFromLines N m lines).map (·.withPast x) := by
    intro lines
    unfold Structure.readFromLines
    cases lines.head? with
    | none => rfl
    | some line =>
      show ((split (reduce line)).head?.bind _) = ((split (reduce line)).head?.bind _).map _
      cases (split (reduce line)).head? with
      | none => rfl
      | some key =>
        show (if key ≠ keyBegin then _ else _) = Option.map _ (if key ≠ keyBegin then _ else _)
        by_cases h : key ≠ keyBegin
        · rw [if_pos h, if_pos h]
          rfl
        · rw [if_neg h, if_neg h]
          show (readLoop N m lines (s.withPast x) 0).bind _ = ((readLoop N m lines s 0).bind _).map _
          rw [readLoop_past]
          cases readLoop N m lines s 0 with
          | none => rfl
          | some s1 =>
            show ((s1.withPast x).countPresent).bind _ = ((s1.countPresent).bind _).map _
            rw [countPresent_past]
            cases s1.countPresent with
            | none => rfl
            | some s2 => exact remapIfPeriodic_past x s2
  unfold Structure.readFromFile
  cases file.head? with
  | none => rfl
  | some line =>
    show ((split (reduce line)).head?.bind _) = ((split (reduce line)).head?.bind _).map _
    cases (split (reduce line)).head? with
    | none => rfl
    | some key =>
      show (if key ≠ keyBegin then _ else _) = Option.map _ (if key ≠ keyBegin then _ else _)
      by_cases h : key ≠ keyBegin
      · rw [if_pos h, if_pos h]
        rfl
      · rw [if_neg h, if_neg h]
        show (linesToEnd file.tail).bind _ = ((linesToEnd file.tail).bind _).map _
        cases linesToEnd file.tail with
        | none => rfl
        | some r =>
          show ((s.withPast x).readFromLines N m (line :: r.1)).bind _ =
            ((s.readFromLines N m (line :: r.1)).bind _).map _
          rw [hlines]
          cases s.readFromLines N m (line :: r.1) <;> rfl

/-! ### What holds for all structures read -/

/-- An atom as it is created by the reader. -/
structure AtomRead (k i : ℕ) (a : Atom) : Prop where
  fresh : a.Fresh k
  element : a.element < k
  index : a.index = i
  flags : a.useChargeNeuron = false ∧ a.hasSymmetryFunctions = false ∧
    a.hasSymmetryFunctionDerivatives = false ∧ a.hasNeighborList = false

/-- The structure while it is read. `n`: number of box vectors read. -/
structure ReadState (k n : ℕ) (s : Structure) : Prop where
  elements : s.numElements = k
  flags : s.hasSymmetryFunctions = false ∧ s.hasSymmetryFunctionDerivatives = false
  rest : s.energyElec = 0 ∧ s.maxCutoffRadiusOverall = 0
  numAtoms : s.numAtoms = s.atoms.length
  counts : s.numAtomsPerElement =
    (List.range k).map fun e => s.atoms.countP (fun a => a.element = e)
  atom : ∀ (i : ℕ) (a : Atom), s.atoms[i]? = some a → AtomRead k i a
  box : s.isPeriodic = true → n = 3 ∧ s.invbox = s.calculateInverseBox.invbox

theorem ReadState.forReading (m : EMap) : ReadState m.size 0 (Structure.forReading m 0) := by
  refine ⟨rfl, ⟨rfl, rfl⟩, ⟨rfl, rfl⟩, rfl, ?_, ?_, nofun⟩
  · show resizeNat (List.replicate 0 0) m.size = _
    rw [resizeNat_replicate]
    refine (List.eq_replicate_iff.2 ⟨by simp, ?_⟩).symm
    intro b hb
    obtain ⟨e, -, rfl⟩ := List.mem_map.1 hb
    rfl
  · intro i a h
    simp [Structure.forReading, Structure.setElementMap, Structure.init] at h

variable {k n : ℕ} {s s' : Structure}

theorem ReadState.begin' {words : List Str} (h : ReadState k n s) (e : readBegin s words = some s') :
    ReadState k n s' := by
  unfold readBegin at e
  induction words generalizing s with
  | nil => cases e; exact h
  | cons w ws ih =>
    rw [List.foldlM_cons] at e
    obtain ⟨t, e1, e2⟩ := Option.bind_eq_some_iff.1 e
    refine ih ?_ e2
    split_ifs at e1
    · cases e1
      exact ⟨h.elements, h.flags, h.rest, h.numAtoms, h.counts, h.atom, h.box⟩
    · cases e1
      exact ⟨h.elements, h.flags, h.rest, h.numAtoms, h.counts, h.atom, h.box⟩

theorem ReadState.comment {line : Str} (h : ReadState k n s) (e : readComment s line = some s') :
    ReadState k n s' := by
  obtain ⟨pos, -, rfl⟩ := Option.map_eq_some_iff.1 e
  exact ⟨h.elements, h.flags, h.rest, h.numAtoms, h.counts, h.atom, h.box⟩

theorem ReadState.lattice {words : List Str} {r : Structure × ℕ} (h : ReadState k n s)
    (e : readLattice N s n words = some r) : ReadState k r.2 r.1 := by
  unfold readLattice at e
  by_cases hn : n < 3
  · rw [dif_pos hn] at e
    obtain ⟨a, -, e⟩ := Option.bind_eq_some_iff.1 e
    obtain ⟨b, -, e⟩ := Option.bind_eq_some_iff.1 e
    obtain ⟨c, -, e⟩ := Option.bind_eq_some_iff.1 e
    cases e
    dsimp only
    by_cases h3 : n + 1 = 3
    · rw [if_pos h3]
      exact ⟨h.elements, h.flags, h.rest, h.numAtoms, h.counts, h.atom, fun _ => ⟨h3, rfl⟩⟩
    · rw [if_neg h3]
      refine ⟨h.elements, h.flags, h.rest, h.numAtoms, h.counts, h.atom, fun hp => ?_⟩
      have := (h.box hp).1
      omega
  · rw [dif_neg hn] at e
    cases e

theorem counts_set' (n : ℕ) (l : List Atom) (a : Atom) (el : ℕ) (ha : a.element = el) (h : el < n) :
    ((List.range n).map fun e => l.countP (fun a => a.element = e)).set el
      (l.countP (fun b => b.element = el) + 1) =
      (List.range n).map fun e => (l ++ [a]).countP (fun a => a.element = e) := by
  subst ha
  exact counts_set n l a h

theorem ReadState.readAtom {words : List Str} (h : ReadState k n s)
    (e : readAtom N m s words = some s') : ReadState k n s' := by
  unfold N2P2.readAtom at e
  obtain ⟨a1, -, e⟩ := Option.bind_eq_some_iff.1 e
  obtain ⟨a2, -, e⟩ := Option.bind_eq_some_iff.1 e
  obtain ⟨a3, -, e⟩ := Option.bind_eq_some_iff.1 e
  obtain ⟨a4, -, e⟩ := Option.bind_eq_some_iff.1 e
  obtain ⟨el, -, e⟩ := Option.bind_eq_some_iff.1 e
  obtain ⟨a5, -, e⟩ := Option.bind_eq_some_iff.1 e
  obtain ⟨a7, -, e⟩ := Option.bind_eq_some_iff.1 e
  obtain ⟨a8, -, e⟩ := Option.bind_eq_some_iff.1 e
  obtain ⟨a9, -, e⟩ := Option.bind_eq_some_iff.1 e
  obtain ⟨c, hc, e⟩ := Option.bind_eq_some_iff.1 e
  have e := Option.some.inj e
  have hel : el < k := by
    have := (List.getElem?_eq_some_iff.1 hc).1
    rw [h.counts] at this
    simpa using this
  have hcc : c = s.atoms.countP (fun a => a.element = el) := by
    rw [h.counts] at hc
    simpa [hel] using hc.symm
  subst hcc
  rw [h.counts] at e
  subst e
  refine ⟨h.elements, h.flags, h.rest, ?_, ?_, ?_, h.box⟩
  · simp [h.numAtoms]
  · exact counts_set' k s.atoms _ el rfl hel
  · intro i a ha
    dsimp only at ha
    rw [List.getElem?_append] at ha
    split_ifs at ha with hi
    · exact h.atom i a ha
    · rw [List.getElem?_singleton] at ha
      split_ifs at ha with hz
      cases ha
      refine ⟨⟨rfl, rfl, rfl, rfl, ?_, rfl⟩, hel, ?_, rfl, rfl, rfl, rfl⟩
      · show List.replicate s.numElements 0 = _
        rw [h.elements]
      · show s.numAtoms = i
        rw [h.numAtoms]
        omega

theorem readLoop_state (lines : List Str) {s s' : Structure} {n : ℕ} (h : ReadState k n s)
    (e : readLoop N m lines s n = some s') : ∃ n', ReadState k n' s' := by
  induction lines generalizing s n with
  | nil => cases e; exact ⟨n, h⟩
  | cons line lines ih =>
    cases hw : split (reduce line) with
    | nil => rw [readLoop_empty _ _ _ _ hw] at e; cases e
    | cons key ws =>
      rw [readLoop_cons _ _ _ _ _ _ _ _ hw] at e
      by_cases h1 : key = keyBegin
      · rw [if_pos h1] at e
        obtain ⟨t, e1, e2⟩ := Option.bind_eq_some_iff.1 e
        exact ih (h.begin' e1) e2
      rw [if_neg h1] at e
      by_cases h2 : key = keyComment
      · rw [if_pos h2] at e
        obtain ⟨t, e1, e2⟩ := Option.bind_eq_some_iff.1 e
        exact ih (h.comment e1) e2
      rw [if_neg h2] at e
      by_cases h3 : key = keyLattice
      · rw [if_pos h3] at e
        obtain ⟨t, e1, e2⟩ := Option.bind_eq_some_iff.1 e
        exact ih (h.lattice e1) e2
      rw [if_neg h3] at e
      by_cases h4 : key = keyAtom
      · rw [if_pos h4] at e
        obtain ⟨t, e1, e2⟩ := Option.bind_eq_some_iff.1 e
        exact ih (h.readAtom e1) e2
      rw [if_neg h4] at e
      by_cases h5 : key = keyEnergy
      · rw [if_pos h5] at e
        obtain ⟨t, e1, e2⟩ := Option.bind_eq_some_iff.1 e
        exact ih (s := { s with energyRef := N.atof t }) ⟨h.elements, h.flags, h.rest, h.numAtoms, h.counts, h.atom, h.box⟩ e2
      rw [if_neg h5] at e
      by_cases h6 : key = keyCharge
      · rw [if_pos h6] at e
        obtain ⟨t, e1, e2⟩ := Option.bind_eq_some_iff.1 e
        exact ih (s := { s with chargeRef := N.atof t }) ⟨h.elements, h.flags, h.rest, h.numAtoms, h.counts, h.atom, h.box⟩ e2
      rw [if_neg h6] at e
      by_cases h7 : key = keyEnd
      · rw [if_pos h7] at e
        unfold checkEnd at e
        split_ifs at e
        cases e
        exact ⟨n, h⟩
      · rw [if_neg h7] at e
        cases e

theorem countPresent_state (h : ReadState k n s) (e : s.countPresent = some s') :
    ReadState k n s' := by
  rw [countPresent_eq s (by rw [h.counts, h.elements]; simp)] at e
  cases e
  exact ⟨h.elements, h.flags, h.rest, h.numAtoms, h.counts, h.atom, h.box⟩

/-- A structure read from a file: everything needed for the evaluation. -/
structure ReadDone (k : ℕ) (s : Structure) : Prop where
  elements : s.numElements = k
  flags : s.hasSymmetryFunctions = false ∧ s.hasSymmetryFunctionDerivatives = false
  rest : s.energyElec = 0 ∧ s.maxCutoffRadiusOverall = 0
  numAtoms : s.numAtoms = s.atoms.length
  counts : s.numAtomsPerElement =
    (List.range k).map fun e => s.atoms.countP (fun a => a.element = e)
  atom : ∀ (i : ℕ) (a : Atom), s.atoms[i]? = some a → AtomRead k i a
  inside : s.isPeriodic = true → NonSingular s.box → ∀ a ∈ s.atoms, InBox s.box a.r

theorem countP_element_congr {l l' : List Atom} (h : l'.map Atom.element = l.map Atom.element)
    (e : ℕ) : l'.countP (fun a => a.element = e) = l.countP (fun a => a.element = e) := by
  have key : ∀ l : List Atom, l.countP (fun a => a.element = e) =
      (l.map Atom.element).countP (fun x => x = e) := by
    intro l
    rw [List.countP_map]
    rfl
  rw [key, key, h]

theorem remapIfPeriodic_state (h : ReadState k n s) (e : s.remapIfPeriodic = some s') :
    ReadDone k s' := by
  unfold Structure.remapIfPeriodic at e
  by_cases hp : s.isPeriodic = true
  · rw [if_pos hp] at e
    have hinv : s.calculateInverseBox = s := by
      have := (h.box hp).2
      unfold Structure.calculateInverseBox at this ⊢
      dsimp only at this ⊢
      rw [← this]
    have e' := e
    unfold Structure.remap at e
    obtain ⟨atoms, e1, rfl⟩ := Option.map_eq_some_iff.1 e
    obtain ⟨hl, hm⟩ := mapM_some e1
    have hat : ∀ (i : ℕ) b, atoms[i]? = some b → ∃ a, s.atoms[i]? = some a ∧
        b = { a with r := b.r } := by
      intro i b hb
      have hi : i < s.atoms.length := by
        rw [← hl]
        exact (List.getElem?_eq_some_iff.1 hb).1
      obtain ⟨b', g1, g2⟩ := hm i _ (List.getElem?_eq_getElem hi)
      rw [hb] at g1
      cases g1
      obtain ⟨r, -, rfl⟩ := Option.map_eq_some_iff.1 g2
      exact ⟨_, List.getElem?_eq_getElem hi, rfl⟩
    refine ⟨h.elements, h.flags, h.rest, ?_, ?_, ?_, ?_⟩
    · exact h.numAtoms.trans hl.symm
    · refine h.counts.trans (List.map_congr_left fun e _ => (countP_element_congr ?_ e).symm)
      apply List.ext_getElem?
      intro i
      show (atoms.map Atom.element)[i]? = _
      rw [List.getElem?_map, List.getElem?_map]
      cases hb : atoms[i]? with
      | none =>
        have : s.atoms[i]? = none := by
          rw [List.getElem?_eq_none_iff] at hb ⊢
          omega
        rw [this]
      | some b =>
        obtain ⟨a, g1, g2⟩ := hat i b hb
        rw [g1, g2]
        rfl
    · intro i b hb
      obtain ⟨a, g1, g2⟩ := hat i b hb
      have := h.atom i a g1
      rw [g2]
      exact ⟨this.fresh, this.element, this.index, this.flags⟩
    · intro _ hns a ha
      obtain ⟨i, hi, rfl⟩ := List.getElem_of_mem ha
      obtain ⟨-, r2⟩ := C24_remap s _ hns (by rw [hinv]; exact e')
      have hi' : i < s.atoms.length := by
        rw [← hl]
        exact hi
      obtain ⟨a', _, q1, q2, -, -⟩ := r2 i _ (List.getElem?_eq_getElem hi')
      rw [List.getElem?_eq_getElem hi] at q1
      rw [Option.some.inj q1]
      exact q2
  · rw [if_neg hp] at e
    cases e
    exact ⟨h.elements, h.flags, h.rest, h.numAtoms, h.counts, h.atom, fun hp' => absurd hp' hp⟩

theorem readFromFile_done {file : List Str} {r : Structure × List Str}
    (e : (Structure.forReading m 0).readFromFile N m file = some r) : ReadDone m.size r.1 := by
  unfold Structure.readFromFile at e
  obtain ⟨line, -, e⟩ := Option.bind_eq_some_iff.1 e
  obtain ⟨key, -, e⟩ := Option.bind_eq_some_iff.1 e
  split_ifs at e
  obtain ⟨ls, -, e⟩ := Option.bind_eq_some_iff.1 e
  obtain ⟨u, e1, e⟩ := Option.bind_eq_some_iff.1 e
  cases e
  unfold Structure.readFromLines at e1
  obtain ⟨_, -, e1⟩ := Option.bind_eq_some_iff.1 e1
  obtain ⟨_, -, e1⟩ := Option.bind_eq_some_iff.1 e1
  split_ifs at e1
  obtain ⟨s1, e2, e1⟩ := Option.bind_eq_some_iff.1 e1
  obtain ⟨s2, e3, e4⟩ := Option.bind_eq_some_iff.1 e1
  obtain ⟨n, hn⟩ := readLoop_state _ (ReadState.forReading m) e2
  exact remapIfPeriodic_state (countPresent_state hn e3) e4

end N2P2
