import Verif.Spec.DataFile
import Verif.Lemma.Reading
import Verif.Lemma.Message
import Verif.Lemma.Dataset
import Verif.Props.Message
import Verif.Props.Dataset
import Verif.Props.Prediction

/-! Reading structures out of a long file. -/

namespace N2P2

/-! ### What the reader leaves alone -/

/-- An atom with nothing but what stands in the file. -/
def Atom.Bare (a : Atom) : Prop :=
  ∃ i k t r e q f z, a = { Atom.init with
    index := i
    indexStructure := k
    tag := t
    r := r
    element := e
    chargeRef := q
    fRef := f
    numNeighborsPerElement := z }

theorem Atom.Bare.received {a : Atom} (h : a.Bare) : a.received = a := by
  obtain ⟨i, k, t, r, e, q, f, z, rfl⟩ := h
  rfl

/-- Fields which are not read. -/
structure ReadKeeps (t s : Structure) : Prop where
  index : s.index = t.index
  numElements : s.numElements = t.numElements
  sorted : s.neighborListIsSorted = t.neighborListIsSorted
  energyShort : s.energyShort = t.energyShort
  energyElec : s.energyElec = t.energyElec
  hasCharges : s.hasCharges = t.hasCharges
  radius : s.maxCutoffRadiusOverall = t.maxCutoffRadiusOverall
  lambda : s.lambda = t.lambda
  hasAMatrix : s.hasAMatrix = t.hasAMatrix
  A : s.A = t.A
  atom : ∀ a ∈ s.atoms, a.Bare ∧ a.element < s.numAtomsPerElement.length
  numAtoms : s.numAtoms = s.atoms.length
  length : s.numAtomsPerElement.length = t.numAtomsPerElement.length
  counts : s.numAtomsPerElement =
    (List.range t.numAtomsPerElement.length).map fun e => s.atoms.countP (fun a => a.element = e)

theorem ReadKeeps.start (m : EMap) (k : ℕ) :
    ReadKeeps (Structure.forReading m k) (Structure.forReading m k) := by
  refine ⟨rfl, rfl, rfl, rfl, rfl, rfl, rfl, rfl, rfl, rfl, nofun, rfl, rfl, ?_⟩
  show resizeNat (List.replicate 0 0) m.size = _
  rw [resizeNat_replicate]
  refine (List.eq_replicate_iff.2 ⟨?_, ?_⟩).symm
  · show ((List.range (resizeNat (List.replicate 0 0) m.size).length).map _).length = _
    rw [resizeNat_replicate]
    simp
  · intro b hb
    obtain ⟨e, -, rfl⟩ := List.mem_map.1 hb
    rfl

variable {N : NumberText} {m : EMap} {t s s' : Structure} {n : ℕ}

theorem ReadKeeps.begin' {words : List Str} (h : ReadKeeps t s) (e : readBegin s words = some s') :
    ReadKeeps t s' := by
  unfold readBegin at e
  induction words generalizing s with
  | nil => cases e; exact h
  | cons w ws ih =>
    rw [List.foldlM_cons] at e
    obtain ⟨u, e1, e2⟩ := Option.bind_eq_some_iff.1 e
    refine ih ?_ e2
    split_ifs at e1 <;>
    · cases e1
      exact ⟨h.1, h.2, h.3, h.4, h.5, h.6, h.7, h.8, h.9, h.10, h.11, h.12, h.13, h.14⟩

theorem ReadKeeps.comment {line : Str} (h : ReadKeeps t s) (e : readComment s line = some s') :
    ReadKeeps t s' := by
  obtain ⟨pos, -, rfl⟩ := Option.map_eq_some_iff.1 e
  exact ⟨h.1, h.2, h.3, h.4, h.5, h.6, h.7, h.8, h.9, h.10, h.11, h.12, h.13, h.14⟩

theorem ReadKeeps.lattice {words : List Str} {r : Structure × ℕ} (h : ReadKeeps t s)
    (e : readLattice N s n words = some r) : ReadKeeps t r.1 := by
  unfold readLattice at e
  by_cases hn : n < 3
  · rw [dif_pos hn] at e
    obtain ⟨a, -, e⟩ := Option.bind_eq_some_iff.1 e
    obtain ⟨b, -, e⟩ := Option.bind_eq_some_iff.1 e
    obtain ⟨c, -, e⟩ := Option.bind_eq_some_iff.1 e
    cases e
    dsimp only
    by_cases h3 : n + 1 = 3
    · rw [if_pos h3]
      exact ⟨h.1, h.2, h.3, h.4, h.5, h.6, h.7, h.8, h.9, h.10, h.11, h.12, h.13, h.14⟩
    · rw [if_neg h3]
      exact ⟨h.1, h.2, h.3, h.4, h.5, h.6, h.7, h.8, h.9, h.10, h.11, h.12, h.13, h.14⟩
  · rw [dif_neg hn] at e
    cases e

theorem ReadKeeps.readAtom {words : List Str} (h : ReadKeeps t s)
    (e : readAtom N m s words = some s') : ReadKeeps t s' := by
  unfold N2P2.readAtom at e
  obtain ⟨a1, -, e⟩ := Option.bind_eq_some_iff.1 e
  obtain ⟨a2, -, e⟩ := Option.bind_eq_some_iff.1 e
  obtain ⟨a3, -, e⟩ := Option.bind_eq_some_iff.1 e
  obtain ⟨a4, -, e⟩ := Option.bind_eq_some_iff.1 e
  obtain ⟨el, -, e⟩ := Option.bind_eq_some_iff.1 e
  obtain ⟨a5, -, e⟩ := Option.bind_eq_some_iff.1 e
  obtain ⟨a7, -, e⟩ := Option.bind_eq_some_iff.1 e
  obtain ⟨a8, -, e⟩ := Option.bind_eq_some_iff.1 e
  obtain ⟨a9, -, e⟩ := Option.bind_eq_some_iff.1 e
  obtain ⟨c, hc, e⟩ := Option.bind_eq_some_iff.1 e
  have e := Option.some.inj e
  have hel : el < s.numAtomsPerElement.length := (List.getElem?_eq_some_iff.1 hc).1
  have hel' := hel
  rw [h.length] at hel'
  have hcc : c = s.atoms.countP (fun a => a.element = el) := by
    rw [h.counts] at hc
    simpa [hel'] using hc.symm
  subst hcc
  subst e
  refine ⟨h.1, h.2, h.3, h.4, h.5, h.6, h.7, h.8, h.9, h.10, ?_, ?_, ?_, ?_⟩
  · intro a ha
    show _ ∧ _ < (s.numAtomsPerElement.set _ _).length
    rw [List.length_set]
    rcases List.mem_append.1 ha with ha | ha
    · exact h.atom a ha
    · rw [List.mem_singleton] at ha
      subst ha
      exact ⟨⟨_, _, _, _, _, _, _, _, rfl⟩, hel⟩
  · simp [h.numAtoms]
  · show (s.numAtomsPerElement.set _ _).length = _
    rw [List.length_set, h.length]
  · show s.numAtomsPerElement.set _ _ = _
    rw [h.counts]
    exact counts_set' _ s.atoms _ el rfl hel'

theorem readLoop_keeps (lines : List Str) {s s' : Structure} {n : ℕ} (h : ReadKeeps t s)
    (e : readLoop N m lines s n = some s') : ReadKeeps t s' := by
  induction lines generalizing s n with
  | nil => cases e; exact h
  | cons line lines ih =>
    cases hw : split (reduce line) with
    | nil => rw [readLoop_empty _ _ _ _ hw] at e; cases e
    | cons key ws =>
      rw [readLoop_cons _ _ _ _ _ _ _ _ hw] at e
      by_cases h1 : key = keyBegin
      · rw [if_pos h1] at e
        obtain ⟨t, e1, e2⟩ := Option.bind_eq_some_iff.1 e
        exact ih (h.begin' e1) e2
      rw [if_neg h1] at e
      by_cases h2 : key = keyComment
      · rw [if_pos h2] at e
        obtain ⟨t, e1, e2⟩ := Option.bind_eq_some_iff.1 e
        exact ih (h.comment e1) e2
      rw [if_neg h2] at e
      by_cases h3 : key = keyLattice
      · rw [if_pos h3] at e
        obtain ⟨t, e1, e2⟩ := Option.bind_eq_some_iff.1 e
        exact ih (h.lattice e1) e2
      rw [if_neg h3] at e
      by_cases h4 : key = keyAtom
      · rw [if_pos h4] at e
        obtain ⟨t, e1, e2⟩ := Option.bind_eq_some_iff.1 e
        exact ih (h.readAtom e1) e2
      rw [if_neg h4] at e
      by_cases h5 : key = keyEnergy
      · rw [if_pos h5] at e
        obtain ⟨t, e1, e2⟩ := Option.bind_eq_some_iff.1 e
        exact ih (s := { s with energyRef := N.atof t })
          ⟨h.1, h.2, h.3, h.4, h.5, h.6, h.7, h.8, h.9, h.10, h.11, h.12, h.13, h.14⟩ e2
      rw [if_neg h5] at e
      by_cases h6 : key = keyCharge
      · rw [if_pos h6] at e
        obtain ⟨t, e1, e2⟩ := Option.bind_eq_some_iff.1 e
        exact ih (s := { s with chargeRef := N.atof t })
          ⟨h.1, h.2, h.3, h.4, h.5, h.6, h.7, h.8, h.9, h.10, h.11, h.12, h.13, h.14⟩ e2
      rw [if_neg h6] at e
      by_cases h7 : key = keyEnd
      · rw [if_pos h7] at e
        unfold checkEnd at e
        split_ifs at e
        cases e
        exact h
      · rw [if_neg h7] at e
        cases e

theorem countPresent_keeps (h : ReadKeeps t s) (hl : t.numElements ≤ t.numAtomsPerElement.length)
    (e : s.countPresent = some s') : ReadKeeps t s' := by
  rw [countPresent_eq s (by rw [h.length, h.numElements]; exact hl)] at e
  cases e
  exact ⟨h.1, h.2, h.3, h.4, h.5, h.6, h.7, h.8, h.9, h.10, h.11, h.12, h.13, h.14⟩

theorem remapIfPeriodic_keeps (h : ReadKeeps t s) (e : s.remapIfPeriodic = some s') :
    ReadKeeps t s' := by
  unfold Structure.remapIfPeriodic at e
  by_cases hp : s.isPeriodic = true
  · rw [if_pos hp] at e
    unfold Structure.remap at e
    obtain ⟨atoms, e1, rfl⟩ := Option.map_eq_some_iff.1 e
    obtain ⟨hl, hm⟩ := mapM_some e1
    have hat : ∀ (i : ℕ) b, atoms[i]? = some b → ∃ a, s.atoms[i]? = some a ∧
        b = { a with r := b.r } := by
      intro i b hb
      have hi : i < s.atoms.length := by
        rw [← hl]
        exact (List.getElem?_eq_some_iff.1 hb).1
      obtain ⟨b', g1, g2⟩ := hm i _ (List.getElem?_eq_getElem hi)
      rw [hb] at g1
      cases g1
      obtain ⟨r, -, rfl⟩ := Option.map_eq_some_iff.1 g2
      exact ⟨_, List.getElem?_eq_getElem hi, rfl⟩
    refine ⟨h.1, h.2, h.3, h.4, h.5, h.6, h.7, h.8, h.9, h.10, ?_, ?_, h.13, ?_⟩
    · intro b hb
      obtain ⟨i, hi, rfl⟩ := List.getElem_of_mem hb
      obtain ⟨a, g1, g2⟩ := hat i _ (List.getElem?_eq_getElem hi)
      obtain ⟨⟨i', k, t', r, el, q, f, z, rfl⟩, h2⟩ := h.atom a (List.mem_of_getElem? g1)
      rw [g2]
      exact ⟨⟨_, _, _, _, _, _, _, _, rfl⟩, h2⟩
    · exact h.numAtoms.trans hl.symm
    · refine h.counts.trans (List.map_congr_left fun e _ => (countP_element_congr ?_ e).symm)
      apply List.ext_getElem?
      intro i
      show (atoms.map Atom.element)[i]? = _
      rw [List.getElem?_map, List.getElem?_map]
      cases hb : atoms[i]? with
      | none =>
        have : s.atoms[i]? = none := by
          rw [List.getElem?_eq_none_iff] at hb ⊢
          omega
        rw [this]
      | some b =>
        obtain ⟨a, g1, g2⟩ := hat i b hb
        rw [g1, g2]
        rfl
  · rw [if_neg hp] at e
    cases e
    exact h

theorem readFromLines_keeps {lines : List Str} {k : ℕ}
    (e : (Structure.forReading m k).readFromLines N m lines = some s) :
    ReadKeeps (Structure.forReading m k) s := by
  unfold Structure.readFromLines at e
  obtain ⟨_, -, e⟩ := Option.bind_eq_some_iff.1 e
  obtain ⟨_, -, e⟩ := Option.bind_eq_some_iff.1 e
  split_ifs at e
  obtain ⟨s1, e2, e⟩ := Option.bind_eq_some_iff.1 e
  obtain ⟨s2, e3, e4⟩ := Option.bind_eq_some_iff.1 e
  refine remapIfPeriodic_keeps (countPresent_keeps (readLoop_keeps _ (ReadKeeps.start m k) e2) ?_ e3) e4
  show m.size ≤ (resizeNat (List.replicate 0 0) m.size).length
  rw [resizeNat_replicate]
  simp

/-! ### Sections -/

theorem IsSection.count {l : List Str} (h : IsSection l) : getNumStructures l = 1 := by
  obtain ⟨b, body, e, rfl, h1, h2, h3⟩ := h
  unfold getNumStructures
  rw [List.countP_cons_of_pos (by simp [h1]), List.countP_append, List.countP_eq_zero.2,
    List.countP_cons_of_neg (by rw [h2]; decide)]
  · rfl
  · intro x hx
    obtain ⟨w, h4, h5, -⟩ := h3 x hx
    rw [h4]
    simpa using h5

theorem count_append (l l' : List Str) :
    getNumStructures (l ++ l') = getNumStructures l + getNumStructures l' :=
  List.countP_append

theorem sum_range_map (P : ℕ) (quota : ℕ → ℕ) :
    ((List.range P).map quota).sum = ∑ p ∈ Finset.range P, quota p := by
  rw [Finset.sum_range, ← List.sum_ofFn]
  congr 1
  apply List.ext_getElem <;> simp

theorem count_sections {L : List (List Str)} (h : ∀ l ∈ L, IsSection l) :
    getNumStructures L.flatten = L.length := by
  induction L with
  | nil => rfl
  | cons l L ih =>
    have h1 := (h l (by simp)).count
    have h2 := ih fun x hx => h x (by simp [hx])
    unfold getNumStructures at h1 h2 ⊢
    rw [List.flatten_cons, List.countP_append, h1, h2, List.length_cons]
    omega

theorem linesToEnd_section (rest : List Str) (e : Str) (he : firstWord e = some keyEnd) :
    ∀ L : List Str, (∀ x ∈ L, ∃ w, firstWord x = some w ∧ w ≠ keyBegin ∧ w ≠ keyEnd) →
    linesToEnd (L ++ e :: rest) = some (L ++ [e], rest) := by
  intro L
  induction L with
  | nil =>
    intro _
    show (firstWord e).bind _ = _
    rw [he]
    rfl
  | cons l L ih =>
    intro h
    obtain ⟨key, h1, -, h2⟩ := h l (by simp)
    show ((firstWord l).bind fun key => if key = keyEnd then _ else
      (linesToEnd (L ++ e :: rest)).bind fun r => some (l :: r.1, r.2)) = _
    rw [h1]
    show (if key = keyEnd then _ else (linesToEnd (L ++ e :: rest)).bind fun r =>
      some (l :: r.1, r.2)) = some (l :: L ++ [e], rest)
    rw [if_neg h2, ih (fun b hb => h b (by simp [hb]))]
    rfl

theorem readFromFile_section {l : List Str} (h : IsSection l) (t : Structure) (rest : List Str) :
    t.readFromFile N m (l ++ rest) = (t.readFromLines N m l).map fun u => (u, rest) := by
  obtain ⟨b, body, e, rfl, h1, h2, h3⟩ := h
  have hl := linesToEnd_section rest e h2 body h3
  unfold Structure.readFromFile
  show ((firstWord b).bind fun key => if key ≠ keyBegin then none else
    (linesToEnd (body ++ [e] ++ rest)).bind fun r =>
      (t.readFromLines N m (b :: r.1)).bind fun u => some (u, r.2)) = _
  rw [h1, List.append_assoc]
  show (if keyBegin ≠ keyBegin then none else (linesToEnd (body ++ e :: rest)).bind fun r =>
      (t.readFromLines N m (b :: r.1)).bind fun u => some (u, r.2)) = _
  rw [if_neg (by simp), hl]
  show (t.readFromLines N m (b :: (body ++ [e]))).bind _ = _
  cases t.readFromLines N m (b :: (body ++ [e])) <;> rfl

/-! ### One step -/

theorem zip_counts (offs : List ℝ) (L : List Atom) (h : ∀ a ∈ L, a.element < offs.length) :
    ((List.zip ((List.range offs.length).map fun e => L.countP (fun a => a.element = e)) offs).map
      fun q => (q.1 : ℝ) * q.2).sum = (L.map fun a => offs.getD a.element 0).sum := by
  have e1 : ∀ c : ℕ → ℕ, ((List.zip ((List.range offs.length).map c) offs).map
      fun q => (q.1 : ℝ) * q.2).sum = ∑ i ∈ Finset.range offs.length, (c i : ℝ) * offs.getD i 0 := by
    intro c
    rw [Finset.sum_range, ← List.sum_ofFn]
    congr 1
    apply List.ext_getElem
    · simp
    · intro i h1 h2
      simp
  rw [e1]
  induction L with
  | nil => simp
  | cons a L ih =>
    rw [List.map_cons, List.sum_cons, ← ih fun b hb => h b (by simp [hb])]
    have h1 : ∀ i ∈ Finset.range offs.length, ((List.countP (fun a => decide (a.element = i)) (a :: L) : ℕ) : ℝ) *
        offs.getD i 0 = (if i = a.element then offs.getD i 0 else 0) +
          ((L.countP (fun a => decide (a.element = i)) : ℕ) : ℝ) * offs.getD i 0 := by
      intro i _
      rw [List.countP_cons]
      by_cases hi : a.element = i
      · rw [if_pos hi.symm, if_pos (by simpa using hi)]
        push_cast
        ring
      · rw [if_neg (Ne.symm hi), if_neg (by simpa using hi)]
        push_cast
        ring
    rw [Finset.sum_congr rfl h1, Finset.sum_add_distrib, Finset.sum_ite_eq',
      if_pos (Finset.mem_range.2 (h a (by simp)))]

variable {Byte : Type} {D : DataSetup Byte}

theorem size_forReading (m : EMap) (k : ℕ) : (Structure.forReading m k).numAtomsPerElement.length = m.size := by
  show (resizeNat (List.replicate 0 0) m.size).length = _
  rw [resizeNat_replicate]
  simp

theorem removeOffset_read (hD : D.Sane) {l : List Str} {k : ℕ} {u : Structure}
    (e : (Structure.forReading D.m k).readFromLines D.N D.m l = some u) :
    removeEnergyOffset D.offs u true =
      some { u with energyRef := u.energyRef - u.offsetSum D.offs } := by
  have hk := readFromLines_keeps e
  have hl : u.numAtomsPerElement.length = D.offs.length := by
    rw [hk.length, size_forReading, hD.offs]
  rw [(addOffset_eq D.offs u (by omega)).2.2, hk.counts, ← hk.length, hl, zip_counts]
  · rfl
  · intro a ha
    have := (hk.atom a ha).2
    omega

theorem received_eq {s t : Structure} (h3 : t.neighborListIsSorted = s.neighborListIsSorted)
    (h4 : t.energyShort = s.energyShort) (h5 : t.energyElec = s.energyElec)
    (h6 : t.hasCharges = s.hasCharges)
    (h7 : t.maxCutoffRadiusOverall = s.maxCutoffRadiusOverall) (h8 : t.lambda = s.lambda)
    (h9 : t.hasAMatrix = s.hasAMatrix) (h10 : t.A = s.A)
    (ha : s.atoms.map Atom.received = s.atoms) : s.received t = s := by
  unfold Structure.received
  rw [h3, h4, h5, h6, h7, h8, h9, h10, ha]

theorem give_eq (hD : D.Sane) {l : List Str} {rest : List Str} (hl : D.Readable l) (s : FileState)
    (hs : s.file = l ++ rest) (p : ℕ) :
    ∃ v, D.Holds l s.count v ∧ v.index = s.count ∧ s.give D p = some
      { held := Function.update s.held p (s.held p ++ [v])
        perProc := Function.update s.perProc p (s.perProc p + 1)
        count := s.count + 1
        file := rest } := by
  obtain ⟨h1, h2⟩ := hl
  obtain ⟨u, e, hc, hb⟩ := h2 s.count
  have hk := readFromLines_keeps e
  refine ⟨{ u with energyRef := u.energyRef - u.offsetSum D.offs }, ⟨u, e, rfl⟩, hk.index, ?_⟩
  unfold FileState.give
  rw [hs]
  have e0 : ({ Structure.init.setElementMap D.m with index := s.count } : Structure).readFromFile
      D.N D.m (l ++ rest) = some (u, rest) := by
    refine (readFromFile_section h1 (Structure.forReading D.m s.count) rest).trans ?_
    rw [e]
    rfl
  rw [e0]
  show (removeEnergyOffset D.offs u true).bind _ = _
  rw [removeOffset_read hD e]
  set v : Structure := { u with energyRef := u.energyRef - u.offsetSum D.offs } with hv
  show (deliver D p v).bind _ = _
  have key : deliver D p v = some v := by
    unfold deliver
    by_cases hp : p = 0
    · rw [if_pos hp]
    · rw [if_neg hp]
      obtain ⟨buf, b1, -, b3⟩ := C52_roundtrip_partial D.F D.machine v
        (Structure.init.setElementMap D.m) hD.machine hb hc
        (fun h => by
          have h3 : u.numAtomsPerElement.length = D.m.size := by
            rw [hk.length, size_forReading]
          have h4 : (Structure.init.setElementMap D.m).numAtomsPerElement.length = D.m.size :=
            size_forReading D.m 0
          rw [show u.numAtomsPerElement = [] from h] at h3
          apply List.eq_nil_of_length_eq_zero
          rw [h4, ← h3]
          rfl)
        (fun _ => rfl)
      show (sendStructure D.F D.machine v).bind _ = _
      rw [b1]
      show recvStructure D.F D.machine (Structure.init.setElementMap D.m) buf = some v
      rw [b3]
      refine congrArg some (received_eq hk.sorted.symm hk.energyShort.symm hk.energyElec.symm
        hk.hasCharges.symm hk.radius.symm hk.lambda.symm hk.hasAMatrix.symm hk.A.symm ?_)
      exact (List.map_congr_left fun a ha => (hk.atom a ha).1.received).trans (List.map_id _)
  rw [key]
  rfl

/-! ### Both loops follow the numbers -/

/-- The file state belongs to the state of the numbers. -/
structure Follows (D : DataSetup Byte) (L : List (List Str)) (Z : List Str) (d : DistState) (s : FileState) :
    Prop where
  count : s.count = d.count
  perProc : s.perProc = d.perProc
  file : s.file = (L.drop d.count).flatten ++ Z
  held : ∀ p, List.Forall₂ (fun k v => v.index = k ∧ ∃ l, L[k]? = some l ∧ D.Holds l k v)
    (d.held p) (s.held p)

variable {L : List (List Str)} {Z : List Str}

theorem Follows.give (hD : D.Sane) (hL : ∀ l ∈ L, D.Readable l) {d : DistState} {s : FileState}
    (h : Follows D L Z d s) (hc : d.count < L.length) (p : ℕ) :
    ∃ s', s.give D p = some s' ∧ Follows D L Z (d.give p) s' := by
  have e : s.file = L[d.count] ++ ((L.drop (d.count + 1)).flatten ++ Z) := by
    rw [h.file, List.drop_eq_getElem_cons hc, List.flatten_cons, List.append_assoc]
  obtain ⟨v, h1, h2, h3⟩ := give_eq hD (hL _ (List.getElem_mem hc)) s e p
  refine ⟨_, h3, ?_, ?_, rfl, ?_⟩
  · show s.count + 1 = d.count + 1
    rw [h.count]
  · show Function.update s.perProc p (s.perProc p + 1) = _
    rw [h.perProc]
    rfl
  · intro q
    show List.Forall₂ _ (Function.update d.held p (d.held p ++ [d.count]) q)
      (Function.update s.held p (s.held p ++ [v]) q)
    by_cases hq : q = p
    · subst hq
      rw [Function.update_self, Function.update_self]
      refine List.rel_append (h.held q) (.cons ⟨?_, _, List.getElem?_eq_getElem hc, ?_⟩ .nil)
      · rw [h2, h.count]
      · rw [h.count] at h1
        exact h1
    · rw [Function.update_of_ne hq, Function.update_of_ne hq]
      exact h.held q

theorem follows_random (hD : D.Sane) (hL : ∀ l ∈ L, D.Readable l) (quota : ℕ → ℕ) (ds : List ℕ) :
    ∀ {d d' : DistState} {s : FileState}, Follows D L Z d s →
      distributeRandom L.length quota ds d = some d' →
      ∃ s', fileRandom D L.length quota ds s = .ok s' ∧ Follows D L Z d' s' := by
  induction ds with
  | nil =>
    intro d d' s h e
    unfold distributeRandom at e
    unfold fileRandom
    rw [h.count]
    split_ifs at e with hc
    cases e
    exact ⟨s, if_neg hc, h⟩
  | cons p ds ih =>
    intro d d' s h e
    unfold distributeRandom at e
    unfold fileRandom
    rw [h.count, h.perProc]
    by_cases hc : d.count < L.length
    · rw [if_pos hc] at e ⊢
      by_cases hq : d.perProc p < quota p
      · rw [if_pos hq] at e ⊢
        obtain ⟨s', e1, h1⟩ := h.give hD hL hc p
        rw [e1]
        exact ih h1 e
      · rw [if_neg hq] at e ⊢
        exact ih h e
    · rw [if_neg hc] at e ⊢
      cases e
      exact ⟨s, rfl, h⟩

theorem follows_inner (hD : D.Sane) (hL : ∀ l ∈ L, D.Readable l) (p : ℕ) : ∀ (K : List ℕ)
    {d : DistState} {s : FileState}, Follows D L Z d s → d.count + K.length ≤ L.length →
      ∃ s', K.foldlM (fun s _ => s.give D p) s = some s' ∧
        Follows D L Z (K.foldl (fun d _ => d.give p) d) s' ∧
        (K.foldl (fun d _ => d.give p) d).count = d.count + K.length := by
  intro K
  induction K with
  | nil => exact fun h _ => ⟨_, rfl, h, rfl⟩
  | cons x K ih =>
    intro d s h hc
    rw [List.length_cons] at hc
    obtain ⟨s1, e1, h1⟩ := h.give hD hL (by omega) p
    obtain ⟨s2, e2, h2, h3⟩ := ih h1 (by show d.count + 1 + _ ≤ _; omega)
    refine ⟨s2, ?_, h2, ?_⟩
    · rw [List.foldlM_cons, e1]
      exact e2
    · rw [List.foldl_cons, h3, List.length_cons]
      show d.count + 1 + _ = _
      omega

theorem follows_outer (hD : D.Sane) (hL : ∀ l ∈ L, D.Readable l) (quota : ℕ → ℕ) : ∀ (K : List ℕ)
    {d : DistState} {s : FileState}, Follows D L Z d s →
      d.count + (K.map quota).sum ≤ L.length →
      ∃ s', K.foldlM (fun s p => (List.range (quota p)).foldlM (fun s _ => s.give D p) s) s =
          some s' ∧
        Follows D L Z (K.foldl (fun d p => (List.range (quota p)).foldl (fun d _ => d.give p) d) d)
          s' := by
  intro K
  induction K with
  | nil => exact fun h _ => ⟨_, rfl, h⟩
  | cons p K ih =>
    intro d s h hc
    rw [List.map_cons, List.sum_cons] at hc
    obtain ⟨s1, e1, h1, h2⟩ := follows_inner hD hL p (List.range (quota p)) h
      (by rw [List.length_range]; omega)
    rw [List.length_range] at h2
    obtain ⟨s2, e2, h3⟩ := ih h1 (by rw [h2]; omega)
    refine ⟨s2, ?_, h3⟩
    rw [List.foldlM_cons, e1]
    exact e2

/-- The whole distribution follows the numbers. -/
theorem follows_distribute (hD : D.Sane) (hL : ∀ l ∈ L, D.Readable l) (P : ℕ) (hP : 0 < P)
    (randomize excl : Bool) (draws : List ℕ) {d : DistState} (hZ : getNumStructures Z = 0)
    (h : distributeStructures L.length P randomize excl draws = .ok (some d)) :
    ∃ s, distributeFile D P randomize excl draws (L.flatten ++ Z) = .ok s ∧ Follows D L Z d s := by
  have h0 : Follows D L Z DistState.init (FileState.start (L.flatten ++ Z)) :=
    ⟨rfl, rfl, rfl, fun _ => .nil⟩
  unfold distributeStructures at h
  unfold distributeFile
  rw [count_append, hZ, count_sections fun l hl => (hL l hl).1, Nat.add_zero]
  cases hq : structuresPerProc L.length P excl with
  | error e => rw [hq] at h; cases h
  | ok quota =>
    rw [hq] at h
    injection h with h
    dsimp only
    cases randomize with
    | true =>
      rw [if_pos rfl] at h ⊢
      exact follows_random hD hL quota draws h0 h
    | false =>
      rw [if_neg (by simp)] at h ⊢
      have hs := sum_quota L.length P excl quota hq hP
      have hs' := (sum_range_map P quota).trans hs
      obtain ⟨s, e1, e2⟩ := follows_outer hD hL quota (List.range P) h0
        (by rw [hs']; show 0 + _ ≤ _; omega)
      cases h
      refine ⟨s, ?_, e2⟩
      unfold fileOrdered
      rw [e1]

/-! ### A blank line between the structures -/

theorem foldlM_option_inv {α σ : Type} (Q : σ → Prop) (f : σ → α → Option σ)
    (h : ∀ s a s', Q s → f s a = some s' → Q s') : ∀ (l : List α) (s s' : σ), Q s →
    l.foldlM f s = some s' → Q s' := by
  intro l
  induction l with
  | nil =>
    intro s s' hs e
    cases e
    exact hs
  | cons a l ih =>
    intro s s' hs e
    rw [List.foldlM_cons] at e
    obtain ⟨s1, e1, e2⟩ := Option.bind_eq_some_iff.1 e
    exact ih s1 s' (h s a s1 hs e1) e2

/-- Reading cannot get past the structures in front of the blank line. -/
structure Stuck (L : List (List Str)) (Z : List Str) (s : FileState) : Prop where
  count : s.count ≤ L.length
  file : s.file = (L.drop s.count).flatten ++ Z

theorem give_count {s s' : FileState} {p : ℕ} (e : s.give D p = some s') :
    s'.count = s.count + 1 := by
  unfold FileState.give at e
  obtain ⟨r, -, e⟩ := Option.bind_eq_some_iff.1 e
  obtain ⟨u, -, e⟩ := Option.bind_eq_some_iff.1 e
  obtain ⟨v, -, e⟩ := Option.bind_eq_some_iff.1 e
  cases e
  rfl

theorem Stuck.give {b : Str} (hb : firstWord b = none) (hL : ∀ l ∈ L, IsSection l)
    {s s' : FileState} {p : ℕ} (h : Stuck L (b :: Z) s) (e : s.give D p = some s') :
    Stuck L (b :: Z) s' := by
  have hcount := give_count e
  unfold FileState.give at e
  obtain ⟨r, e0, e⟩ := Option.bind_eq_some_iff.1 e
  obtain ⟨u, -, e⟩ := Option.bind_eq_some_iff.1 e
  obtain ⟨v, -, e⟩ := Option.bind_eq_some_iff.1 e
  cases e
  by_cases hc : s.count < L.length
  · have e1 : s.file = L[s.count] ++ ((L.drop (s.count + 1)).flatten ++ b :: Z) := by
      rw [h.file, List.drop_eq_getElem_cons hc, List.flatten_cons, List.append_assoc]
    rw [e1, readFromFile_section (hL _ (List.getElem_mem hc))] at e0
    obtain ⟨u', -, rfl⟩ := Option.map_eq_some_iff.1 e0
    exact ⟨hc, rfl⟩
  · have e1 : s.file = b :: Z := by
      rw [h.file, List.drop_eq_nil_of_le (by omega)]
      rfl
    rw [e1] at e0
    unfold Structure.readFromFile at e0
    obtain ⟨line, e2, e0⟩ := Option.bind_eq_some_iff.1 e0
    cases e2
    change (firstWord b).bind _ = _ at e0
    rw [hb] at e0
    cases e0

theorem stuck_random {b : Str} (hb : firstWord b = none) (hL : ∀ l ∈ L, IsSection l) (n : ℕ)
    (quota : ℕ → ℕ) (ds : List ℕ) : ∀ {s s' : FileState}, Stuck L (b :: Z) s →
      fileRandom D n quota ds s = .ok s' → Stuck L (b :: Z) s' ∧ ¬ s'.count < n := by
  induction ds with
  | nil =>
    intro s s' h e
    unfold fileRandom at e
    split_ifs at e with hc
    cases e
    exact ⟨h, hc⟩
  | cons p ds ih =>
    intro s s' h e
    unfold fileRandom at e
    by_cases hc : s.count < n
    · rw [if_pos hc] at e
      by_cases hq : s.perProc p < quota p
      · rw [if_pos hq] at e
        cases e1 : s.give D p with
        | none => rw [e1] at e; cases e
        | some s1 =>
          rw [e1] at e
          exact ih (h.give hb hL e1) e
      · rw [if_neg hq] at e
        exact ih h e
    · rw [if_neg hc] at e
      cases e
      exact ⟨h, hc⟩

theorem inner_count {p : ℕ} : ∀ (K : List ℕ) {s s' : FileState},
    K.foldlM (fun s _ => s.give D p) s = some s' → s'.count = s.count + K.length := by
  intro K
  induction K with
  | nil =>
    intro s s' e
    cases e
    rfl
  | cons x K ih =>
    intro s s' e
    rw [List.foldlM_cons] at e
    obtain ⟨s1, e1, e2⟩ := Option.bind_eq_some_iff.1 e
    rw [ih e2, give_count e1, List.length_cons]
    omega

theorem outer_count {quota : ℕ → ℕ} : ∀ (K : List ℕ) {s s' : FileState},
    K.foldlM (fun s p => (List.range (quota p)).foldlM (fun s _ => s.give D p) s) s = some s' →
    s'.count = s.count + (K.map quota).sum := by
  intro K
  induction K with
  | nil =>
    intro s s' e
    cases e
    rfl
  | cons p K ih =>
    intro s s' e
    rw [List.foldlM_cons] at e
    obtain ⟨s1, e1, e2⟩ := Option.bind_eq_some_iff.1 e
    rw [ih e2, inner_count _ e1, List.length_range, List.map_cons, List.sum_cons]
    omega

end N2P2
