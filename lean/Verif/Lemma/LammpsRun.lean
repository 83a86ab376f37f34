import Verif.Lemma.LammpsAtom

/-! Local atoms and neighbour lists received from LAMMPS. -/

namespace N2P2

namespace Lammps

/-- The atoms which are not ignored among the first `m`. -/
def kept (L : Lammps) (D : Domain) (m : ℕ) : List ℕ :=
  (List.range m).filter fun i => (L.elementOf D i).isSome

/-- The new atom for LAMMPS atom `i`. -/
def baseAtom (L : Lammps) (D : Domain) (i : ℕ) : Atom :=
  { Atom.init with
    index := i
    indexStructure := L.myRank
    element := (L.elementOf D i).getD 0
    numNeighborsPerElement := List.replicate L.mode.elements.length 0 }

/-- The interface when the first `m` local atoms have been entered. -/
def afterAtoms (L : Lammps) (D : Domain) (m : ℕ) : Lammps :=
  { L with
    indexMap := (List.range D.nlocal).map fun i =>
      if i < m ∧ (L.elementOf D i).isSome then some (L.kept D i).length else none
    structure' := { L.structure' with
      numAtomsPerElement := (List.range L.mode.elements.length).map fun e =>
        (L.kept D m).countP fun i => (L.elementOf D i).getD 0 = e
      index := L.myRank
      numAtoms := (L.kept D m).length
      hasNeighborList := false
      hasSymmetryFunctions := false
      hasSymmetryFunctionDerivatives := false
      energy := 0
      atoms := (L.kept D m).map (L.baseAtom D) } }

variable {L : Lammps} {D : Domain} {P : Potential} {n : ℕ} {rc : ℝ}

theorem kept_succ (m : ℕ) : L.kept D (m + 1) =
    L.kept D m ++ if (L.elementOf D m).isSome then [m] else [] := by
  unfold kept
  rw [List.range_succ, List.filter_append]
  congr 1
  rw [List.filter_cons]
  simp

theorem mem_kept {m i : ℕ} : i ∈ L.kept D m ↔ i < m ∧ (L.elementOf D i).isSome := by
  simp [kept]

theorem kept_nodup (m : ℕ) : (L.kept D m).Nodup := List.nodup_range.filter _

theorem kept_get {m i : ℕ} (hi : i < m) (he : (L.elementOf D i).isSome) :
    (L.kept D m)[(L.kept D i).length]? = some i := by
  induction m with
  | zero => omega
  | succ m ih =>
    rw [kept_succ]
    by_cases h : i = m
    · subst h
      rw [if_pos he]
      simp
    · have := ih (by omega)
      rw [List.getElem?_append_left (List.getElem?_eq_some_iff.1 this).1]
      exact this

theorem addLocalAtom_eq (hT : ∀ t e, L.typeToElement t = some e → e < L.mode.elements.length)
    {m : ℕ} (hm : m < D.nlocal) (hlen : m < D.type.length) :
    addLocalAtom D.type (L.afterAtoms D m) m = some (L.afterAtoms D (m + 1)) := by
  have htype : D.type[m]? = some D.type[m] := List.getElem?_eq_getElem hlen
  have hel : L.elementOf D m = L.typeToElement D.type[m] := by
    unfold elementOf
    rw [htype]
    rfl
  unfold addLocalAtom
  rw [htype]
  simp only [Option.bind_eq_bind, Option.bind_some]
  have hmap : (L.afterAtoms D (m + 1)).indexMap = if (L.elementOf D m).isSome then
      (L.afterAtoms D m).indexMap.set m (some (L.kept D m).length)
      else (L.afterAtoms D m).indexMap := by
    refine List.ext_getElem (by split <;> simp [afterAtoms]) fun i h1 h2 => ?_
    have hi : i < D.nlocal := by simpa [afterAtoms] using h1
    by_cases hs : (L.elementOf D m).isSome
    · simp only [if_pos hs, List.getElem_set]
      by_cases him : m = i
      · subst him
        simp [afterAtoms, hs]
      · simp only [afterAtoms, List.getElem_map, List.getElem_range, if_neg him]
        have : i < m + 1 ↔ i < m := by omega
        simp only [this]
    · simp only [if_neg hs]
      simp only [afterAtoms, List.getElem_map, List.getElem_range]
      by_cases him : i = m
      · subst him
        simp [hs]
      · have : i < m + 1 ↔ i < m := by omega
        simp only [this]
  cases he : L.typeToElement D.type[m] with
  | none =>
    have hs : ¬ (L.elementOf D m).isSome := by rw [hel, he]; simp
    rw [show (L.afterAtoms D m).typeToElement D.type[m] = none from he]
    have hk : L.kept D (m + 1) = L.kept D m := by rw [kept_succ, if_neg hs, List.append_nil]
    rw [if_neg hs] at hmap
    show some (L.afterAtoms D m) = _
    congr 1
    have hmap' : (List.range D.nlocal).map (fun i => if i < m + 1 ∧ (L.elementOf D i).isSome then
        some (L.kept D i).length else none) = (List.range D.nlocal).map (fun i =>
        if i < m ∧ (L.elementOf D i).isSome then some (L.kept D i).length else none) := hmap
    unfold afterAtoms
    rw [hk, hmap']
  | some e =>
    have hs : (L.elementOf D m).isSome := by rw [hel, he]; simp
    have hd : (L.elementOf D m).getD 0 = e := by rw [hel, he]; rfl
    have hk : L.kept D (m + 1) = L.kept D m ++ [m] := by rw [kept_succ, if_pos hs]
    have hlt := hT _ _ he
    rw [if_pos hs] at hmap
    rw [show (L.afterAtoms D m).typeToElement D.type[m] = some e from he]
    have hc : (L.afterAtoms D m).structure'.numAtomsPerElement[e]? =
        some ((L.kept D m).countP fun i => (L.elementOf D i).getD 0 = e) := by
      simp [afterAtoms, hlt]
    simp only [hc, Option.bind_some]
    rw [if_neg (by simp [afterAtoms]; omega)]
    congr 1
    have hcount : (L.afterAtoms D m).structure'.numAtomsPerElement.set e
        (((L.kept D m).countP fun i => (L.elementOf D i).getD 0 = e) + 1) =
        (L.afterAtoms D (m + 1)).structure'.numAtomsPerElement := by
      refine List.ext_getElem (by simp [afterAtoms]) fun i h1 h2 => ?_
      rw [List.getElem_set]
      by_cases hi : e = i
      · subst hi
        simp [afterAtoms, hk, hd]
      · simp [afterAtoms, hk, hd, hi]
    have hatoms : (L.afterAtoms D m).structure'.atoms ++ [{ Atom.init with
          index := m
          indexStructure := L.myRank
          element := e
          numNeighborsPerElement := List.replicate L.mode.elements.length 0 }] =
        (L.afterAtoms D (m + 1)).structure'.atoms := by
      simp [afterAtoms, hk, baseAtom, hd]
    have hnum : (L.afterAtoms D m).structure'.numAtoms + 1 =
        (L.afterAtoms D (m + 1)).structure'.numAtoms := by
      simp [afterAtoms, hk]
    show ({ L.afterAtoms D m with
      indexMap := (L.afterAtoms D m).indexMap.set m (some (L.kept D m).length)
      structure' := { (L.afterAtoms D m).structure' with
        numAtoms := (L.afterAtoms D m).structure'.numAtoms + 1
        numAtomsPerElement := (L.afterAtoms D m).structure'.numAtomsPerElement.set e
          (((L.kept D m).countP fun i => (L.elementOf D i).getD 0 = e) + 1)
        atoms := (L.afterAtoms D m).structure'.atoms ++ [{ Atom.init with
          index := m
          indexStructure := L.myRank
          element := e
          numNeighborsPerElement := List.replicate L.mode.elements.length 0 }] } } : Lammps) = _
    rw [← hmap, hcount, hatoms, hnum]
    rfl

theorem setLocalAtoms_eq (hT : ∀ t e, L.typeToElement t = some e → e < L.mode.elements.length)
    (hc : L.structure'.numAtomsPerElement.length = L.mode.elements.length)
    (hl : D.nlocal ≤ D.type.length) :
    L.setLocalAtoms D.nlocal D.type = some (L.afterAtoms D D.nlocal) := by
  unfold setLocalAtoms
  rw [if_neg (by omega)]
  have h0 : ({ L with
      indexMap := List.replicate D.nlocal none
      structure' := { L.structure' with
        numAtomsPerElement := List.replicate L.mode.elements.length 0 ++
          L.structure'.numAtomsPerElement.drop L.mode.elements.length
        index := L.myRank
        numAtoms := 0
        hasNeighborList := false
        hasSymmetryFunctions := false
        hasSymmetryFunctionDerivatives := false
        energy := 0
        atoms := [] } } : Lammps) = L.afterAtoms D 0 := by
    rw [← hc, List.drop_length, List.append_nil, hc]
    have e1 : (List.range D.nlocal).map (fun i => if i < 0 ∧ (L.elementOf D i).isSome then
        some (L.kept D i).length else none) = List.replicate D.nlocal none := by
      simp [List.map_const']
    have e2 : (List.range L.mode.elements.length).map (fun e =>
        (L.kept D 0).countP fun i => (L.elementOf D i).getD 0 = e) =
        List.replicate L.mode.elements.length 0 := by
      simp [kept, List.map_const']
    unfold afterAtoms
    rw [e1, e2]
    rfl
  rw [h0]
  have key : ∀ m ≤ D.nlocal, (List.range m).foldlM (addLocalAtom D.type) (L.afterAtoms D 0) =
      some (L.afterAtoms D m) := by
    intro m
    induction m with
    | zero => intro _; rfl
    | succ m ih =>
      intro hm
      rw [List.range_succ, List.foldlM_append, ih (by omega)]
      show List.foldlM (addLocalAtom D.type) (L.afterAtoms D m) [m] = _
      rw [List.foldlM_cons, addLocalAtom_eq hT (by omega) (by omega)]
      rfl
  exact key _ le_rfl

/-- Tags are entered without further changes. -/
theorem setLocalTags_eq (L : Lammps) (tag : List ℤ) (h : L.structure'.atoms.length ≤ tag.length) :
    ∃ atoms : List Atom, L.setLocalTags tag =
        some { L with structure' := { L.structure' with atoms := atoms } } ∧
      atoms.length = L.structure'.atoms.length ∧
      ∀ (k : ℕ) a, L.structure'.atoms[k]? = some a →
        atoms[k]? = some { a with tag := tag.getD k 0 } := by
  have hm : L.structure'.atoms.zipIdx.mapM (fun p => do
      let t ← tag[p.2]?
      some { p.1 with tag := t }) =
      some (L.structure'.atoms.zipIdx.map fun p => { p.1 with tag := tag.getD p.2 0 }) := by
    refine mapM_eq_map fun p hp => ?_
    have := (List.getElem?_eq_some_iff.1 (List.mem_zipIdx_iff_getElem?.1 hp)).1
    have hlt : p.2 < tag.length := by omega
    simp [hlt]
  refine ⟨L.structure'.atoms.zipIdx.map fun p => { p.1 with tag := tag.getD p.2 0 }, ?_, ?_, ?_⟩
  · unfold setLocalTags
    rw [hm]
    rfl
  · simp
  · intro k a hk
    simp [hk]

/-! ### Neighbours -/

theorem length_eq (L : Lammps) (v : ℝ) : L.length v = L.lengthUnit * v := by
  unfold length lengthUnit
  split <;> ring

/-- The neighbour entered for atom `j` in the list of atom `i`. -/
noncomputable def newNeighbor (L : Lammps) (D : Domain) (i j : ℕ) : Neighbor where
  index := j
  tag := D.tag.getD j 0
  element := (L.elementOf D j).getD 0
  d := L.lengthUnit * (D.position i - D.position j).norm
  dr := L.lengthUnit • (D.position i - D.position j)
  cache := []
  dGdr := []

open Classical in
/-- Atoms which are entered in the list of atom `i`. -/
noncomputable def near (L : Lammps) (D : Domain) (rc : ℝ) (i : ℕ) (js : List ℕ) : List ℕ :=
  js.filter fun j => (L.elementOf D j).isSome ∧ (D.position i - D.position j).norm2 ≤ rc * rc

/-- The lists hold the neighbours `J i` of each local atom `i`, everything else is as in `L1`. -/
structure Filled (L L1 : Lammps) (D : Domain) (J : ℕ → List ℕ) (L' : Lammps) : Prop where
  rest : L' = { L1 with structure' := { L1.structure' with atoms := L'.structure'.atoms } }
  length : L'.structure'.atoms.length = L1.structure'.atoms.length
  atom : ∀ i < D.nlocal, ∀ k, L1.indexMap[i]? = some (some k) → ∃ a0 a,
    L1.structure'.atoms[k]? = some a0 ∧ L'.structure'.atoms[k]? = some a ∧
    a.numNeighborsPerElement.length = a0.numNeighborsPerElement.length ∧
    a = { a0 with
      numNeighbors := (J i).length
      numNeighborsPerElement := a.numNeighborsPerElement
      neighbors := (J i).map (L.newNeighbor D i) }

/-- The interface before the transfer of neighbour lists. -/
structure Entered (L : Lammps) (D : Domain) (L1 : Lammps) : Prop where
  type : L1.typeToElement = L.typeToElement
  unit : L1.lengthUnit = L.lengthUnit
  map : ∀ i < D.nlocal, L1.indexMap[i]? = some (if (L.elementOf D i).isSome then
    some (L.kept D i).length else none)
  atom : ∀ i < D.nlocal, (L.elementOf D i).isSome → ∃ a0, 
    L1.structure'.atoms[(L.kept D i).length]? = some a0 ∧
    a0.numNeighborsPerElement.length = L.mode.elements.length ∧ a0.numNeighbors = 0 ∧
    a0.neighbors = []

variable {L1 L' : Lammps}

theorem kept_inj {i j : ℕ} (hi : (L.elementOf D i).isSome) (hj : (L.elementOf D j).isSome)
    (h : (L.kept D i).length = (L.kept D j).length) : i = j := by
  have h1 := kept_get (L := L) (D := D) (m := max i j + 1) (by omega) hi
  have h2 := kept_get (L := L) (D := D) (m := max i j + 1) (by omega) hj
  rw [h, h2] at h1
  exact (Option.some.inj h1).symm

theorem set_atoms {as0 : List Atom}
    (h : L' = { L1 with structure' := { L1.structure' with atoms := as0 } }) (as : List Atom) :
    ({ L' with structure' := { L'.structure' with atoms := as } } : Lammps) =
      { L1 with structure' := { L1.structure' with atoms := as } } := by
  subst h
  rfl

theorem transferNeighbor_eq (hT : ∀ t e, L.typeToElement t = some e → e < L.mode.elements.length)
    (h1 : Entered L D L1) {J : ℕ → List ℕ} (hJ : Filled L L1 D J L') (hD : Lists D rc) {i j : ℕ}
    (hi : i < D.nlocal) (hj : j < D.x.length) :
    ∃ L'', transferNeighbor D (rc * rc) i L' j = some L'' ∧
      Filled L L1 D (fun i' => if i' = i then J i ++ L.near D rc i [j] else J i') L'' := by
  classical
  have hpos : ∀ i < D.x.length, D.x[i]? = some (D.position i) := by
    intro i hi
    simp [Domain.position, hi]
  have hx : i < D.x.length := lt_of_lt_of_le hi hD.local_le
  unfold transferNeighbor
  rw [hpos i hx, hpos j hj]
  simp only [Option.bind_eq_bind, Option.bind_some]
  have hskip : L.near D rc i [j] = [] ∨ ¬ (L.elementOf D i).isSome →
      Filled L L1 D (fun i' => if i' = i then J i ++ L.near D rc i [j] else J i') L' := by
    rintro (h | h)
    · have : (fun i' => if i' = i then J i ++ L.near D rc i [j] else J i') = J := by
        funext i'
        by_cases e : i' = i
        · rw [if_pos e, h, List.append_nil, e]
        · rw [if_neg e]
      rw [this]; exact hJ
    · refine ⟨hJ.rest, hJ.length, fun i' hi' k hk => ?_⟩
      have : i' ≠ i := by
        rintro rfl
        rw [h1.map i' hi', if_neg h] at hk
        simp at hk
      obtain ⟨a0, a, g⟩ := hJ.atom i' hi' k hk
      refine ⟨a0, a, ?_⟩
      rw [if_neg this]; exact g
  have hd2 : (D.position i - D.position j) 0 * (D.position i - D.position j) 0 +
      (D.position i - D.position j) 1 * (D.position i - D.position j) 1 +
      (D.position i - D.position j) 2 * (D.position i - D.position j) 2 =
      (D.position i - D.position j).norm2 := rfl
  rw [hd2]
  by_cases hle : (D.position i - D.position j).norm2 ≤ rc * rc
  swap
  · rw [if_neg hle]
    exact ⟨L', rfl, hskip (Or.inl (by simp [near, hle]))⟩
  rw [if_pos hle, List.getElem?_eq_getElem (by rw [hD.tags]; exact hj),
    List.getElem?_eq_getElem (by rw [hD.types]; exact hj)]
  simp only [Option.bind_some]
  have htj : L.elementOf D j = L.typeToElement (D.type[j]'(by rw [hD.types]; exact hj)) := by
    unfold elementOf
    rw [List.getElem?_eq_getElem (by rw [hD.types]; exact hj)]
    rfl
  have ht' : L'.typeToElement = L.typeToElement := by rw [hJ.rest]; exact h1.type
  have hmap' : L'.indexMap = L1.indexMap := by rw [hJ.rest]
  unfold addNeighbor
  rw [show L'.typeToElement (D.type[j]'(by rw [hD.types]; exact hj)) = L.elementOf D j by
    rw [ht', htj]]
  cases he : L.elementOf D j with
  | none => exact ⟨L', rfl, hskip (Or.inl (by simp [near, he]))⟩
  | some e =>
    have hnear : L.near D rc i [j] = [j] := by simp [near, he, hle]
    have hlt : e < L.mode.elements.length := hT _ _ (htj ▸ he)
    simp only
    rw [show L'.indexMap[i]? = some (if (L.elementOf D i).isSome then
      some (L.kept D i).length else none) by rw [hmap', h1.map i hi]]
    by_cases hs : (L.elementOf D i).isSome
    swap
    · rw [if_neg hs]
      exact ⟨L', rfl, hskip (Or.inr hs)⟩
    rw [if_pos hs]
    have hk : L1.indexMap[i]? = some (some (L.kept D i).length) := by
      rw [h1.map i hi, if_pos hs]
    obtain ⟨a0, a, g1, g2, g3, g4⟩ := hJ.atom i hi _ hk
    obtain ⟨a0', f1, f2, -⟩ := h1.atom i hi hs
    rw [g1] at f1
    cases f1
    simp only [Option.bind_eq_bind, Option.bind_some, g2]
    obtain ⟨c, hc⟩ : ∃ c, a.numNeighborsPerElement[e]? = some c :=
      ⟨_, List.getElem?_eq_getElem (by rw [g3, f2]; exact hlt)⟩
    rw [hc]
    refine ⟨_, rfl, ?_, ?_, ?_⟩
    · exact set_atoms hJ.rest _
    · show (L'.structure'.atoms.set _ _).length = _
      rw [List.length_set, hJ.length]
    · intro i' hi' k' hk'
      have hs' : (L.elementOf D i').isSome := by
        by_contra hn
        rw [h1.map i' hi', if_neg hn] at hk'
        simp at hk'
      have hk'' : k' = (L.kept D i').length := by
        rw [h1.map i' hi', if_pos hs'] at hk'
        simpa using hk'.symm
      by_cases e' : i' = i
      · subst e'
        subst hk''
        refine ⟨a0, _, g1, List.getElem?_set_self (List.getElem?_eq_some_iff.1 g2).1, ?_, ?_⟩
        · simp [g3]
        · have hu : L'.lengthUnit = L.lengthUnit := by
            rw [hJ.rest]; exact h1.unit
          have hnb : ({ index := j
                        tag := D.tag[j]'(by rw [hD.tags]; exact hj)
                        element := e
                        d := L'.length (Real.sqrt (D.position i' - D.position j).norm2)
                        dr := fun k => L'.length ((D.position i' - D.position j) k)
                        cache := []
                        dGdr := [] } : Neighbor) = L.newNeighbor D i' j := by
            unfold newNeighbor
            simp only [length_eq, hu, he, Option.getD_some]
            have : D.tag.getD j 0 = D.tag[j]'(by rw [hD.tags]; exact hj) := by
              rw [List.getD_eq_getElem?_getD, List.getElem?_eq_getElem (by rw [hD.tags]; exact hj)]
              rfl
            rw [this]
            rfl
          rw [if_pos rfl, hnear]
          simp only [hnb]
          cases a
          simp only [Atom.mk.injEq] at g4 ⊢
          simp [g4]
      · have hne : (L.kept D i).length ≠ k' := by
          rw [hk'']
          intro h
          exact e' (kept_inj hs hs' h).symm
        obtain ⟨b0, b, c⟩ := hJ.atom i' hi' k' hk'
        refine ⟨b0, b, c.1, ?_, ?_⟩
        · show (L'.structure'.atoms.set _ _)[k']? = _
          rw [List.getElem?_set_ne hne]
          exact c.2.1
        · rw [if_neg e']
          exact c.2.2

theorem near_append (i : ℕ) (js ks : List ℕ) :
    L.near D rc i (js ++ ks) = L.near D rc i js ++ L.near D rc i ks := by
  unfold near
  rw [List.filter_append]

theorem transferAtom_eq (hT : ∀ t e, L.typeToElement t = some e → e < L.mode.elements.length)
    (h1 : Entered L D L1) (hD : Lists D rc) {i : ℕ} (hi : i < D.nlocal) : ∀ (js : List ℕ)
    {J : ℕ → List ℕ} {L' : Lammps}, Filled L L1 D J L' → (∀ j ∈ js, j < D.x.length) →
    ∃ L'', js.foldlM (transferNeighbor D (rc * rc) i) L' = some L'' ∧
      Filled L L1 D (fun i' => if i' = i then J i ++ L.near D rc i js else J i') L''
  | [], J, L', hJ, _ => ⟨L', rfl, by
      have : (fun i' => if i' = i then J i ++ L.near D rc i [] else J i') = J := by
        funext i'
        by_cases e : i' = i
        · simp [e, near]
        · rw [if_neg e]
      rw [this]; exact hJ⟩
  | j :: js, J, L', hJ, hj => by
    obtain ⟨L2, g1, g2⟩ := transferNeighbor_eq hT h1 hJ hD hi (hj j (by simp))
    obtain ⟨L3, g3, g4⟩ := transferAtom_eq hT h1 hD hi js g2 fun k hk => hj k (by simp [hk])
    refine ⟨L3, ?_, ?_⟩
    · rw [List.foldlM_cons, g1]
      exact g3
    · have : (fun i' => if i' = i then J i ++ L.near D rc i (j :: js) else J i') =
          fun i' => if i' = i then (if i = i then J i ++ L.near D rc i [j] else J i) ++
            L.near D rc i js else (if i' = i then J i ++ L.near D rc i [j] else J i') := by
        funext i'
        by_cases e : i' = i
        · rw [if_pos e, if_pos e, if_pos rfl, List.append_assoc, ← near_append]
          rfl
        · simp only [if_neg e]
      rw [this]
      exact g4

theorem transfer_eq (hT : ∀ t e, L.typeToElement t = some e → e < L.mode.elements.length)
    (h1 : Entered L D L1) (hD : Lists D rc) :
    ∃ L', L1.transferNeighborList D rc = some L' ∧
      Filled L L1 D (fun i => L.near D rc i (D.firstneigh i)) L' := by
  classical
  have h0 : Filled L L1 D (fun _ => []) L1 := by
    refine ⟨rfl, rfl, fun i hi k hk => ?_⟩
    have hs : (L.elementOf D i).isSome := by
      by_contra hn
      rw [h1.map i hi, if_neg hn] at hk
      simp at hk
    rw [h1.map i hi, if_pos hs] at hk
    simp only [Option.some.injEq] at hk
    subst hk
    obtain ⟨a0, g1, -, g3, g4⟩ := h1.atom i hi hs
    refine ⟨a0, a0, g1, g1, rfl, ?_⟩
    cases a0
    simp_all
  have key : ∀ (is : List ℕ) (J : ℕ → List ℕ) (L' : Lammps), Filled L L1 D J L' → is.Nodup →
      (∀ i ∈ is, i < D.nlocal ∧ J i = []) → ∃ L'',
      is.foldlM (fun L i => (D.firstneigh i).foldlM (transferNeighbor D (rc * rc) i) L) L' = some L'' ∧
        Filled L L1 D (fun i => if i ∈ is then L.near D rc i (D.firstneigh i) else J i) L'' := by
    intro is
    induction is with
    | nil => intro J L' hJ _ _; exact ⟨L', rfl, by simpa using hJ⟩
    | cons i is ih =>
      intro J L' hJ hnd his
      obtain ⟨hni, hnd'⟩ := List.nodup_cons.1 hnd
      obtain ⟨hi, hJi⟩ := his i (by simp)
      obtain ⟨L2, g1, g2⟩ := transferAtom_eq hT h1 hD hi (D.firstneigh i) hJ
        fun j hj => ((hD.neighbors i hi).2.1 j hj).1
      obtain ⟨L3, g3, g4⟩ := ih _ L2 g2 hnd' (by
        intro i' hi'
        have hne : i' ≠ i := by rintro rfl; exact hni hi'
        refine ⟨(his i' (by simp [hi'])).1, ?_⟩
        rw [if_neg hne]
        exact (his i' (by simp [hi'])).2)
      refine ⟨L3, ?_, ?_⟩
      · rw [List.foldlM_cons, g1]
        exact g3
      · have : (fun i' => if i' ∈ i :: is then L.near D rc i' (D.firstneigh i') else J i') =
            fun i' => if i' ∈ is then L.near D rc i' (D.firstneigh i') else
              if i' = i then J i ++ L.near D rc i (D.firstneigh i) else J i' := by
          funext i'
          by_cases e : i' ∈ is
          · rw [if_pos e, if_pos (by simp [e])]
          · rw [if_neg e]
            by_cases e' : i' = i
            · subst e'
              rw [if_pos (by simp), if_pos rfl, hJi, List.nil_append]
            · rw [if_neg (by simp [e, e']), if_neg e']
        rw [this]
        exact g4
  obtain ⟨L', g1, g2⟩ := key D.ilist _ L1 h0 hD.ilist.1 fun i hi => ⟨(hD.ilist.2 i).1 hi, rfl⟩
  refine ⟨L', g1, g2.rest, g2.length, fun i hi k hk => ?_⟩
  obtain ⟨a0, a, g⟩ := g2.atom i hi k hk
  rw [if_pos ((hD.ilist.2 i).2 hi)] at g
  exact ⟨a0, a, g⟩

end Lammps

end N2P2
