import Verif.Lemma.Qeq

/-! Charge equilibration: what a run of the code leaves in the structure. -/

namespace N2P2

variable {q : Qeq} {s : Structure} {ls : LinSolve}

theorem Structure.storeCharges_atom (A : ℕ → ℕ → ℝ) (Q : ℕ → ℝ) {i : ℕ} (hi : i < s.atoms.length)
    (hn : s.numAtoms = s.atoms.length) :
    (s.storeCharges A Q).atom i = { s.atom i with charge := Q i } := by
  unfold Structure.atom Structure.storeCharges
  simp only [List.getD_eq_getElem?_getD, List.getElem?_mapIdx]
  rw [List.getElem?_eq_getElem hi]
  simp only [Option.map_some, Option.getD_some]
  rw [if_pos (hn ▸ hi)]

theorem Structure.storeCharges_length (A : ℕ → ℕ → ℝ) (Q : ℕ → ℝ) :
    (s.storeCharges A Q).atoms.length = s.atoms.length := by
  simp [Structure.storeCharges]

/-- The structure after the energy has been stored. -/
def Structure.withElec (s : Structure) (e : ℝ) : Structure := { s with energyElec := e }

theorem elecEnergy_eq {U : ℕ → ℝ} {V : ℕ → ℕ → ℝ} (ls : LinSolve)
    (hn : s.numAtoms = s.atoms.length)
    (hUV : q.IsInteraction s U V) (buf : ErfcBuf) :
    ∃ B buf', buf'.Holds s.atoms 2 (erfcArg q.params q.ewald s) ∧
      (∀ a b, a < s.atoms.length → b < s.atoms.length →
        B a b = symMat (fun i => q.J (s.elementOf i) + U i) V a b) ∧
      s.calculateElectrostaticEnergy ls q.params q.ewald buf =
        let A := borderMatrix s.numAtoms B
        let Q := ls.run (s.numAtoms + 1) A s.qeqRhs
        ((s.storeCharges A Q).calculateScreeningEnergy q.params).map fun e =>
          ((s.storeCharges A Q).withElec (matrixEnergy q.params s A Q + e), buf') := by
  obtain ⟨B, buf', e, hb, hB⟩ := matrix_eq (q := q) hn hUV buf
  refine ⟨B, buf', hb, hB, ?_⟩
  unfold Structure.calculateElectrostaticEnergy
  rw [if_neg (by omega), e]
  simp only [Option.bind_eq_bind, Option.bind_some]
  generalize Structure.calculateScreeningEnergy _ _ = x
  cases x <;> rfl

/-- What both derivative functions leave as it is. -/
structure Structure.SameCharges (s s' : Structure) : Prop where
  count : s'.atoms.length = s.atoms.length
  num : s'.numAtoms = s.numAtoms
  A : s'.A = s.A
  energy : s'.energyElec = s.energyElec
  lambda : s'.lambda = s.lambda
  periodic : s'.isPeriodic = s.isPeriodic
  ref : s'.chargeRef = s.chargeRef
  box : s'.box = s.box
  elements : s'.numElements = s.numElements
  atom : ∀ i, (s'.atom i).charge = (s.atom i).charge ∧ (s'.atom i).chi = (s.atom i).chi ∧
    (s'.atom i).r = (s.atom i).r ∧ (s'.atom i).element = (s.atom i).element ∧
    (s'.atom i).neighbors = (s.atom i).neighbors ∧ (s'.atom i).dEdG = (s.atom i).dEdG ∧
    (s'.atom i).f = (s.atom i).f

theorem Structure.SameCharges.trans {s s' s'' : Structure} (h : s.SameCharges s')
    (h' : s'.SameCharges s'') : s.SameCharges s'' := by
  refine ⟨h'.count.trans h.count, h'.num.trans h.num, h'.A.trans h.A, h'.energy.trans h.energy,
    h'.lambda.trans h.lambda, h'.periodic.trans h.periodic, h'.ref.trans h.ref, h'.box.trans h.box,
    h'.elements.trans h.elements, fun i => ?_⟩
  obtain ⟨a1, a2, a3, a4, a5, a6, a7⟩ := h.atom i
  obtain ⟨b1, b2, b3, b4, b5, b6, b7⟩ := h'.atom i
  exact ⟨b1.trans a1, b2.trans a2, b3.trans a3, b4.trans a4, b5.trans a5, b6.trans a6, b7.trans a7⟩

theorem Structure.SameCharges.of_mapIdx {s s' : Structure} (g : ℕ → Atom → Atom)
    (hg : ∀ i a, (g i a).charge = a.charge ∧ (g i a).chi = a.chi ∧ (g i a).r = a.r ∧
      (g i a).element = a.element ∧ (g i a).neighbors = a.neighbors ∧ (g i a).dEdG = a.dEdG ∧
      (g i a).f = a.f)
    (h : s' = { s with atoms := s.atoms.mapIdx g }) : s.SameCharges s' := by
  subst h
  refine ⟨by simp, rfl, rfl, rfl, rfl, rfl, rfl, rfl, rfl, fun i => ?_⟩
  unfold Structure.atom
  simp only [List.getD_eq_getElem?_getD, List.getElem?_mapIdx]
  cases h : s.atoms[i]? with
  | none => exact ⟨rfl, rfl, rfl, rfl, rfl, rfl, rfl⟩
  | some a => exact hg i a

theorem calculateDAdrQ_same {P : ElecParams} {p : EwaldParameters} {buf : ErfcBuf}
    {r : Structure × ErfcBuf} (h : s.calculateDAdrQ P p buf = some r) : s.SameCharges r.1 := by
  unfold Structure.calculateDAdrQ at h
  split_ifs at h
  obtain ⟨st, -, h⟩ := Option.bind_eq_some_iff.1 h
  cases h
  refine Structure.SameCharges.of_mapIdx (fun i (a : Atom) => if i < s.numAtoms then
        { a with dAdrQ := (List.range (s.numAtoms + 1)).map (st.1 i) } else a) (fun i a => ?_) rfl
  split_ifs <;> exact ⟨rfl, rfl, rfl, rfl, rfl, rfl, rfl⟩

theorem energyDerivatives_same {P : ElecParams} {r : Structure}
    (h : s.calculateElectrostaticEnergyDerivatives P = some r) : s.SameCharges r := by
  unfold Structure.calculateElectrostaticEnergyDerivatives at h
  by_cases hc : s.atoms.length < s.numAtoms ∨
      ∃ i < s.numAtoms, (s.atom i).dAdrQ.length < s.numAtoms
  · rw [if_pos hc] at h; cases h
  rw [if_neg hc] at h
  obtain ⟨st, -, h⟩ := Option.bind_eq_some_iff.1 h
  cases h
  refine Structure.SameCharges.of_mapIdx (fun i (a : Atom) =>
        { a with
          pEelecpr := st.1 i
          dEelecdQ := st.2 i }) (fun i a => ?_) rfl
  exact ⟨rfl, rfl, rfl, rfl, rfl, rfl, rfl⟩

theorem chargeEquilibration_inv {buf buf' : ErfcBuf} {d : Bool} {s' : Structure}
    (h : chargeEquilibration ls q s buf d = some (s', buf')) :
    ∃ s1 buf1, s.calculateElectrostaticEnergy ls q.params q.ewald buf = some (s1, buf1) ∧
      s1.SameCharges s' := by
  unfold chargeEquilibration at h
  by_cases hc : ∃ a ∈ s.atoms, q.hardness.length ≤ a.element ∨ q.qsigma.length ≤ a.element
  · rw [if_pos hc] at h; cases h
  rw [if_neg hc] at h
  obtain ⟨⟨s1, buf1⟩, h1, h⟩ := Option.bind_eq_some_iff.1 h
  refine ⟨s1, buf1, h1, ?_⟩
  split_ifs at h
  · obtain ⟨r2, h2, h⟩ := Option.bind_eq_some_iff.1 h
    obtain ⟨r3, h3, h⟩ := Option.bind_eq_some_iff.1 h
    cases h
    exact (calculateDAdrQ_same h2).trans (energyDerivatives_same h3)
  · cases h
    exact ⟨rfl, rfl, rfl, rfl, rfl, rfl, rfl, rfl, rfl, fun i => ⟨rfl, rfl, rfl, rfl, rfl, rfl, rfl⟩⟩

/-- The equations which the charges satisfy. -/
theorem qeq_equations {U : ℕ → ℝ} {V : ℕ → ℕ → ℝ} (hls : ls.Correct)
    (hn : s.numAtoms = s.atoms.length) (hUV : q.IsInteraction s U V) (hS : q.Solvable s U V)
    {buf buf' : ErfcBuf} {d : Bool} {s' : Structure}
    (h : chargeEquilibration ls q s buf d = some (s', buf')) :
    ∑ i ∈ Finset.range s.atoms.length, (s'.atom i).charge = s.chargeRef ∧
    ∀ i < s.atoms.length, ∑ j ∈ Finset.range s.atoms.length,
      symMat (fun i => q.J (s.elementOf i) + U i) V i j * (s'.atom j).charge + s'.lambda =
        -(s.atom i).chi := by
  obtain ⟨s1, buf1, h1, hs⟩ := chargeEquilibration_inv h
  obtain ⟨B, buf2, -, hB, e⟩ := elecEnergy_eq ls hn hUV buf
  rw [e] at h1
  obtain ⟨x, -, hx⟩ := Option.map_eq_some_iff.1 h1
  replace hx := (Prod.mk.inj hx).1
  have hdet := hS.det hB
  set n := s.atoms.length with hnd
  rw [hn] at hx
  set Q := ls.run (n + 1) (borderMatrix n B) s.qeqRhs with hQ
  have hc : ∀ i < n, (s'.atom i).charge = Q i := by
    intro i hi
    rw [(hs.atom i).1, ← hx]
    show ((s.storeCharges (borderMatrix n B) Q).atom i).charge = _
    rw [Structure.storeCharges_atom _ _ hi hn]
  have hlam : s'.lambda = Q n := by
    rw [hs.lambda, ← hx]
    show Q s.numAtoms = _
    rw [hn]
  have hcs : ∀ f : ℕ → ℝ, ∑ j ∈ Finset.range n, f j * (s'.atom j).charge =
      ∑ j ∈ Finset.range n, f j * Q j := fun f =>
    Finset.sum_congr rfl fun j hj => by rw [hc j (Finset.mem_range.1 hj)]
  constructor
  · have := LinSolve.run_spec hls s.qeqRhs hdet (i := n) (by omega)
    rw [border_last] at this
    rw [Finset.sum_congr rfl fun j hj => hc j (Finset.mem_range.1 hj), this, Structure.qeqRhs, if_pos hn.symm]
  · intro i hi
    have := LinSolve.run_spec hls s.qeqRhs hdet (i := i) (by omega)
    rw [border_row _ _ _ hi, Structure.qeqRhs, if_neg (by omega)] at this
    rw [← this, hlam, hcs]
    congr 1
    exact Finset.sum_congr rfl fun j hj => by rw [hB i j hi (Finset.mem_range.1 hj)]

end N2P2
