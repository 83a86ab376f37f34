import Verif.Lemma.Mode4GSymFnc
import Verif.Lemma.Mode4GNet
import Verif.Lemma.ElecRun
import Verif.Props.QeqDeriv

/-! Charge equilibration within an evaluation of the fourth generation. -/

namespace N2P2

variable {q : Qeq} {s s' : Structure} {ls : LinSolve}

/-- An atom without what the charge equilibration computes. -/
def Atom.noElec (a : Atom) : Atom :=
  { a with
    charge := 0
    dAdrQ := []
    pEelecpr := 0
    dEelecdQ := 0 }

/-- A structure without what the charge equilibration computes. -/
def Structure.noElec (s : Structure) : Structure :=
  { s with
    energyElec := 0
    hasCharges := false
    lambda := 0
    hasAMatrix := false
    A := fun _ _ => 0
    atoms := s.atoms.map Atom.noElec }

theorem mapIdx_noElec {g : ℕ → Atom → Atom} (hg : ∀ i a, (g i a).noElec = a.noElec)
    (l : List Atom) : (l.mapIdx g).map Atom.noElec = l.map Atom.noElec := by
  refine List.ext_getElem (by simp) fun i h1 h2 => ?_
  simp only [List.getElem_map, List.getElem_mapIdx]
  exact hg _ _

theorem elecEnergy_noElec {P : ElecParams} {p : EwaldParameters} {buf : ErfcBuf}
    {r : Structure × ErfcBuf} (h : s.calculateElectrostaticEnergy ls P p buf = some r) :
    r.1.noElec = s.noElec := by
  unfold Structure.calculateElectrostaticEnergy at h
  split_ifs at h
  obtain ⟨st, -, h⟩ := Option.bind_eq_some_iff.1 h
  obtain ⟨e, -, h⟩ := Option.bind_eq_some_iff.1 h
  cases h
  unfold Structure.storeCharges Structure.noElec
  dsimp only
  rw [mapIdx_noElec]
  intro i a
  split_ifs <;> rfl

theorem calculateDAdrQ_noElec {P : ElecParams} {p : EwaldParameters} {buf : ErfcBuf}
    {r : Structure × ErfcBuf} (h : s.calculateDAdrQ P p buf = some r) : r.1.noElec = s.noElec := by
  unfold Structure.calculateDAdrQ at h
  split_ifs at h
  obtain ⟨st, -, h⟩ := Option.bind_eq_some_iff.1 h
  cases h
  unfold Structure.noElec
  dsimp only
  rw [mapIdx_noElec]
  intro i a
  split_ifs <;> rfl

theorem energyDerivatives_noElec {P : ElecParams} {r : Structure}
    (h : s.calculateElectrostaticEnergyDerivatives P = some r) : r.noElec = s.noElec := by
  unfold Structure.calculateElectrostaticEnergyDerivatives at h
  by_cases hc : s.atoms.length < s.numAtoms ∨
      ∃ i < s.numAtoms, (s.atom i).dAdrQ.length < s.numAtoms
  · rw [if_pos hc] at h; cases h
  rw [if_neg hc] at h
  obtain ⟨st, -, h⟩ := Option.bind_eq_some_iff.1 h
  cases h
  unfold Structure.noElec
  dsimp only
  rw [mapIdx_noElec]
  intro i a
  rfl

theorem chargeEquilibration_noElec {buf buf' : ErfcBuf} {d : Bool}
    (h : chargeEquilibration ls q s buf d = some (s', buf')) : s'.noElec = s.noElec := by
  unfold chargeEquilibration at h
  by_cases hc : ∃ a ∈ s.atoms, q.hardness.length ≤ a.element ∨ q.qsigma.length ≤ a.element
  · rw [if_pos hc] at h; cases h
  rw [if_neg hc] at h
  obtain ⟨⟨s1, buf1⟩, h1, h⟩ := Option.bind_eq_some_iff.1 h
  have e1 := elecEnergy_noElec h1
  split_ifs at h
  · obtain ⟨r2, h2, h⟩ := Option.bind_eq_some_iff.1 h
    obtain ⟨r3, h3, h⟩ := Option.bind_eq_some_iff.1 h
    cases h
    rw [energyDerivatives_noElec h3, calculateDAdrQ_noElec h2]
    exact e1
  · cases h
    exact e1

theorem Structure.noElec_get (h : s'.noElec = s.noElec) (i : ℕ) {a : Atom}
    (ha : s.atoms[i]? = some a) : ∃ b, s'.atoms[i]? = some b ∧ b.noElec = a.noElec := by
  have e := congrArg (fun s : Structure => s.atoms[i]?) h
  unfold Structure.noElec at e
  simp only [List.getElem?_map, ha, Option.map_some] at e
  exact Option.map_eq_some_iff.1 e

/-- Charge equilibration succeeds with and without derivatives. -/
theorem qeq_succeeds {U : Structure → ℕ → ℝ} {V W : Structure → ℕ → ℕ → ℝ} {ri ro : ℝ}
    (hn : s.numAtoms = s.atoms.length) (hc : q.Covers s) (hUV : q.IsField s U V)
    (hW : q.IsScreening s W) (hfs : q.fs.Configured ri ro) (hap : s.Apart)
    (hfresh : ∀ a ∈ s.atoms, a.dAdrQ = []) (buf : ErfcBuf) (d : Bool) :
    ∃ s' buf', chargeEquilibration ls q s buf d = some (s', buf') := by
  cases d with
  | true =>
    obtain ⟨s', buf', -, -, -, -, h, -⟩ := qeq_run (ls := ls) hn hc hUV hW hfs hap hfresh buf
    exact ⟨s', buf', h⟩
  | false =>
    obtain ⟨B, buf1, -, -, e⟩ := elecEnergy_eq ls hn hUV.interaction buf
    dsimp only at e
    obtain ⟨es, hes⟩ := screening_some hn hW (borderMatrix s.numAtoms B)
      (ls.run (s.numAtoms + 1) (borderMatrix s.numAtoms B) s.qeqRhs)
    rw [hes, Option.map_some] at e
    unfold chargeEquilibration
    rw [if_neg (by
      rintro ⟨a, ha, h⟩
      have := hc a ha
      omega), e]
    exact ⟨_, _, rfl⟩

/-- The interactions of a structure with neighbour lists. -/
theorem interactions (hbox : s.isPeriodic = true → NonSingular s.box)
    (hk : s.isPeriodic = true → 0 ≤ q.ewald.kCut) {full imgs imgs' : ℕ → List (ℕ × (Fin 3 → ℤ))}
    (hl : s.isPeriodic = true → s.Listed full)
    (hi : s.isPeriodic = true → s.Stored full q.ewald.rCut imgs)
    (hi' : s.isPeriodic = true → s.Stored full q.fs.outer imgs') :
    ∃ U V W, q.IsField s U V ∧ q.IsScreening s W ∧ q.Interacts s U V W := by
  by_cases h : s.isPeriodic = true
  · obtain ⟨g, hg, -⟩ := C39_grid (p := q.ewald) (hbox h) (hk h)
    obtain ⟨S, hS, -⟩ := C39_sum (p := q.ewald) (hbox h) (hk h) hg (fun _ => 0) (fun _ => rfl)
    have hi := hi h
    have hi' := hi' h
    exact ⟨_, _, _, .ewald h (hbox h) (hk h) full imgs (hl h) hi S hS, .periodic h full imgs' (hl h) hi',
      .periodic h imgs imgs' ⟨hi.nodup, hi.partner, hi.complete⟩ ⟨hi'.nodup, hi'.partner, hi'.complete⟩
        S hS⟩
  · have h : s.isPeriodic = false := by simpa using h
    exact ⟨_, _, _, .cluster h, .cluster h, .cluster h⟩

end N2P2
