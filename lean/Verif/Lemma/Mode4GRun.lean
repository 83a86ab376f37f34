import Verif.Lemma.Alike
import Verif.Lemma.Mode4GQeq
import Verif.Lemma.ModeEval

/-! What `evaluateNNP` of a potential of the fourth generation has computed before the forces. -/

namespace N2P2

variable {M : Mode4G} {P : Potential4G} {n : ℕ} {s : Structure} {ls : LinSolve}

theorem State4G.next {M : Mode} {i : ℕ} {f d : Bool} {e : ElementData} {a b : Atom}
    (h : State4G M n s i f d e a b) {els : List ElementData} (hs : SameElements M.elements els) :
    ∃ nn, State4G { M with elements := els } n s i f d { e with net := nn } a b := by
  obtain ⟨nn, hn⟩ := hs.get h.get
  refine ⟨nn, h.element, hn, h.position, h.index, h.list, ?_, h.bare, h.G, h.same, h.dAdrQ, h.number,
    h.dEdG, h.dChidG, fun hf => ?_⟩
  · have := h.ready
    exact ⟨this.listR, this.list, this.le, this.elements, this.triplets⟩
  · have := h.done hf
    exact ⟨this.G, this.bare, this.rest, this.dEdG, this.self, this.neighbor⟩

theorem State4G.atomState {M : Mode} {i : ℕ} {d : Bool} {e : ElementData} {a b : Atom}
    (h : State4G M n s i true d e a b) : AtomState M n s i e a b :=
  ⟨h.element, h.get, h.position, h.index, h.list, h.ready, h.done rfl⟩

theorem setupCutoffMatrix_congr {els els' : List ElementData} (h : SameElements els els') (r : ℝ) :
    setupCutoffMatrix els' r = setupCutoffMatrix els r := by
  classical
  have key : ∀ els : List ElementData, setupCutoffMatrix els r =
      (els.map fun e => (e.symmetryFunctions, e.symmetryFunctionTable, e.cacheSizes)).map fun x =>
        let l := x.1.foldl (fun l S => if S.rc ∈ l then l else l ++ [S.rc]) []
        if 0 < r ∧ r ∉ l then l ++ [r] else l := by
    intro els
    rw [List.map_map]
    unfold setupCutoffMatrix
    refine List.map_congr_left fun e _ => ?_
    unfold ElementData.getCutoffRadii
    simp only [Function.comp_apply]
  rw [key, key, h]

theorem groupsSetUp_congr {M : Mode} {els : List ElementData} (h : SameElements M.elements els)
    {gs : List (List SymGrp)} (hg : M.GroupsSetUp gs) :
    ({ M with elements := els } : Mode).GroupsSetUp gs := by
  unfold Mode.GroupsSetUp at hg ⊢
  have key : ∀ els : List ElementData,
      List.Forall₂ (fun e g => SetupGroups e.symmetryFunctions g) els gs ↔
      List.Forall₂ (fun x g => SetupGroups x.1 g)
        (els.map fun e => (e.symmetryFunctions, e.symmetryFunctionTable, e.cacheSizes)) gs := by
    intro els
    rw [List.forall₂_map_left_iff]
  rw [key] at hg ⊢
  rw [h]
  exact hg

theorem Mode4G.SetUp.withEwald (h : M.SetUp P n) (p : EwaldParameters) :
    (M.withEwald p).SetUp P n :=
  ⟨h.mode, h.groups, h.elecCount, h.elecNet, h.cutoffs, h.parameters, h.screening, h.unit, h.ewald⟩

theorem Mode4G.SetUp.after (h : M.SetUp P n) {nets : List NeuralNetwork} {els : List ElementData}
    (buf : ErfcBuf) (hn : nets.length = M.elecNets.length) (hN : ElecNetsOK P.chi nets)
    (hs : SameElements M.mode.elements els) (hE : NetsOK P.toPotential els) :
    (M.after nets els buf).SetUp P n := by
  refine ⟨h.mode.next hs hE, fun gs hg => groupsSetUp_congr hs (h.groups gs hg),
    hn.trans h.elecCount, hN, ?_, h.parameters, h.screening, h.unit, h.ewald⟩
  obtain ⟨r, hr⟩ := h.cutoffs
  exact ⟨r, hr.trans (setupCutoffMatrix_congr hs r).symm⟩

theorem Mode4G.SetUp.conv (h : M.SetUp P n) (x : ℝ) : M.negativity x = P.unit * x := by
  unfold Mode4G.negativity
  rw [h.unit]
  split_ifs
  · ring
  · rw [one_mul]

/-- What an evaluation has computed before the forces: `s3` is the structure with
electronegativities, `s4` after charge equilibration, `t` with energies and total charge. -/
structure Run4G (ls : LinSolve) (P : Potential4G) (n : ℕ) (conv : ℝ → ℝ) (f d : Bool)
    (s : Structure) (M' : Mode4G) (s3 s4 t : Structure) (U : Structure → ℕ → ℝ)
    (V W : Structure → ℕ → ℕ → ℝ) : Prop where
  setup : M'.SetUp P n
  alike : s.Alike s3
  number : s3.numAtoms = s3.atoms.length
  covers : M'.qeq.Covers s3
  field : M'.qeq.IsField s3 U V
  screening : M'.qeq.IsScreening s3 W
  interacts : M'.qeq.Interacts s U V W
  apart : s3.Apart
  fresh : ∀ a ∈ s3.atoms, a.dAdrQ = []
  qeq : ∃ buf buf', chargeEquilibration ls M'.qeq s3 buf f = some (s4, buf')
  after : t = ((s4.withAtoms (s4.atoms.map (shortAtom P.toPotential d))).calculateEnergy).calculateCharge
  atom : ∀ i < s.atoms.length, ∃ e a b, s3.atoms[i]? = some (elecAtom conv P.chi d b) ∧
    State4G M'.mode n s i f d e a b

theorem State4G.facts {M : Mode} {i : ℕ} {f d : Bool} {e : ElementData} {a b : Atom}
    (h : State4G M n s i f d e a b) (hM : M.SetUp P.toPotential n) : b.element = s.elementOf i ∧
      s.elementOf i < n ∧ e.symmetryFunctions = P.functions (s.elementOf i) ∧
      b.G = (P.functions (s.elementOf i)).map (fun S => S.sc.scale (S.formula a.env)) ∧
      b.G.length = (P.functions (s.elementOf i)).length := by
  have e1 : b.element = s.elementOf i := h.same.1.trans h.element
  have e2 : e.symmetryFunctions = P.functions (s.elementOf i) := by
    rw [(hM.functions _ e h.get).1, h.element]
  refine ⟨e1, ?_, e2, ?_, ?_⟩
  · rw [← h.element, ← hM.count]
    exact (List.getElem?_eq_some_iff.1 h.get).1
  · rw [h.G, e2]
  · rw [h.G, e2, List.length_map]

theorem evaluate4G {srt : List Neighbor → List Neighbor} (hsrt : IsSort srt) (hM : M.SetUp P n)
    (hP : P.Fits4G n) (hn : 0 < n) (f g : Bool) (hs : s.Evaluable4G M P n f) :
    ∃ p, (s.isPeriodic = true → M.ewaldSetup s.volume s.numAtoms M.qeq.ewald = some p) ∧
      ∃ M' s3 s4 t U V W, M'.qeq = { M.qeq with ewald := p } ∧
        M'.mode.maxCutoffRadius = M.mode.maxCutoffRadius ∧
        M.evaluateNNP srt ls s f g =
          (if f then M'.mode.calculateForces4G ls t else some t).map (fun t => (M', t)) ∧
        Run4G ls P n M.negativity f (f || g) (s.withOverall (M.listRadius s p)) M' s3 s4 t U V W := by
  -- radii
  have hp : ∃ p, (s.isPeriodic = true → M.ewaldSetup s.volume s.numAtoms M.qeq.ewald = some p) ∧
      s.calculateMaxCutoffRadiusOverall M.ewaldSetup M.qeq.ewald M.qeq.fs.outer
        M.mode.maxCutoffRadius = some (p, s.withOverall (M.listRadius s p)) := by
    by_cases h : s.isPeriodic = true
    · obtain ⟨p, hp⟩ := hs.ewald h
      refine ⟨p, fun _ => hp, ?_⟩
      unfold Structure.calculateMaxCutoffRadiusOverall Mode4G.listRadius
      rw [if_pos h, if_pos h, hp]
      rfl
    · refine ⟨M.qeq.ewald, fun h' => absurd h' h, ?_⟩
      unfold Structure.calculateMaxCutoffRadiusOverall Mode4G.listRadius
      rw [if_neg h, if_neg h]
  obtain ⟨p, hp, e0⟩ := hp
  refine ⟨p, hp, ?_⟩
  have hT := hs.triplets p hp
  have r1 : M.qeq.fs.outer ≤ M.listRadius s p := by
    unfold Mode4G.listRadius
    split_ifs
    · exact le_max_of_le_left (le_max_left _ _)
    · exact le_max_left _ _
  have r2 : M.mode.maxCutoffRadius ≤ M.listRadius s p := by
    unfold Mode4G.listRadius
    split_ifs
    · exact le_max_of_le_left (le_max_right _ _)
    · exact le_max_right _ _
  have r3 : s.isPeriodic = true → p.rCut ≤ M.listRadius s p := by
    intro h
    unfold Mode4G.listRadius
    rw [if_pos h]
    exact le_max_right _ _
  generalize M.listRadius s p = R at *
  have hk : s.isPeriodic = true → 0 ≤ p.kCut := fun h => (hM.ewald _ _ _ _ (hp h)).2
  set s0 := s.withOverall R with hs0
  have hR : M.mode.listRadius s0 = R := max_eq_right r2
  have hM1 := hM.withEwald p
  set M1 := M.withEwald p with hM1d
  -- neighbour lists
  obtain ⟨rS, hcut⟩ := hM.cutoffs
  have hnew : s0.New n := ⟨hs.new.fresh, hs.new.boxed, hs.new.flags, hs.new.atom, hs.new.index⟩
  obtain ⟨s1, full, e1, a1, l1, hL, hSt, hat1⟩ := neighborList4G hsrt hM.mode hnew hs.derivatives
    hs.apart (by rw [hR]; exact hT) (cutoffs := M.cutoffs) (by
      rw [hcut]
      unfold setupCutoffMatrix
      rw [List.length_map, hM.mode.count])
  rw [hR] at hSt
  -- symmetry functions
  obtain ⟨s2, e2, l2, c2, hat2⟩ := symmetryFunctions4G (s := s0) hM1 hn (useForces := f)
    (useDEdG := g) hs.groups (s1 := s1)
    ⟨(congrArg Structure.hasSymmetryFunctions a1).trans hs.new.flags.1,
      (congrArg Structure.hasSymmetryFunctionDerivatives a1).trans hs.new.flags.2⟩ l1 hat1
  set s2' := s2.prepared4G f g with hs2'
  -- electronegativities
  have hlen2 : s2'.atoms.length = s0.atoms.length := l2.count.trans l1
  obtain ⟨nets, e3, n3, N3⟩ := elecNetworks_eq M1.negativity (P := P.chi) (nets := M1.elecNets)
    (atoms := s2'.atoms) (d := f || g) hM1.elecNet (by
      intro b hb
      obtain ⟨i, hi, rfl⟩ := List.getElem_of_mem hb
      obtain ⟨e, a, b, q1, q2⟩ := hat2 i (by omega)
      rw [List.getElem?_eq_getElem hi] at q1
      rw [Option.some.inj q1]
      obtain ⟨f1, f2, f3, f4, f5⟩ := q2.facts hM1.mode
      obtain ⟨p1, p2, p3⟩ := hP.chi _ f2
      refine ⟨by rw [f1, hM1.elecCount]; exact f2, ?_⟩
      unfold ElecFits
      rw [f1, p2, f5]
      refine ⟨p1, p3, le_rfl, fun hd => ?_⟩
      rw [q2.dChidG hd, f3]
      exact le_rfl)
  set s3 := s2'.withAtoms (s2'.atoms.map (elecAtom M1.negativity P.chi (f || g))) with hs3
  have l3 : s2'.SameLists s3 := by
    refine Structure.SameLists.of_get (by simp [hs3, Structure.withAtoms]) rfl rfl rfl rfl ?_
    intro i a b ha hb
    rw [hs3] at hb
    change (s2'.atoms.map (elecAtom M1.negativity P.chi (f || g)))[i]? = some b at hb
    rw [List.getElem?_map, ha] at hb
    cases hb
    exact ⟨rfl, rfl, rfl, rfl, rfl⟩
  have l13 : s1.SameLists s3 := l2.trans l3
  have len3 : s3.atoms.length = s0.atoms.length := l13.count.trans l1
  have num3 : s3.numAtoms = s3.atoms.length := by
    have k : s1.numAtoms = s0.numAtoms := by have := congrArg Structure.numAtoms a1; exact this
    rw [l13.num, len3, k]
    exact hs.number
  have per3 : s3.isPeriodic = s.isPeriodic := by
    have k := congrArg Structure.isPeriodic a1
    exact l13.per.trans k
  have box3 : s3.box = s.box := by
    have k := congrArg Structure.box a1
    exact l13.box.trans k
  have get3 : ∀ i < s0.atoms.length, ∃ e a b, s3.atoms[i]? = some
      (elecAtom M1.negativity P.chi (f || g) b) ∧
      State4G M1.mode n s0 i f (f || g) e a b := by
    intro i hi
    obtain ⟨e, a, b, q1, q2⟩ := hat2 i hi
    refine ⟨e, a, b, ?_, q2⟩
    rw [hs3]
    show (s2'.atoms.map (elecAtom M1.negativity P.chi (f || g)))[i]? = _
    rw [List.getElem?_map, q1]
    rfl
  have alike3 : s0.Alike s3 := by
    refine ⟨len3, per3, box3, ?_, fun i => ?_, fun i => ?_⟩
    · show s2'.chargeRef = _
      rw [c2]
      have k := congrArg Structure.chargeRef a1
      exact k
    · by_cases hi : i < s0.atoms.length
      · obtain ⟨e, a, b, q1, q2⟩ := get3 i hi
        rw [position_eq q1]
        exact q2.same.2.1.trans q2.position
      · unfold Structure.position
        rw [List.getElem?_eq_none (by omega), List.getElem?_eq_none (by omega)]
    · by_cases hi : i < s0.atoms.length
      · obtain ⟨e, a, b, q1, q2⟩ := get3 i hi
        rw [elementOf_eq q1]
        exact q2.same.1.trans q2.element
      · unfold Structure.elementOf
        rw [List.getElem?_eq_none (by omega), List.getElem?_eq_none (by omega)]
  have mem3 : ∀ a ∈ s3.atoms, a.element < n ∧ a.dAdrQ = [] := by
    intro c hc
    obtain ⟨i, hi, rfl⟩ := List.getElem_of_mem hc
    obtain ⟨e, a, b, q1, q2⟩ := get3 i (by omega)
    rw [List.getElem?_eq_getElem hi] at q1
    rw [Option.some.inj q1]
    obtain ⟨f1, f2, -⟩ := q2.facts hM1.mode
    exact ⟨by show b.element < n; rw [f1]; exact f2, q2.dAdrQ⟩
  have hcov : M1.qeq.Covers s3 := fun a ha =>
    ⟨(mem3 a ha).1.trans_le hM1.parameters.1, (mem3 a ha).1.trans_le hM1.parameters.2⟩
  have hap3 : s3.Apart := alike3.apart hs.apart
  -- interactions
  obtain ⟨U, V, W, hUV, hW, hI⟩ := interactions (q := M1.qeq) (s := s3)
    (fun h => by rw [box3]; exact (hs.new.boxed (per3 ▸ h)).1) (fun h => hk (per3 ▸ h))
    (fun _ => l13.listed hL) (fun h => l13.storedList (hSt _ (r3 (per3 ▸ h))))
    (fun _ => l13.storedList (hSt _ r1))
  obtain ⟨ri, ro, hfs⟩ := hM1.screening
  obtain ⟨s4, buf', e4⟩ := qeq_succeeds (ls := ls) num3 hcov hUV hW hfs hap3 (fun a ha => (mem3 a ha).2)
    M1.erfcBuf f
  have hno := chargeEquilibration_noElec e4
  have len4 : s4.atoms.length = s0.atoms.length := by
    have := congrArg (fun s : Structure => s.atoms.length) hno
    unfold Structure.noElec at this
    simp only [List.length_map] at this
    rw [this, len3]
  -- short-range energies
  obtain ⟨els, e5, S5, N5⟩ := shortNetworks_eq (P := P.toPotential) (els := M1.mode.elements)
    (atoms := s4.atoms) (d := f || g) hM1.mode.net (by
      intro c hc
      obtain ⟨i, hi, rfl⟩ := List.getElem_of_mem hc
      obtain ⟨e, a, b, q1, q2⟩ := get3 i (by omega)
      obtain ⟨c, k1, k2⟩ := Structure.noElec_get hno i q1
      rw [List.getElem?_eq_getElem hi] at k1
      rw [Option.some.inj k1]
      obtain ⟨f1, f2, f3, f4, f5⟩ := q2.facts hM1.mode
      have g1 : c.element = b.element := by have := congrArg Atom.element k2; exact this
      have g2 : c.G = b.G := by have := congrArg Atom.G k2; exact this
      have g3 : c.dEdG = b.dEdG := by have := congrArg Atom.dEdG k2; exact this
      obtain ⟨p1, p2, p3⟩ := hP.short _ f2
      refine ⟨by rw [g1, f1, hM1.mode.count]; exact f2, ?_⟩
      unfold ShortFits
      rw [g1, g2, g3, f1, p2, f5]
      refine ⟨p1, p3, rfl, fun hd => ?_⟩
      rw [q2.dEdG hd, f3])
  refine ⟨M1.after nets els buf', s3, s4, _, U, V, W, rfl, rfl, ?_,
    hM1.after buf' n3 N3 S5 N5, alike3, num3, hcov, hUV, hW, alike3.symm.interacts hI, hap3,
    fun a ha => (mem3 a ha).2, ⟨_, _, e4⟩, rfl, fun i hi => ?_⟩
  · unfold Mode4G.evaluateNNP
    rw [e0]
    show Option.bind (s0.calculateNeighborListCutoffs srt M.mode.maxCutoffRadius M.cutoffs) _ = _
    rw [e1]
    show Option.bind (M1.calculateSymmetryFunctions s1 f) _ = _
    rw [e2]
    show Option.bind (calculateElecNetworks M1.negativity M1.elecNets s2'.atoms _) _ = _
    rw [e3]
    show Option.bind (chargeEquilibration ls M1.qeq s3 M1.erfcBuf f) _ = _
    rw [e4]
    show Option.bind (calculateShortNetworks M1.mode.elements s4.atoms _) _ = _
    rw [e5]
    cases f with
    | false => rfl
    | true =>
      simp only [if_true]
      show Option.bind ((M1.after nets els buf').mode.calculateForces4G ls
        ((s4.withAtoms (s4.atoms.map (shortAtom P.toPotential (true || g)))).calculateEnergy
          ).calculateCharge) _ = _
      generalize (M1.after nets els buf').mode.calculateForces4G ls _ = o
      cases o <;> rfl
  · obtain ⟨e, a, b, q1, q2⟩ := get3 i hi
    obtain ⟨nn, q3⟩ := q2.next S5
    exact ⟨_, a, b, q1, q3⟩

end N2P2
