import Verif.Lemma.CheckForcesRun
import Verif.Props.Prediction

/-! Property C106 (nnp-checkf). -/

namespace N2P2

open scoped Topology

variable {srt : List Neighbor → List Neighbor} {N : NumberText} {q : Prediction} {P : Potential} {n : ℕ} {u : Structure}
  {modes : List Mode} {delta : ℝ}

theorem numericSign_cases (c : ℕ) : numericSign c = 1 ∨ numericSign c = -1 := by
  unfold numericSign
  have : c % 6 / 3 < 2 := by omega
  interval_cases h : c % 6 / 3
  · right; norm_num
  · left; norm_num

theorem abs_sign_mul (c : ℕ) (d : ℝ) : |(numericSign c : ℝ) * d| = |d| := by
  rcases numericSign_cases c with h | h <;> rw [h] <;> simp

theorem Prediction.Suits.congr {M M' : Mode} (h : M'.maxCutoffRadius = M.maxCutoffRadius)
    (hs : Prediction.Suits { q with mode := M } P u) : Prediction.Suits { q with mode := M' } P u := by
  refine ⟨hs.box, hs.apart, ?_⟩
  have := hs.triplets
  dsimp only at this ⊢
  rw [h]
  exact this

theorem Checkable.congr {modes' : List Mode}
    (h : modes'.map (fun M => M.maxCutoffRadius) = modes.map (fun M => M.maxCutoffRadius))
    (hu : Checkable q P modes u delta) : Checkable q P modes' u delta := by
  have key : ∀ M' ∈ modes', ∃ M ∈ modes, M'.maxCutoffRadius = M.maxCutoffRadius := by
    intro M' hM'
    have : M'.maxCutoffRadius ∈ modes.map (fun M => M.maxCutoffRadius) := by
      rw [← h]
      exact List.mem_map.2 ⟨M', hM', rfl⟩
    obtain ⟨M, h1, h2⟩ := List.mem_map.1 this
    exact ⟨M, h1, h2.symm⟩
  refine ⟨fun M' hM' => ?_, hu.apart, fun i hi j t ht M' hM' => ?_, hu.near⟩
  · obtain ⟨M, h1, h2⟩ := key M' hM'
    exact (hu.original M h1).congr h2
  · obtain ⟨M, h1, h2⟩ := key M' hM'
    rw [h2]
    exact hu.triplets i hi j t ht M h1

/-- The displaced copies and their energies. -/
theorem copies_ok (hq : CheckReady q P n modes) (hdone : ReadDone n u) (hinv : u.Inverted)
    (hu : Checkable q P modes u delta) :
    ∃ D X, (∀ M ∈ modes, CopiesOK q P n M.maxCutoffRadius u delta D X) ∧
      ∀ k < 6 * u.atoms.length, ∃ m, SameArrangement 1 0 id m
        (u.along (k / 6) ⟨k % 3, Nat.mod_lt _ (by decide)⟩ ((numericSign k : ℝ) * delta)) (D k) := by
  obtain ⟨M0, hM0⟩ := List.exists_mem_of_ne_nil _ hq.processes
  have hbox := (hu.original M0 hM0).box
  have hspec : ∀ k, ∃ (d : Structure) (x : ℝ), k < 6 * u.atoms.length → displacedCopy u delta k = some d ∧
      ReadDone n d ∧ (∀ M ∈ modes, Prediction.Suits { q with mode := M } P d) ∧ q.IsPlainEnergy P d x ∧
      ∃ m, SameArrangement 1 0 id m
        (u.along (k / 6) ⟨k % 3, Nat.mod_lt _ (by decide)⟩ ((numericSign k : ℝ) * delta)) d := by
    intro k
    by_cases hk : k < 6 * u.atoms.length
    · have hi : k / 6 < u.atoms.length := by omega
      have ht := abs_sign_mul k delta
      obtain ⟨d, m, h1, h2, h3, h4, h5⟩ := displacedCopy_spec hdone hinv hbox hi fun hp => hu.near hp _ hi _ _ ht
      have hdbox : d.isPeriodic = true → NonSingular d.box := by
        rw [h3, h4]
        exact hbox
      have hlen : d.atoms.length = u.atoms.length := by rw [h5.length, along_length]
      have hR : P.Within M0.maxCutoffRadius d := by
        intro i hi S hS
        refine ((hq.setup M0 hM0).valid ?_ hS).2.2
        rw [elementOf_eq (List.getElem?_eq_getElem hi)]
        exact (h2.atom i _ (List.getElem?_eq_getElem hi)).element
      obtain ⟨E, hE⟩ := exists_isEnergy P M0.maxCutoffRadius (s := d.scaled q.lengthUnit) fun hp =>
        (scaled_boxed hq.lengthUnit (s := d) (fun hp => ⟨hdbox hp, h2.inside hp (hdbox hp)⟩) hp).1
      exact ⟨d, _, fun _ => ⟨h1, h2, fun M hM => ⟨hdbox, h5.apart (hu.apart _ hi _ _ ht),
        (h5.scaled _).triplets (hu.triplets _ hi _ _ ht M hM)⟩, ⟨_, E, hR, hE, rfl⟩, m, h5⟩⟩
    · exact ⟨u, 0, fun h => absurd h hk⟩
  choose D X hDX using hspec
  exact ⟨D, X, fun M hM => ⟨fun k hk => (hDX k hk).1, fun k hk => ⟨(hDX k hk).2.1, fun M' hM' =>
    ((hDX k hk).2.2.1 M hM).congr hM'⟩, fun k hk => (hDX k hk).2.2.2.1⟩, fun k hk => (hDX k hk).2.2.2.2⟩

/-- The rows of the file. -/
theorem rows_eq {as : List Atom} {w : Structure} {X : ℕ → ℝ} (hl : w.atoms.length = as.length)
    (h : ∀ i (a : Atom), as[i]? = some a → ∀ j : Fin 3, a.f j = X (6 * i + j) ∧ a.fRef j = X (6 * i + 3 + j)) :
    ∃ rows, as.zipIdx.mapM (fun ai => (w.atoms[ai.2]?).map (checkRows delta ai.2 ai.1)) = some rows ∧
      rows.flatten = forceTable as.length (fun i j => w.forceOn i j)
        (fun i j => -((X (6 * i + 3 + j) - X (6 * i + j)) / (2 * delta))) := by
  obtain ⟨rows, hr⟩ := mapM_exists (l := as.zipIdx)
    (f := fun ai : Atom × ℕ => (w.atoms[ai.2]?).map (checkRows delta ai.2 ai.1)) (by
    rintro ⟨a, i⟩ ha
    have := List.mem_zipIdx_iff_getElem?.1 ha
    have hi : i < w.atoms.length := by
      rw [hl]
      exact (List.getElem?_eq_some_iff.1 this).1
    exact ⟨_, by dsimp only; rw [List.getElem?_eq_getElem hi]; rfl⟩)
  refine ⟨rows, hr, ?_⟩
  obtain ⟨h1, h2⟩ := mapM_some hr
  unfold forceTable
  rw [List.flatMap_def]
  congr 1
  apply List.ext_getElem?
  intro i
  by_cases hi : i < as.length
  · have hz : as.zipIdx[i]? = some (as[i], i) := by
      rw [List.getElem?_zipIdx, List.getElem?_eq_getElem hi]
      simp
    obtain ⟨b, g1, g2⟩ := h2 i _ hz
    have hiw : i < w.atoms.length := by rw [hl]; exact hi
    dsimp only at g2
    rw [List.getElem?_eq_getElem hiw] at g2
    have g2 := Option.some.inj g2
    rw [g1, List.getElem?_map, List.getElem?_range hi, ← g2]
    unfold checkRows
    rw [Option.map_some]
    congr 1
    refine List.map_congr_left fun j _ => ?_
    obtain ⟨k1, k2⟩ := h i _ (List.getElem?_eq_getElem hi) j
    rw [k1, k2, neg_div]
    congr 1
    unfold Structure.forceOn
    dsimp only
    rw [List.getElem?_eq_getElem hiw]
    rfl
  · rw [List.getElem?_eq_none (by rw [h1, List.length_zipIdx]; omega), List.getElem?_eq_none (by simp; omega)]

/-- The whole run for one structure. -/
theorem check_forces (hsrt : IsSort srt) (hq : CheckReady q P n modes) (hP : P.Fits n) (hn : 0 < n)
    (hdone : ReadDone n u) (hinv : u.Inverted) (hu : Checkable q P modes u delta) :
    ∃ modes' res M w D X, checkForces srt q modes u delta = some (modes', res) ∧ CheckReady q P n modes' ∧
      modes'.map (fun M => M.maxCutoffRadius) = modes.map (fun M => M.maxCutoffRadius) ∧
      modes.head? = some M ∧ q.HasForces P M u w ∧ CopiesOK q P n M.maxCutoffRadius u delta D X ∧
      (∀ k < 6 * u.atoms.length, ∃ m, SameArrangement 1 0 id m
        (u.along (k / 6) ⟨k % 3, Nat.mod_lt _ (by decide)⟩ ((numericSign k : ℝ) * delta)) (D k)) ∧
      res = checkResult delta u.atoms.length (forceTable u.atoms.length (fun i j => w.forceOn i j)
        (fun i j => -((X (6 * i + 3 + j) - X (6 * i + j)) / (2 * delta)))) := by
  obtain ⟨D, X, hD, hA⟩ := copies_ok hq hdone hinv hu
  have hgood : ∀ M ∈ modes, q.Good P n M.maxCutoffRadius u := fun M hM =>
    ⟨hdone, fun M' hM' => (hu.original M hM).congr hM'⟩
  have hz : ∀ (Mp : Mode × ℕ), Mp ∈ modes.zipIdx → Mp.1 ∈ modes ∧ Mp.2 < modes.length ∧ modes[Mp.2]? = some Mp.1 := by
    rintro ⟨M, p⟩ h
    have := List.mem_zipIdx_iff_getElem?.1 h
    exact ⟨List.mem_of_getElem? this, (List.getElem?_eq_some_iff.1 this).1, this⟩
  have hproc : ∀ Mp ∈ modes.zipIdx, _ := fun Mp h => check_process hsrt hP hn hq.lengthUnit (hq.setup _ (hz Mp h).1)
    (hgood _ (hz Mp h).1) (hD _ (hz Mp h).1) (hz Mp h).2.1
  obtain ⟨parts, hparts⟩ := mapM_exists (l := modes.zipIdx)
    (f := fun Mp : Mode × ℕ => checkProcess srt q u delta modes.length Mp.1 Mp.2)
    (fun Mp h => (hproc Mp h).imp fun r hr => hr.1)
  obtain ⟨hl, hm⟩ := mapM_some hparts
  rw [List.length_zipIdx] at hl
  have hpart : ∀ p M, modes[p]? = some M → ∃ r, parts[p]? = some r ∧ r.mode.SetUp P n ∧
      r.mode.maxCutoffRadius = M.maxCutoffRadius ∧
      r.table = (((copyNumbers (1 + 6 * u.atoms.length) modes.length p).map fun c =>
        (Pi.single c (entryOf c (X c)) : ℕ → CheckEntry)).sum) ∧
      (p = 0 → ∃ w, r.structures.head? = some w ∧ w.atoms.length = u.atoms.length ∧ q.HasForces P M u w) := by
    intro p M hp
    have hzp : modes.zipIdx[p]? = some (M, p) := by
      rw [List.getElem?_zipIdx, hp]
      simp
    obtain ⟨r, g1, g2⟩ := hm p _ hzp
    obtain ⟨r', k1, k2⟩ := hproc _ (List.mem_of_getElem? hzp)
    rw [g2] at k1
    cases k1
    exact ⟨r, g1, k2⟩
  -- the table
  have hP0 : 0 < modes.length := List.length_pos_iff.2 hq.processes
  have htab : (parts.map fun r => r.table).sum =
      ((List.range (6 * u.atoms.length)).map fun c => (Pi.single c (entryOf c (X c)) : ℕ → CheckEntry)).sum := by
    rw [← copyNumbers_all (N := u.atoms.length) hP0, ← copyNumbers_flat, sum_flatMap]
    congr 1
    apply List.ext_getElem?
    intro p
    by_cases hp : p < modes.length
    · obtain ⟨r, g1, -, -, g2, -⟩ := hpart p _ (List.getElem?_eq_getElem hp)
      rw [List.getElem?_map, List.getElem?_map, g1, List.getElem?_range hp]
      exact congrArg some g2
    · rw [List.getElem?_eq_none (by rw [List.length_map]; omega), List.getElem?_eq_none (by simp; omega)]
  obtain ⟨as, s1, s2, s3⟩ := store_all (t := (parts.map fun r => r.table).sum) (X := X) (atoms := u.atoms)
    (6 * u.atoms.length) le_rfl fun c hc => by rw [htab, sum_single_range (fun c => entryOf c (X c)) _ hc]
  obtain ⟨M, hM⟩ : ∃ M, modes[0]? = some M := ⟨_, List.getElem?_eq_getElem hP0⟩
  obtain ⟨r0, r1, -, -, -, r5⟩ := hpart 0 M hM
  obtain ⟨w, w1, w2, w3⟩ := r5 rfl
  obtain ⟨rows, t1, t2⟩ := rows_eq (delta := delta) (as := as) (w := w) (X := X) (w2.trans s2.symm) (by
    intro i a ha j
    have hi : i < as.length := (List.getElem?_eq_some_iff.1 ha).1
    have hj := j.2
    exact ⟨(s3 i a ha j).1 (by omega), (s3 i a ha j).2 (by omega)⟩)
  rw [s2] at t2
  have hmodes : (parts.map fun r => r.mode).map (fun M => M.maxCutoffRadius) = modes.map fun M => M.maxCutoffRadius := by
    apply List.ext_getElem?
    intro p
    by_cases hp : p < modes.length
    · obtain ⟨r, g1, -, g2, -⟩ := hpart p _ (List.getElem?_eq_getElem hp)
      rw [List.getElem?_map, List.getElem?_map, List.getElem?_map, g1, List.getElem?_eq_getElem hp]
      exact congrArg some g2
    · rw [List.getElem?_eq_none (by simp; omega), List.getElem?_eq_none (by simp; omega)]
  refine ⟨parts.map fun r => r.mode, _, M, w, D, X, ?_, ⟨?_, ?_, hq.emap, hq.energyUnit, hq.lengthUnit⟩, hmodes,
    by rw [List.head?_eq_getElem?]; exact hM, w3, hD M (List.mem_of_getElem? hM), hA, rfl⟩
  · unfold checkForces
    dsimp only
    rw [hdone.numAtoms, hparts]
    refine (congrArg (Option.bind · _) s1).trans ?_
    refine (congrArg (Option.bind · _) ((List.head?_eq_getElem? (l := parts)).trans r1)).trans ?_
    refine (congrArg (Option.bind · _) w1).trans ?_
    refine (congrArg (Option.bind · _) t1).trans ?_
    show some (_, checkResult delta u.atoms.length rows.flatten) = _
    rw [t2]
  · intro h
    have := congrArg List.length h
    rw [List.length_map, List.length_nil] at this
    omega
  · intro M' hM'
    obtain ⟨r, hr, rfl⟩ := List.mem_map.1 hM'
    obtain ⟨p, hp, rfl⟩ := List.getElem_of_mem hr
    obtain ⟨r', g1, g2, -⟩ := hpart p _ (List.getElem?_eq_getElem (by omega))
    rw [List.getElem?_eq_getElem hp] at g1
    rw [Option.some.inj g1]
    exact g2

theorem plain_unique (hsrt : IsSort srt) {M : Mode} (hM : M.SetUp P n) (hP : P.Fits n) (hn : 0 < n)
    (hL : q.lengthUnit ≠ 0) {s : Structure} (hs : q.Good P n M.maxCutoffRadius s) {x y : ℝ}
    (hx : q.IsPlainEnergy P s x) (hy : q.IsPlainEnergy P s y) : x = y := by
  obtain ⟨_, w, -, -, -, -, h, -⟩ := check_one hsrt hM hP hn hL hs.done (hs.suits M rfl) false
  rw [(h x).1 hx, (h y).1 hy]

theorem checked_of_run (hsrt : IsSort srt) (hq : CheckReady q P n modes) (hP : P.Fits n) (hn : 0 < n)
    {M : Mode} (hM : M.SetUp P n) {w : Structure} {D : ℕ → Structure} {X : ℕ → ℝ} (hw : q.HasForces P M u w)
    (hD : CopiesOK q P n M.maxCutoffRadius u delta D X)
    (hA : ∀ k < 6 * u.atoms.length, ∃ m, SameArrangement 1 0 id m
        (u.along (k / 6) ⟨k % 3, Nat.mod_lt _ (by decide)⟩ ((numericSign k : ℝ) * delta)) (D k)) :
    ForcesChecked q P M.maxCutoffRadius u delta (checkResult delta u.atoms.length
      (forceTable u.atoms.length (fun i j => w.forceOn i j)
        (fun i j => -((X (6 * i + 3 + j) - X (6 * i + j)) / (2 * delta))))) := by
  refine ⟨fun i j => w.forceOn i j, fun G hG => ?_, ?_⟩
  · show forceTable _ _ _ = _
    unfold forceTable
    refine List.flatMap_congr fun i hi => List.map_congr_left fun j _ => ?_
    have hi := List.mem_range.1 hi
    have hj := j.2
    obtain ⟨R, Xp, Xm, hR, hp, hm, e⟩ := hG i hi j
    -- the energy of a copy
    have key : ∀ (k : ℕ) (σ x : ℝ), k < 6 * u.atoms.length → k / 6 = i → k % 3 = j → (numericSign k : ℝ) = σ →
        q.IsEnergy P R (u.along i j (σ * delta)) x →
        x = X k + ∑ l ∈ Finset.range u.atoms.length, q.offsets.getD (u.elementOf l) 0 := by
      intro k σ x hk h1 h2 h3 hx
      obtain ⟨m, ha⟩ := hA k hk
      have hj' : (⟨k % 3, Nat.mod_lt _ (by decide)⟩ : Fin 3) = j := Fin.ext h2
      rw [h1, hj', h3] at ha
      obtain ⟨E, hE, rfl⟩ := hx
      have hlen : (D k).atoms.length = u.atoms.length := by rw [ha.length, along_length]
      have hW : P.Within R (D k) := by
        rw [ha.within]
        intro l hl
        rw [along_length] at hl
        rw [along_elementOf]
        exact hR l hl
      rw [plain_unique hsrt hM hP hn hq.lengthUnit (hD.good k hk) (hD.energy k hk)
        ⟨R, E, hW, (ha.scaled _).isEnergy hE, rfl⟩, hlen, along_length, add_assoc]
      congr 1
      unfold Prediction.baseEnergy
      rw [Finset.sum_add_distrib, Finset.sum_const, Finset.card_range, nsmul_eq_mul]
      congr 1
      exact Finset.sum_congr rfl fun l _ => by rw [along_elementOf]
    have e1 := key (6 * i + 3 + j) 1 Xp (by omega) (by omega) (by omega) (by
      unfold numericSign
      rw [show (6 * i + 3 + j.val) % 6 / 3 = 1 by omega]
      norm_num) (by rw [one_mul]; exact hp)
    have e2 := key (6 * i + j) (-1) Xm (by omega) (by omega) (by omega) (by
      unfold numericSign
      rw [show (6 * i + j.val) % 6 / 3 = 0 by omega]
      norm_num) (by rw [neg_one_mul]; exact hm)
    rw [e, e1, e2, add_sub_add_right_eq_sub]
  · intro hsm hown i hi j R hR Y hY
    choose E hE hYE using hY
    have hd := hw hsm hown (fun k t => u.position k + if k = i then (Pi.single j t : Vec3) else 0)
      (fun k => if k = i then (Pi.single j 1 : Vec3) else 0) 0 (fun k _ => by rw [Pi.single_zero, ite_self, add_zero])
      (fun k _ => by
        by_cases hk : k = i
        · simp only [if_pos hk]
          refine HasDerivAt.const_add _ ?_
          rw [hasDerivAt_pi]
          intro l
          by_cases hl : l = j
          · subst hl
            simp only [Pi.single_eq_same]
            exact hasDerivAt_id 0
          · simp only [Pi.single_eq_of_ne hl]
            exact hasDerivAt_const _ _
        · simp only [if_neg hk]
          exact hasDerivAt_const _ _) R hR E hE
    have hY' : Y = fun t => E t / q.energyUnit +
        ∑ l ∈ Finset.range u.atoms.length, q.baseEnergy (u.elementOf l) := by
      funext t
      rw [hYE t, along_length]
      congr 1
      exact Finset.sum_congr rfl fun l _ => by rw [along_elementOf]
    rw [hY']
    refine (hd.add_const _).congr_deriv ?_
    congr 1
    rw [Finset.sum_eq_single i]
    · rw [if_pos rfl]
      fin_cases j <;> simp [Vec3.dot]
    · intro k _ hk
      rw [if_neg hk]
      simp [Vec3.dot]
    · intro h
      exact absurd (Finset.mem_range.2 hi) h

/-- **C106.** Let all processes be set up for the potential `P`. For every structure in the data file for which the potential can be
evaluated, nnp-checkf finishes, on any number of processes, and lists for each atom and axis the analytic force and the central
difference of the energy. The processes are ready for the next structure. -/
theorem C106_rows (hsrt : IsSort srt) (hq : CheckReady q P n modes) (hP : P.Fits n) (hn : 0 < n) (file rest : List Str)
    (e : (Structure.forReading q.emap 0).readFromFile N q.emap file = some (u, rest))
    (hu : Checkable q P modes u delta) :
    ∃ modes' res, checkForces srt q modes u delta = some (modes', res) ∧ CheckReady q P n modes' ∧
      modes'.map (fun M => M.maxCutoffRadius) = modes.map (fun M => M.maxCutoffRadius) ∧
      ∀ M ∈ modes.head?, ForcesChecked q P M.maxCutoffRadius u delta res := by
  have hdone := readFromFile_done e
  rw [hq.emap] at hdone
  obtain ⟨modes', res, M, w, D, X, h1, h2, h3, h4, h5, h6, h7, h8⟩ :=
    check_forces hsrt hq hP hn hdone (readFromFile_inverted e) hu
  refine ⟨modes', res, h1, h2, h3, fun M' hM' => ?_⟩
  rw [h4] at hM'
  cases hM'
  rw [h8]
  exact checked_of_run hsrt hq hP hn (hq.setup M (List.mem_of_mem_head? h4)) h5 h6 h7

/-- **C106 (all structures).** The same holds for all structures of the data file. -/
theorem C106_all (hsrt : IsSort srt) (hP : P.Fits n) (hn : 0 < n) (us : List Structure) (modes : List Mode)
    (hq : CheckReady q P n modes)
    (hus : ∀ u ∈ us, ∃ file rest, (Structure.forReading q.emap 0).readFromFile N q.emap file = some (u, rest))
    (hu : ∀ u ∈ us, Checkable q P modes u delta) :
    ∃ modes' rs, checkConfigurations srt q delta modes us = some (modes', rs) ∧ CheckReady q P n modes' ∧
      ∀ M ∈ modes.head?, List.Forall₂ (fun u res => ForcesChecked q P M.maxCutoffRadius u delta res) us rs := by
  induction us generalizing modes with
  | nil => exact ⟨modes, [], rfl, hq, fun _ _ => .nil⟩
  | cons u us ih =>
    obtain ⟨file, rest, e⟩ := hus u List.mem_cons_self
    obtain ⟨m1, res, h1, h2, h3, h4⟩ := C106_rows hsrt hq hP hn file rest e (hu u List.mem_cons_self)
    obtain ⟨m2, rs, g1, g2, g3⟩ := ih m1 h2 (fun u h => hus u (List.mem_cons_of_mem _ h))
      (fun u h => (hu u (List.mem_cons_of_mem _ h)).congr h3)
    refine ⟨m2, res :: rs, ?_, g2, fun M hM => .cons (h4 M hM) ?_⟩
    · unfold checkConfigurations
      refine (congrArg (Option.bind · _) h1).trans ?_
      exact (congrArg (Option.bind · _) g1).trans rfl
    · have hh := congrArg List.head? h3
      rw [List.head?_map, List.head?_map, show modes.head? = some M from hM] at hh
      obtain ⟨M1, k1, k2⟩ := Option.map_eq_some_iff.1 hh
      have := g3 M1 k1
      rwa [k2] at this

theorem forceTable_mem {k : ℕ} {F G : ℕ → Fin 3 → ℝ} {r : CheckRow} (h : r ∈ forceTable k F G) :
    ∃ i < k, ∃ j, r.analytic = F i j ∧ r.numeric = G i j := by
  obtain ⟨i, hi, h⟩ := List.mem_flatMap.1 h
  obtain ⟨j, -, rfl⟩ := List.mem_map.1 h
  exact ⟨i, List.mem_range.1 hi, j, rfl, rfl⟩

theorem central_difference {X : ℝ → ℝ} {d : ℝ} (h : HasDerivAt X d 0) {ε : ℝ} (hε : 0 < ε) :
    ∃ δ0 > 0, ∀ δ, 0 < |δ| → |δ| < δ0 → |-((X δ - X (-δ)) / (2 * δ)) - -d| < ε := by
  have hs := (hasDerivAt_iff_tendsto_slope_zero.1 h)
  simp only [zero_add] at hs
  rw [Metric.tendsto_nhdsWithin_nhds] at hs
  obtain ⟨δ0, h0, hs⟩ := hs ε hε
  refine ⟨δ0, h0, fun δ h1 h2 => ?_⟩
  have hne : δ ≠ 0 := abs_pos.1 h1
  have a := hs (x := δ) hne (by rw [Real.dist_eq, sub_zero]; exact h2)
  have b := hs (x := -δ) (neg_ne_zero.2 hne) (by rw [Real.dist_eq, sub_zero, abs_neg]; exact h2)
  rw [Real.dist_eq, smul_eq_mul] at a b
  have e : -((X δ - X (-δ)) / (2 * δ)) - -d = -((δ⁻¹ * (X δ - X 0) - d) / 2 + ((-δ)⁻¹ * (X (-δ) - X 0) - d) / 2) := by
    field_simp
    ring
  rw [e, abs_neg]
  refine (abs_add_le _ _).trans_lt ?_
  rw [abs_div, abs_div, abs_two]
  linarith

/-- **C106 (agreement).** Where the potential is differentiable and no atom sees its own periodic images, the two columns agree to any
accuracy if the displacement is small enough. -/
theorem C106_agreement (hsrt : IsSort srt) (hq : CheckReady q P n modes) (hP : P.Fits n) (hn : 0 < n) (file rest : List Str)
    (e : (Structure.forReading q.emap 0).readFromFile N q.emap file = some (u, rest))
    (hsm : ∀ M ∈ modes.head?, P.Smooth M.maxCutoffRadius (u.scaled q.lengthUnit))
    (hown : P.NoOwnImages (u.scaled q.lengthUnit)) {ε : ℝ} (hε : 0 < ε) :
    ∃ δ0 > 0, ∀ δ, 0 < |δ| → |δ| < δ0 → Checkable q P modes u δ →
      ∃ modes' res, checkForces srt q modes u δ = some (modes', res) ∧
        (∀ r ∈ res.rows, |r.numeric - r.analytic| < ε) ∧ res.maxAbsError < ε := by
  have hdone := readFromFile_done e
  rw [hq.emap] at hdone
  by_cases hbox : u.isPeriodic = true → NonSingular u.box
  swap
  · refine ⟨1, one_pos, fun δ _ _ hu => absurd ?_ hbox⟩
    obtain ⟨M0, hM0⟩ := List.exists_mem_of_ne_nil _ hq.processes
    exact (hu.original M0 hM0).box
  obtain ⟨M, ms, rfl⟩ := List.exists_cons_of_ne_nil hq.processes
  have hM := hq.setup M List.mem_cons_self
  have hR : P.Within M.maxCutoffRadius u := by
    intro i hi S hS
    refine (hM.valid ?_ hS).2.2
    rw [elementOf_eq (List.getElem?_eq_getElem hi)]
    exact (hdone.atom i _ (List.getElem?_eq_getElem hi)).element
  have hex : ∀ (i : ℕ) (j : Fin 3) (t : ℝ), ∃ x, q.IsEnergy P M.maxCutoffRadius (u.along i j t) x := by
    intro i j t
    obtain ⟨E, hE⟩ := exists_isEnergy P M.maxCutoffRadius (s := (u.along i j t).scaled q.lengthUnit) fun hp => by
      have hp : u.isPeriodic = true := hp
      show NonSingular (if u.isPeriodic then fun k => q.lengthUnit • u.box k else u.box)
      rw [if_pos hp]
      exact nonSingular_smul hq.lengthUnit (hbox hp)
    exact ⟨_, E, hE, rfl⟩
  choose X hX using hex
  -- the rows of any run
  have hrun : ∀ δ, Checkable q P (M :: ms) u δ → ∃ modes' res F, checkForces srt q (M :: ms) u δ = some (modes', res) ∧
      res.rows = forceTable u.atoms.length F (fun i j => -((X i j δ - X i j (-δ)) / (2 * δ))) ∧
      (∀ i < u.atoms.length, ∀ j, HasDerivAt (X i j) (-F i j) 0) ∧
      ∃ k, res = checkResult δ k res.rows := by
    intro δ hu
    obtain ⟨modes', res, M', w, D, Y, h1, -, -, h4, h5, h6, h7, h8⟩ :=
      check_forces hsrt hq hP hn hdone (readFromFile_inverted e) hu
    cases h4
    obtain ⟨F, f1, f2⟩ := checked_of_run hsrt hq hP hn hM h5 h6 h7
    refine ⟨modes', res, F, h1, ?_, fun i hi j => f2 (hsm M rfl) hown i hi j _ hR (X i j) (hX i j), _, by rw [h8]; rfl⟩
    rw [h8]
    exact f1 _ fun i hi j => ⟨_, _, _, hR, hX i j δ, hX i j (-δ), rfl⟩
  have hfin : ∀ k ≤ u.atoms.length, ∃ δ0 > 0, ∀ δ, 0 < |δ| → |δ| < δ0 → ∀ F : ℕ → Fin 3 → ℝ,
      (∀ i < u.atoms.length, ∀ j, HasDerivAt (X i j) (-F i j) 0) → ∀ i < k, ∀ j,
      |-((X i j δ - X i j (-δ)) / (2 * δ)) - F i j| < ε := by
    intro k
    induction k with
    | zero => exact fun _ => ⟨1, one_pos, fun _ _ _ _ _ i hi => absurd hi (Nat.not_lt_zero i)⟩
    | succ k ih =>
      intro hk
      obtain ⟨δ0, h0, h⟩ := ih (by omega)
      have hk3 : ∀ j : Fin 3, ∃ δ1 > 0, ∀ δ, 0 < |δ| → |δ| < δ1 → ∀ F : ℕ → Fin 3 → ℝ,
          HasDerivAt (X k j) (-F k j) 0 → |-((X k j δ - X k j (-δ)) / (2 * δ)) - F k j| < ε := by
        intro j
        by_cases hd : DifferentiableAt ℝ (X k j) 0
        · obtain ⟨δ1, a1, a2⟩ := central_difference hd.hasDerivAt hε
          refine ⟨δ1, a1, fun δ b1 b2 F hF => ?_⟩
          have := a2 δ b1 b2
          rwa [hF.deriv, neg_neg] at this
        · exact ⟨1, one_pos, fun δ _ _ F hF => absurd hF.differentiableAt hd⟩
      choose δ1 a1 a2 using hk3
      refine ⟨min δ0 (min (δ1 0) (min (δ1 1) (δ1 2))), by simp [h0, a1], fun δ b1 b2 F hF i hi j => ?_⟩
      simp only [lt_min_iff] at b2
      by_cases hik : i = k
      · subst hik
        refine a2 j δ b1 ?_ F (hF i (by omega) j)
        fin_cases j
        · exact b2.2.1
        · exact b2.2.2.1
        · exact b2.2.2.2
      · exact h δ b1 b2.1 F hF i (by omega) j
  obtain ⟨δ0, h0, h⟩ := hfin _ le_rfl
  refine ⟨δ0, h0, fun δ b1 b2 hu => ?_⟩
  obtain ⟨modes', res, F, r1, r2, r3, k, r4⟩ := hrun δ hu
  have hrows : ∀ r ∈ res.rows, |r.numeric - r.analytic| < ε := by
    intro r hr
    rw [r2] at hr
    obtain ⟨i, hi, j, e1, e2⟩ := forceTable_mem hr
    rw [e1, e2]
    exact h δ b1 b2 F r3 i hi j
  refine ⟨modes', res, r1, hrows, ?_⟩
  rw [r4]
  show List.foldl _ 0 _ < ε
  have : ∀ (l : List CheckRow) (m : ℝ), m < ε → (∀ r ∈ l, |r.numeric - r.analytic| < ε) →
      l.foldl (fun (m : ℝ) r => max |r.numeric - r.analytic| m) m < ε := by
    intro l
    induction l with
    | nil => exact fun m hm _ => hm
    | cons r l ih =>
      intro m hm hl
      exact ih _ (max_lt (hl r List.mem_cons_self) hm) (fun r hr => hl r (List.mem_cons_of_mem _ hr))
  exact this _ 0 hε hrows

theorem fold_max (l : List CheckRow) (m : ℝ) :
    m ≤ l.foldl (fun (m : ℝ) r => max |r.numeric - r.analytic| m) m ∧
    (∀ r ∈ l, |r.numeric - r.analytic| ≤ l.foldl (fun (m : ℝ) r => max |r.numeric - r.analytic| m) m) ∧
    (l.foldl (fun (m : ℝ) r => max |r.numeric - r.analytic| m) m = m ∨
      ∃ r ∈ l, l.foldl (fun (m : ℝ) r => max |r.numeric - r.analytic| m) m = |r.numeric - r.analytic|) := by
  induction l generalizing m with
  | nil => exact ⟨le_rfl, fun r hr => absurd hr (List.not_mem_nil), Or.inl rfl⟩
  | cons r l ih =>
    obtain ⟨h1, h2, h3⟩ := ih (max |r.numeric - r.analytic| m)
    refine ⟨(le_max_right _ _).trans h1, fun x hx => ?_, ?_⟩
    · rcases List.mem_cons.1 hx with rfl | hx
      · exact (le_max_left _ _).trans h1
      · exact h2 x hx
    · rcases h3 with h3 | ⟨x, hx, h3⟩
      · rw [List.foldl_cons, h3]
        rcases max_choice |r.numeric - r.analytic| m with h | h
        · exact .inr ⟨r, List.mem_cons_self, h⟩
        · exact .inl h
      · exact .inr ⟨x, List.mem_cons_of_mem _ hx, h3⟩

theorem fold_errors (l : List CheckRow) (m : ℝ) :
    l.foldl (fun (m : ℝ) r => m + |r.numeric - r.analytic|) m = m + (l.map fun r => |r.numeric - r.analytic|).sum := by
  induction l generalizing m with
  | nil => simp
  | cons r l ih => rw [List.foldl_cons, ih, List.map_cons, List.sum_cons, add_assoc]

/-- **C106 (summary).** The summary of a structure counts the lines, its mean and maximum are those of the absolute differences, and
the tool warns if and only if some difference exceeds ten times the square of the displacement. -/
theorem C106_summary {modes' : List Mode} {res : CheckResult} (h : checkForces srt q modes u delta = some (modes', res)) :
    res.numForces = res.rows.length ∧
    (∀ r ∈ res.rows, |r.numeric - r.analytic| ≤ res.maxAbsError) ∧
    (res.rows ≠ [] → ∃ r ∈ res.rows, res.maxAbsError = |r.numeric - r.analytic|) ∧
    (res.rows ≠ [] → res.meanAbsError = (res.rows.map fun r => |r.numeric - r.analytic|).sum / res.rows.length) ∧
    (res.warning = true ↔ ∃ r ∈ res.rows, |r.numeric - r.analytic| > 10 * delta ^ 2) := by
  unfold checkForces at h
  obtain ⟨parts, -, h⟩ := Option.bind_eq_some_iff.1 h
  obtain ⟨as, ha, h⟩ := Option.bind_eq_some_iff.1 h
  obtain ⟨first, -, h⟩ := Option.bind_eq_some_iff.1 h
  obtain ⟨ref, -, h⟩ := Option.bind_eq_some_iff.1 h
  obtain ⟨rows, hr, h⟩ := Option.bind_eq_some_iff.1 h
  cases h
  have hlen : as.length = u.atoms.length := by
    have : ∀ (l : List ℕ) (a b : List Atom), l.foldlM (storeEnergy (parts.map fun r => r.table).sum) a = some b →
        b.length = a.length := by
      intro l
      induction l with
      | nil => intro a b h; cases h; rfl
      | cons i l ih =>
        intro a b h
        rw [List.foldlM_cons] at h
        obtain ⟨c, h1, h2⟩ := Option.bind_eq_some_iff.1 h
        rw [ih c b h2]
        unfold storeEnergy at h1
        obtain ⟨x, -, h1⟩ := Option.bind_eq_some_iff.1 h1
        split_ifs at h1 <;> cases h1 <;> simp
    exact this _ _ _ ha
  obtain ⟨hl, hm⟩ := mapM_some hr
  have h3 : rows.flatten.length = 3 * u.atoms.length := by
    rw [List.length_flatten]
    have : ∀ x ∈ rows.map List.length, x = 3 := by
      intro x hx
      obtain ⟨b, hb, rfl⟩ := List.mem_map.1 hx
      obtain ⟨i, hi, rfl⟩ := List.getElem_of_mem hb
      obtain ⟨ai, -, g2⟩ := mapM_getElem? hr (List.getElem?_eq_getElem hi)
      obtain ⟨a, -, g3⟩ := Option.map_eq_some_iff.1 g2
      rw [← g3]
      simp [checkRows]
    rw [List.eq_replicate_of_mem this, List.sum_replicate, List.length_map, hl, List.length_zipIdx, hlen, smul_eq_mul,
      mul_comm]
  obtain ⟨m1, m2, m3⟩ := fold_max rows.flatten 0
  refine ⟨h3.symm, m2, fun hne => ?_, fun _ => ?_, ?_⟩
  · rcases m3 with m3 | m3
    · obtain ⟨r, hr⟩ := List.exists_mem_of_ne_nil _ hne
      exact ⟨r, hr, le_antisymm (m3.le.trans (abs_nonneg _)) (m2 r hr)⟩
    · exact m3
  · show List.foldl _ 0 rows.flatten / ((3 * u.atoms.length : ℕ) : ℝ) = _
    rw [fold_errors, zero_add]
    show _ = _ / ((rows.flatten.length : ℕ) : ℝ)
    rw [h3]
    rfl
  · show decide (_ > 10 * delta * delta) = true ↔ _
    rw [decide_eq_true_eq, show 10 * delta ^ 2 = 10 * delta * delta by ring]
    constructor
    · intro hw
      rcases m3 with m3 | ⟨r, hr, m3⟩
      · rw [m3] at hw
        exact absurd hw (by
          have := mul_self_nonneg delta
          rw [mul_assoc]
          show ¬ 10 * (delta * delta) < 0
          linarith)
      · exact ⟨r, hr, by rw [← m3]; exact hw⟩
    · rintro ⟨r, hr, hw⟩
      exact lt_of_lt_of_le hw (m2 r hr)

/-- Three atoms in a row, read from a file, and two processes. -/
theorem exists_exCheck : ∃ (q : Prediction) (modes : List Mode) (file : List Str) (u : Structure) (rest : List Str),
    CheckReady q exPotential 2 modes ∧ modes.length = 2 ∧ q.lengthUnit ≠ 1 ∧
    (Structure.forReading q.emap 0).readFromFile exText q.emap file = some (u, rest) ∧ u.isPeriodic = false ∧
    u.atoms.length = 3 ∧ (∀ δ, |δ| ≤ 1 / 10 → Checkable q exPotential modes u δ) ∧
    (∀ R, exPotential.Smooth R (u.scaled q.lengthUnit)) ∧ exPotential.NoOwnImages (u.scaled q.lengthUnit) := by
  obtain ⟨p, hp, hm, h1, h2, -, h4, -⟩ := exists_exPrediction
  have hf : (exFiled false 3).Filable exText p.emap true := by
    refine ⟨exFiled_comment _ _, fun a ha => ?_, fun h => absurd h (by decide),
      fun h => absurd h (by decide), fun h => absurd h (by decide)⟩
    rw [hp.emap]
    simp only [exFiled, List.mem_cons, List.not_mem_nil, or_false] at ha
    rcases ha with rfl | rfl | rfl <;> decide
  obtain ⟨text, -, g⟩ := C58_roundtrip_partial exText_sane hm (exFiled false 3) true hf 0
  obtain ⟨u, g1, g2⟩ := g []
  have hlen : u.atoms.length = 3 := g2.length
  have hpos : ∀ i < 3, u.position i 0 = [1, 2, 9].getD i 0 := by
    intro i hi
    have hi' : i < (exFiled false 3).atoms.length := hi
    have := (g2.atom i _ _ (List.getElem?_eq_getElem hi')
      (List.getElem?_eq_getElem (by rw [hlen]; exact hi))).free rfl
    unfold Structure.position
    rw [List.getElem?_eq_getElem (by rw [hlen]; exact hi)]
    show (u.atoms[i]'_).r 0 = _
    rw [this]
    unfold NumberText.roundedVec
    interval_cases i
    · exact exText_num 1 1 (by norm_num) (by norm_num)
    · exact exText_num 2 2 (by norm_num) (by norm_num)
    · exact exText_num 9 9 (by norm_num) (by norm_num)
  have hper : u.isPeriodic = false := g2.periodic
  have hap : ∀ v : Structure, v.atoms.length = 3 → v.isPeriodic = false →
      (∀ k < 3, |v.position k 0 - u.position k 0| ≤ 1 / 10) → v.Apart := by
    rintro v hvl hvp hv i hi ⟨j, z⟩ ⟨hj, hz, hne⟩ h0
    rw [hvp] at hz
    obtain rfl : z = 0 := hz.resolve_left nofun
    rw [hvl] at hi
    have hj : j < 3 := by rw [← hvl]; exact hj
    unfold Structure.separation at h0
    rw [shift_zero] at h0
    have e0 := congrFun h0 0
    have a1 := abs_le.1 (hv i hi)
    have a2 := abs_le.1 (hv j hj)
    rw [hpos i hi] at a1
    rw [hpos j hj] at a2
    simp only [Pi.sub_apply, Pi.add_apply, Pi.zero_apply] at e0
    interval_cases i <;> interval_cases j <;> simp at hne a1 a2 <;> linarith
  have ha : u.Apart := hap u hlen hper fun k _ => by simp
  have hal : ∀ i < u.atoms.length, ∀ (j : Fin 3) (t : ℝ), |t| ≤ 1 / 10 → (u.along i j t).Apart := by
    intro i _ j t ht
    refine hap _ (by rw [along_length, hlen]) hper fun k hk => ?_
    rw [along_position u i j t (by rw [hlen]; exact hk)]
    by_cases hki : k = i
    · rw [if_pos hki, Pi.add_apply, add_sub_cancel_left]
      by_cases hj : j = 0
      · subst hj
        rw [Pi.single_eq_same]
        exact ht
      · rw [Pi.single_eq_of_ne (Ne.symm hj)]
        norm_num
    · rw [if_neg hki]
      norm_num
  refine ⟨p, [p.mode, p.mode], _, u, _, ⟨by simp, ?_, hp.emap, hp.energyUnit, hp.lengthUnit⟩, rfl, by rw [h2]; norm_num,
    g1, hper, hlen, fun δ hδ => ⟨fun M _ => exPotential_suits hper ha, fun i hi j t ht => hal i hi j t (ht.le.trans hδ),
      fun i hi j t ht M _ => (exPotential_suits (p := { p with mode := M }) (u := u.along i j t) hper
        (hal i hi j t (ht.le.trans hδ))).triplets, fun h => by rw [hper] at h; cases h⟩,
    fun R => exPotential_smooth (scaled_apart hp.lengthUnit ha) R, ?_⟩
  · intro M hM
    simp only [List.mem_cons, List.not_mem_nil, or_false, or_self] at hM
    rw [hM]
    exact hp.setup
  · intro i _ z hz
    obtain ⟨-, h5 | h5, h6⟩ := hz
    · rw [show (u.scaled p.lengthUnit).isPeriodic = u.isPeriodic from rfl, hper] at h5; cases h5
    · exact absurd (by rw [show z = 0 from h5]) h6

/-- All nine forces of the three atoms agree to six digits for all small displacements. -/
example : ∃ (srt : _) (q : Prediction) (modes : List Mode) (u : Structure), modes.length = 2 ∧ ∃ δ0 > 0, ∀ δ, 0 < |δ| →
    |δ| < δ0 → ∃ modes' res, checkForces srt q modes u δ = some (modes', res) ∧ res.rows.length = 9 ∧
      (∀ r ∈ res.rows, |r.numeric - r.analytic| < 1 / 1000000) ∧ res.maxAbsError < 1 / 1000000 := by
  obtain ⟨srt, hsrt⟩ := exists_isSort
  obtain ⟨q, modes, file, u, rest, h1, h2, -, h4, h5, h6, h7, h8, h9⟩ := exists_exCheck
  obtain ⟨δ0, d0, hd⟩ := C106_agreement hsrt h1 exPotential_fits (by norm_num) file rest h4 (fun M _ => h8 _) h9
    (ε := 1 / 1000000) (by norm_num)
  refine ⟨srt, q, modes, u, h2, min δ0 (1 / 10), by simp [d0], fun δ e1 e2 => ?_⟩
  rw [lt_min_iff] at e2
  obtain ⟨modes', res, r1, r2, r3⟩ := hd δ e1 e2.1 (h7 δ e2.2.le)
  refine ⟨modes', res, r1, ?_, r2, r3⟩
  rw [← (C106_summary r1).1]
  unfold checkForces at r1
  obtain ⟨parts, -, h⟩ := Option.bind_eq_some_iff.1 r1
  obtain ⟨as, -, h⟩ := Option.bind_eq_some_iff.1 h
  obtain ⟨first, -, h⟩ := Option.bind_eq_some_iff.1 h
  obtain ⟨ref, -, h⟩ := Option.bind_eq_some_iff.1 h
  obtain ⟨rows, -, h⟩ := Option.bind_eq_some_iff.1 h
  cases h
  show 3 * u.atoms.length = 9
  rw [h6]

/-- Several structures. -/
example : ∃ (srt : _) (q : Prediction) (modes : List Mode) (us : List Structure) (modes' : List Mode)
    (rs : List CheckResult), us.length = 2 ∧
    checkConfigurations srt q (1 / 10) modes us = some (modes', rs) ∧ ∀ M ∈ modes.head?,
      List.Forall₂ (fun u res => ForcesChecked q exPotential M.maxCutoffRadius u (1 / 10) res) us rs := by
  obtain ⟨srt, hsrt⟩ := exists_isSort
  obtain ⟨q, modes, file, u, rest, h1, h2, -, h4, h5, h6, h7, -⟩ := exists_exCheck
  obtain ⟨modes', rs, r1, -, r3⟩ := C106_all (N := exText) (delta := 1 / 10) hsrt exPotential_fits (by norm_num) [u, u] modes
    h1 (fun v hv => ⟨file, rest, by
      simp only [List.mem_cons, List.not_mem_nil, or_false, or_self] at hv
      rw [hv]
      exact h4⟩) (fun v hv => by
      simp only [List.mem_cons, List.not_mem_nil, or_false, or_self] at hv
      rw [hv]
      exact h7 _ (by norm_num))
  exact ⟨srt, q, modes, [u, u], modes', rs, rfl, r1, r3⟩

end N2P2
