import Verif.Lemma.CabanaKernel
import Verif.Lemma.SymFncGrad

/-! Lemmas on the kernels of the CabanaMD interface which calculate the forces. -/

namespace N2P2

/-! ### Power of the forces -/

/-- Power of forces for given velocities of the first `n` atoms. -/
noncomputable def totalPower (n : ℕ) (v : ℕ → Vec3) (f : ℕ → Vec3) : ℝ :=
  ∑ p ∈ Finset.range n, (f p).dot (v p)

theorem totalPower_add {n p : ℕ} (hp : p < n) (v f : ℕ → Vec3) (w : Vec3) :
    totalPower n v (addForce f p w) = totalPower n v f + w.dot (v p) := by
  unfold totalPower addForce
  rw [← Finset.add_sum_erase _ _ (Finset.mem_range.2 hp),
    ← Finset.add_sum_erase (Finset.range n) (fun p => (f p).dot (v p)) (Finset.mem_range.2 hp),
    Function.update_self, add_dot]
  have : ∑ x ∈ (Finset.range n).erase p, (Function.update f p (f p + w) x).dot (v x) =
      ∑ x ∈ (Finset.range n).erase p, (f x).dot (v x) := by
    refine Finset.sum_congr rfl fun x hx => ?_
    rw [Function.update_of_ne (Finset.ne_of_mem_erase hx)]
  rw [this]
  ring

theorem foldl_power {α : Type} {op : (ℕ → Vec3) → α → ℕ → Vec3} {n : ℕ} {v : ℕ → Vec3} {w : α → ℝ} :
    ∀ (l : List α), (∀ a ∈ l, ∀ f, totalPower n v (op f a) = totalPower n v f - w a) →
    ∀ f, totalPower n v (l.foldl op f) = totalPower n v f - (l.map w).sum
  | [], _, f => by simp
  | a :: l, h, f => by
    rw [List.foldl_cons, foldl_power l (fun b hb => h b (List.mem_cons_of_mem _ hb)),
      h a (List.mem_cons_self ..), List.map_cons, List.sum_cons]
    ring

theorem foldlM_power {α : Type} {op : (ℕ → Vec3) → α → Option (ℕ → Vec3)} {n : ℕ} {v : ℕ → Vec3}
    {w : α → ℝ} : ∀ (l : List α), (∀ a ∈ l, ∀ f, ∃ f', op f a = some f' ∧
      totalPower n v f' = totalPower n v f - w a) →
    ∀ f, ∃ f', l.foldlM op f = some f' ∧ totalPower n v f' = totalPower n v f - (l.map w).sum
  | [], _, f => ⟨f, rfl, by simp⟩
  | a :: l, h, f => by
    obtain ⟨f1, h1, h2⟩ := h a (List.mem_cons_self ..) f
    obtain ⟨f2, h3, h4⟩ := foldlM_power l (fun b hb => h b (List.mem_cons_of_mem _ hb)) f1
    refine ⟨f2, ?_, ?_⟩
    · rw [List.foldlM_cons, h1]
      exact h3
    · rw [h4, h2, List.map_cons, List.sum_cons]
      ring

/-! ### Rates -/

open Classical in
/-- Rate of change of what a row of type 2 gets from a neighbour. -/
noncomputable def Cabana.radialRate (M : Cabana) (r : CabanaRow) (nej : ℕ) (d U : Vec3) : ℝ :=
  if r.type = 2 ∧ r.e1 = nej ∧ d.norm < r.rc then
    let fc := (cabanaCutoff M.cutoffType M.cutoffAlpha d.norm r.rc).getD (0, 0)
    (fc.2 - 2 * r.eta * (d.norm - r.rs) * fc.1)
      * Real.exp (-r.eta * (d.norm - r.rs) * (d.norm - r.rs)) / d.norm * d.dot U
  else 0

open Classical in
/-- Rate of change of what a row of type 3 gets from a pair of neighbours. -/
noncomputable def Cabana.angularRate (M : Cabana) (r : CabanaRow) (nej nek : ℕ)
    (dij dik U V : Vec3) : ℝ :=
  if r.InScope nej nek dij dik then
    let djk := dik - dij
    let rij := dij.norm
    let rik := dik.norm
    let rjk := √djk.norm2
    let cij := (cabanaCutoff M.cutoffType M.cutoffAlpha rij r.rc).getD (0, 0)
    let cik := (cabanaCutoff M.cutoffType M.cutoffAlpha rik r.rc).getD (0, 0)
    let cjk := (cabanaCutoff M.cutoffType M.cutoffAlpha rjk r.rc).getD (0, 0)
    let rinvijik := 1 / rij / rik
    let costijk := dij.dot dik * rinvijik
    let pfc := cij.1 * cik.1 * cjk.1
    let pr1 := cik.1 * cjk.1 * cij.2 / rij
    let pr2 := cij.1 * cjk.1 * cik.2 / rik
    let pr3 := cij.1 * cik.1 * cjk.2 / rjk
    let plambda := 1 + r.lambda * costijk
    let fg := r.angular dij dik djk plambda * (2 : ℝ) ^ (1 - r.zeta)
    let pfczl := pfc * r.zeta * r.lambda
    let p2etapl := plambda * (2 * r.eta / r.zeta / r.lambda)
    let q1 := if 0 < r.rs then p2etapl * (rij - r.rs) / rij else p2etapl
    let q2 := if 0 < r.rs then p2etapl * (rik - r.rs) / rik else p2etapl
    let q3 := if 0 < r.rs then p2etapl * (rjk - r.rs) / rjk else p2etapl
    gradOf (fg * (pfczl * (rinvijik - costijk / dij.norm2 - q1) + pr1 * plambda))
      (fg * (pfczl * (rinvijik - costijk / dik.norm2 - q2) + pr2 * plambda))
      (fg * (pfczl * (rinvijik + q3) - pr3 * plambda)) dij dik U V
  else 0

/-- Factor from forces in internal units to those of the program. -/
noncomputable def Cabana.forceUnit (M : Cabana) : ℝ := CFFORCE * (M.convLength / M.convEnergy)

variable {t : CutoffType} {α : ℝ} {T : CabanaTable} {Fs : List SymFnc} {n : ℕ} {v : ℕ → Vec3}

theorem radialForceGroup_power (M : Cabana) (h : T.Holds t α Fs) (nej : ℕ) {i j : ℕ} (hi : i < n)
    (hj : j < n) (d : Vec3) (dEdG : ℕ → ℝ) {g : List ℕ} (hg : g ∈ T.groups) (f : ℕ → Vec3) :
    totalPower n v (M.radialForceGroup T nej i j d dEdG f g) = totalPower n v f
      - (g.map fun m => M.forceUnit * (dEdG (T.rank m) * ((T.scaling m).factor
        * M.radialRate (T.rows m) nej d (v i - v j)))).sum := by
  have hs := (h.groups g hg).2
  unfold Cabana.radialForceGroup
  by_cases hc : (T.rows (g.headD 0)).type = 2 ∧ (T.rows (g.headD 0)).e1 = nej ∧
      d.norm < (T.rows (g.headD 0)).rc
  · rw [if_pos hc]
    refine foldl_power g (fun m hm f => ?_) f
    obtain ⟨⟨-, s1, s2, s3⟩, s4⟩ := hs m hm
    unfold Cabana.radialRate
    rw [if_pos (by rw [s1, s3, s4]; exact hc), s3, totalPower_add hj, totalPower_add hi]
    simp only [Vec3.dot, Cabana.forceUnit, Pi.neg_apply, Pi.sub_apply]
    ring
  · rw [if_neg hc]
    have : (g.map fun m => M.forceUnit * (dEdG (T.rank m) * ((T.scaling m).factor
        * M.radialRate (T.rows m) nej d (v i - v j)))).sum = 0 := by
      apply List.sum_eq_zero
      intro x hx
      obtain ⟨m, hm, rfl⟩ := List.mem_map.1 hx
      obtain ⟨⟨-, s1, s2, s3⟩, s4⟩ := hs m hm
      unfold Cabana.radialRate
      rw [if_neg (by rw [s1, s3, s4]; exact hc)]
      ring
    rw [this, sub_zero]

theorem angularForceGroup_power (M : Cabana) (ht : t = .COS ∨ t = .TANHU)
    (hM : M.cutoffType = t ∧ M.cutoffAlpha = α) (h : T.Holds t α Fs) (nej nek : ℕ) {i j k : ℕ}
    (hi : i < n) (hj : j < n) (hk : k < n) (dij dik : Vec3) (dEdG : ℕ → ℝ) {g : List ℕ}
    (hg : g ∈ T.groups) (f : ℕ → Vec3) (hrc : 0 < (T.rows (g.headD 0)).rc) :
    ∃ f', M.angularForceGroup T nej nek i j k dij dik dEdG f g = some f' ∧
      totalPower n v f' = totalPower n v f
      - (g.map fun m => M.forceUnit * (dEdG (T.rank m) * ((T.scaling m).factor
        * M.angularRate (T.rows m) nej nek dij dik (v i - v j) (v i - v k)))).sum := by
  have hs := (h.groups g hg).2
  have hsc : ∀ m ∈ g, (T.rows m).InScope nej nek dij dik ↔
      (T.rows (g.headD 0)).InScope nej nek dij dik := by
    intro m hm
    obtain ⟨⟨-, s1, s2, s3⟩, s4⟩ := hs m hm
    unfold CabanaRow.InScope
    rw [s1, s2, s3, s4]
  unfold Cabana.angularForceGroup
  by_cases hc : (T.rows (g.headD 0)).InScope nej nek dij dik
  · have hc' := hc
    obtain ⟨-, ⟨-, h1⟩, -, h3, h4⟩ := hc'
    have h5 : √(dik - dij).norm2 < (T.rows (g.headD 0)).rc := by
      rw [Real.sqrt_lt' hrc, sq]
      exact h4
    rw [if_pos hc]
    simp only [hM.1, hM.2, cabanaCutoff_eq ht h1, cabanaCutoff_eq ht h3, cabanaCutoff_eq ht h5,
      Option.bind_eq_bind, Option.bind_some, Option.getD_some]
    refine ⟨_, rfl, foldl_power g (fun m hm f => ?_) f⟩
    unfold Cabana.angularRate
    rw [if_pos ((hsc m hm).2 hc), (hs m hm).1.2.2.2, totalPower_add hk, totalPower_add hj,
      totalPower_add hi]
    simp only [hM.1, hM.2, cabanaCutoff_eq ht h1, cabanaCutoff_eq ht h3, cabanaCutoff_eq ht h5,
      Option.getD_some, gradOf]
    generalize (if 0 < (T.rows m).rs then _ else _ : ℝ) = q1
    generalize (if 0 < (T.rows m).rs then _ else _ : ℝ) = q2
    generalize (if 0 < (T.rows m).rs then _ else _ : ℝ) = q3
    generalize (T.rows m).angular _ _ _ _ = ag
    generalize dij.dot dik = dd
    simp only [Vec3.dot, Cabana.forceUnit, Pi.neg_apply, Pi.sub_apply]
    ring
  · rw [if_neg hc]
    refine ⟨f, rfl, ?_⟩
    have : (g.map fun m => M.forceUnit * (dEdG (T.rank m) * ((T.scaling m).factor
        * M.angularRate (T.rows m) nej nek dij dik (v i - v j) (v i - v k)))).sum = 0 := by
      apply List.sum_eq_zero
      intro x hx
      obtain ⟨m, hm, rfl⟩ := List.mem_map.1 hx
      unfold Cabana.angularRate
      rw [if_neg fun k => hc ((hsc m hm).1 k)]
      ring
    rw [this, sub_zero]

/-- Sum over all functions instead of the members of all groups. -/
theorem CabanaTable.Holds.sum_functions (h : T.Holds t α Fs) (w : ℕ → ℝ → CabanaRow → ℝ) :
    (T.groups.map fun g => (g.map fun m => w (T.rank m) (T.scaling m).factor (T.rows m)).sum).sum =
      (Fs.zipIdx.map fun p => w p.2 p.1.sc.scalingFactor p.1.row).sum := by
  have e : (T.groups.map fun g =>
      (g.map fun m => w (T.rank m) (T.scaling m).factor (T.rows m)).sum).sum =
      (T.groups.flatten.map fun m => w (T.rank m) (T.scaling m).factor (T.rows m)).sum := by
    rw [List.map_flatten, List.sum_flatten, List.map_map]
    rfl
  rw [e]
  obtain ⟨order, h1, h2, h3, h4⟩ := h.order
  rw [(h3.map _).sum_eq]
  congr 1
  refine List.ext_getElem (by simp [h2]) fun k hk hk' => ?_
  simp only [List.length_map, List.length_zipIdx] at hk hk'
  obtain ⟨m, a1, a2, a3, -, -, a6⟩ := h4 k _ (List.getElem?_eq_getElem hk')
  rw [List.getElem?_eq_getElem hk, Option.some.injEq] at a1
  simp only [List.getElem_map, List.getElem_zipIdx, Nat.zero_add]
  rw [a1, a2, a3, a6]

theorem CabanaTable.Holds.head_rc (h : T.Holds t α Fs) (hV : ∀ S ∈ Fs, S.Valid) {g : List ℕ}
    (hg : g ∈ T.groups) : 0 < (T.rows (g.headD 0)).rc := by
  obtain ⟨order, h1, h2, h3, h4⟩ := h.order
  have hm : g.headD 0 ∈ g := by
    have := (h.groups g hg).1
    cases g with
    | nil => exact absurd rfl this
    | cons a l => simp
  have hmem : g.headD 0 ∈ order := h3.mem_iff.1 (List.mem_flatten.2 ⟨g, hg, hm⟩)
  obtain ⟨k, hk, e⟩ := List.getElem_of_mem hmem
  have hk' : k < Fs.length := by omega
  obtain ⟨m, a1, -, a3, -⟩ := h4 k _ (List.getElem?_eq_getElem hk')
  rw [List.getElem?_eq_getElem hk, Option.some.injEq] at a1
  rw [← e, a1, a3]
  exact (hV _ (List.getElem_mem hk')).rc_pos

/-- Rate of change of the energy of an atom from a neighbour, in units of the program. -/
noncomputable def Cabana.radialSum (M : Cabana) (Fs : List SymFnc) (dEdG : ℕ → ℝ) (nej : ℕ)
    (d U : Vec3) : ℝ :=
  (Fs.zipIdx.map fun p => M.forceUnit * (dEdG p.2 * (p.1.sc.scalingFactor
    * M.radialRate p.1.row nej d U))).sum

/-- The same for a pair of neighbours. -/
noncomputable def Cabana.angularSum (M : Cabana) (Fs : List SymFnc) (dEdG : ℕ → ℝ) (nej nek : ℕ)
    (dij dik U V : Vec3) : ℝ :=
  (Fs.zipIdx.map fun p => M.forceUnit * (dEdG p.2 * (p.1.sc.scalingFactor
    * M.angularRate p.1.row nej nek dij dik U V))).sum

theorem radialForces_power (M : Cabana) (h : T.Holds t α Fs) (A : CabanaAtoms) {i : ℕ}
    (hT : M.tables[A.type i]? = some T) (hi : i < n) (hj : ∀ j ∈ A.neigh i, j < n)
    (dEdG : ℕ → ℕ → ℝ) (f : ℕ → Vec3) : ∃ f', M.radialForces A dEdG f i = some f' ∧
      totalPower n v f' = totalPower n v f - ((A.neigh i).map fun j =>
        M.radialSum Fs (dEdG i) (A.type j) (M.disp A i j) (v i - v j)).sum := by
  unfold Cabana.radialForces
  simp only [hT, Option.bind_eq_bind, Option.bind_some]
  refine ⟨_, rfl, foldl_power _ (fun j hj' f => ?_) f⟩
  rw [foldl_power T.groups (fun g hg f => radialForceGroup_power M h (A.type j) hi (hj j hj')
    (M.disp A i j) (dEdG i) hg f) f]
  rw [h.sum_functions fun k s r => M.forceUnit * (dEdG i k * (s
    * M.radialRate r (A.type j) (M.disp A i j) (v i - v j)))]
  rfl

theorem angularForces_power (M : Cabana) (ht : t = .COS ∨ t = .TANHU)
    (hM : M.cutoffType = t ∧ M.cutoffAlpha = α) (h : T.Holds t α Fs) (hV : ∀ S ∈ Fs, S.Valid)
    (A : CabanaAtoms) {i : ℕ}
    (hT : M.tables[A.type i]? = some T) (hi : i < n) (hj : ∀ j ∈ A.neigh i, j < n)
    (dEdG : ℕ → ℕ → ℝ) (f : ℕ → Vec3) : ∃ f', M.angularForces A dEdG f i = some f' ∧
      totalPower n v f' = totalPower n v f - pairSum (fun j k =>
        M.angularSum Fs (dEdG i) (A.type j) (A.type k) (M.disp A i j) (M.disp A i k) (v i - v j)
          (v i - v k)) (A.neigh i) := by
  have hmem : ∀ {l : List ℕ} {p : ℕ × ℕ}, p ∈ listPairs l → p.1 ∈ l ∧ p.2 ∈ l := by
    intro l
    induction l with
    | nil => intro p hp; simp [listPairs] at hp
    | cons a l ih =>
      intro p hp
      unfold listPairs at hp
      rcases List.mem_append.1 hp with hp | hp
      · obtain ⟨b, hb, rfl⟩ := List.mem_map.1 hp
        exact ⟨by simp, by simp [hb]⟩
      · exact ⟨List.mem_cons_of_mem _ (ih hp).1, List.mem_cons_of_mem _ (ih hp).2⟩
  unfold Cabana.angularForces
  simp only [hT, Option.bind_eq_bind, Option.bind_some]
  rw [← listPairs_sum]
  refine foldlM_power _ (fun p hp f => ?_) f
  obtain ⟨f', h1, h2⟩ := foldlM_power T.groups (fun g hg f => angularForceGroup_power (v := v) M ht
    hM h (A.type p.1) (A.type p.2) hi (hj _ (hmem hp).1) (hj _ (hmem hp).2) (M.disp A i p.1)
    (M.disp A i p.2) (dEdG i) hg f (h.head_rc hV hg)) f
  refine ⟨f', h1, ?_⟩
  rw [h2, h.sum_functions fun k s r => M.forceUnit * (dEdG i k * (s * M.angularRate r (A.type p.1)
    (A.type p.2) (M.disp A i p.1) (M.disp A i p.2) (v i - v p.1) (v i - v p.2)))]
  rfl

/-- The forces of all local atoms. -/
theorem forces_power (M : Cabana) (ht : t = .COS ∨ t = .TANHU)
    (hM : M.cutoffType = t ∧ M.cutoffAlpha = α) (A : CabanaAtoms) (F : ℕ → List SymFnc)
    (h : ∀ i < A.nLocal, ∃ T, M.tables[A.type i]? = some T ∧ T.Holds t α (F (A.type i)))
    (hV : ∀ i < A.nLocal, ∀ S ∈ F (A.type i), S.Valid) (hn : A.nLocal ≤ n)
    (hj : ∀ i < A.nLocal, ∀ j ∈ A.neigh i, j < n) (dEdG : ℕ → ℕ → ℝ) (f : ℕ → Vec3) :
    ∃ f', M.forces A dEdG f = some f' ∧ totalPower n v f' = totalPower n v f
      - ∑ i ∈ Finset.range A.nLocal,
        (((A.neigh i).map fun j => M.radialSum (F (A.type i)) (dEdG i) (A.type j) (M.disp A i j)
            (v i - v j)).sum
          + pairSum (fun j k => M.angularSum (F (A.type i)) (dEdG i) (A.type j) (A.type k)
              (M.disp A i j) (M.disp A i k) (v i - v j) (v i - v k)) (A.neigh i)) := by
  obtain ⟨f1, a1, a2⟩ := foldlM_power (op := M.radialForces A dEdG) (n := n) (v := v)
    (w := fun i => ((A.neigh i).map fun j => M.radialSum (F (A.type i)) (dEdG i) (A.type j)
      (M.disp A i j) (v i - v j)).sum) (List.range A.nLocal) (fun i hi f => by
    rw [List.mem_range] at hi
    obtain ⟨T, h1, h2⟩ := h i hi
    exact radialForces_power M h2 A h1 (lt_of_lt_of_le hi hn) (hj i hi) dEdG f) f
  obtain ⟨f2, b1, b2⟩ := foldlM_power (op := M.angularForces A dEdG) (n := n) (v := v)
    (w := fun i => pairSum (fun j k => M.angularSum (F (A.type i)) (dEdG i) (A.type j) (A.type k)
      (M.disp A i j) (M.disp A i k) (v i - v j) (v i - v k)) (A.neigh i))
    (List.range A.nLocal) (fun i hi f => by
    rw [List.mem_range] at hi
    obtain ⟨T, h1, h2⟩ := h i hi
    exact angularForces_power M ht hM h2 (hV i hi) A h1 (lt_of_lt_of_le hi hn) (hj i hi) dEdG f) f1
  refine ⟨f2, ?_, ?_⟩
  · unfold Cabana.forces
    rw [a1]
    exact b1
  · rw [b2, a2, Finset.sum_add_distrib]
    have e : ∀ w : ℕ → ℝ, ((List.range A.nLocal).map w).sum = ∑ i ∈ Finset.range A.nLocal, w i :=
      fun w => rfl
    rw [e, e]
    ring

/-! ### Rates are derivatives -/

variable {M : Cabana} {S : SymFnc} {u w : ℝ → Vec3} {U V : Vec3} {x : ℝ}

theorem radialRate_deriv (ht : t = .COS ∨ t = .TANHU) (hM : M.cutoffType = t ∧ M.cutoffAlpha = α)
    (hV : S.Valid) (hk : S.Known) (hty : S.sc.type = S.kind.number)
    (hfc : S.fc = mkCutoff t S.rc α) (nej : ℕ) (hu : HasDerivAt u U x) (hp : 0 < (u x).norm) :
    HasDerivAt (fun s => S.siteTerm ⟨nej, u s⟩) (M.radialRate S.row nej (u x) U) x := by
  have he := hk.isExp
  have hhard : S.fc.cutoffType = .HARD → ∀ r, r ≠ S.rc := by
    rw [hfc]
    rcases ht with rfl | rfl <;> exact fun h => by cases h
  unfold Cabana.radialRate SymFnc.siteTerm SymFnc.row
  simp only [hty]
  rcases hk with hk | hk
  · simp only [hk]
    by_cases h1 : nej = S.e1
    · simp only [if_pos h1]
      have key := HasDerivAt.comp (h := fun s => (u s).norm) x
        (hV.fc_deriv he (r := (u x).norm) (fun k => hhard k _)) (hasDerivAt_norm hu hp)
      refine HasDerivAt.congr_deriv key ?_
      by_cases h2 : (u x).norm < S.rc
      · rw [if_pos ⟨rfl, h1.symm, h2⟩, hM.1, hM.2, cabanaCutoff_eq ht h2, ← hfc, Option.getD_some,
          (hV.fc_fdf he).1]
        unfold SymFnc.gauss
        rw [show -S.eta * ((u x).norm - S.rs) * ((u x).norm - S.rs) =
          -S.eta * ((u x).norm - S.rs) ^ 2 by ring]
        ring
      · rw [if_neg fun k => h2 k.2.2]
        obtain ⟨z1, z2⟩ := hV.fc_zero he (not_lt.1 h2)
        rw [z1, z2]
        ring
    · simp only [if_neg h1]
      rw [if_neg fun k => h1 k.2.1.symm]
      exact hasDerivAt_const _ _
  · simp only [hk]
    rw [if_neg fun k => by simpa [SFKind.number] using k.1]
    exact hasDerivAt_const _ _

theorem angularRate_deriv (ht : t = .COS ∨ t = .TANHU) (hM : M.cutoffType = t ∧ M.cutoffAlpha = α)
    (hV : S.Valid) (hk : S.Known) (hty : S.sc.type = S.kind.number)
    (hfc : S.fc = mkCutoff t S.rc α) (hrs : S.kind = .ExpAngn → 0 ≤ S.rs ∧ S.lambda ≠ 0)
    (nej nek : ℕ) (hu : HasDerivAt u U x) (hw : HasDerivAt w V x) (hp : 0 < (u x).norm)
    (hp' : 0 < (w x).norm) (ha : S.kind = .ExpAngn → 0 < (u x - w x).norm)
    (hpow : S.kind = .ExpAngn → 1 < S.zeta ∨ (1 ≤ S.zeta ∧ |S.lambda| ≤ 1) ∨
      1 + S.lambda * cosAngle (u x) (w x) ≠ 0) :
    HasDerivAt (fun s => S.pairTerm ⟨nej, u s⟩ ⟨nek, w s⟩)
      (M.angularRate S.row nej nek (u x) (w x) U V) x := by
  have he := hk.isExp
  rcases hk with hk | hk
  · unfold Cabana.angularRate SymFnc.pairTerm CabanaRow.InScope SymFnc.row
    simp only [hk, hty]
    rw [if_neg fun k => by simpa [SFKind.number] using k.1]
    exact hasDerivAt_const _ _
  obtain ⟨hrs, hlam⟩ := hrs hk
  have hapart := ha hk
  have hpow := hpow hk
  have ha : S.IsAng := by simp [SymFnc.IsAng, hk]
  have hzeta := hV.zeta he ha
  have hrow : S.row = ⟨S.sc.ec, 3, S.e1, S.e2, S.eta, S.lambda, S.zeta, S.rc, S.rs⟩ := by
    simp [SymFnc.row, hty, hk, SFKind.number]
  have hp0 : ∀ s, S.pairTerm ⟨nej, u s⟩ ⟨nek, w s⟩ = S.ofPair ⟨nej, u x⟩ ⟨nek, w x⟩ *
      (S.angularFactor (cosAngle (u s) (w s)) * ((S.gauss (u s).norm * S.fc.f (u s).norm) *
        (S.gauss (w s).norm * S.fc.f (w s).norm))
        * (S.gauss (u s - w s).norm * S.fc.f (u s - w s).norm)) := by
    intro s
    unfold SymFnc.pairTerm
    simp only [hk]
    unfold SymFnc.ofPair
    dsimp only
    ring
  simp only [hp0]
  rw [hrow]
  have hnn : (u x - w x).norm = (w x - u x).norm := by
    have : u x - w x = -(w x - u x) := by abel
    rw [this, norm_eq, norm2_neg, norm_eq]
  have hhard : S.fc.cutoffType = .HARD → ∀ r, r ≠ S.rc := by
    rw [hfc]
    rcases ht with rfl | rfl <;> exact fun h => by cases h
  have hA := hasDerivAt_angularFactor (S := S) hzeta hu hw hp hp' hpow
  have hA' : HasDerivAt (fun s => S.angularFactor (cosAngle (u s) (w s)))
      ((2 ^ (1 - S.zeta) * (S.zeta * S.lambda *
        posPow S.zeta (1 + S.lambda * cosAngle (u x) (w x)))) * cosDeriv (u x) (w x) U V) x := by
    refine hA.congr_deriv ?_
    ring
  have key := (narrow_deriv hu hw hp hp' hapart hA'
    (hV.fc_deriv he (r := (u x).norm) (fun k => hhard k _))
    (hV.fc_deriv he (r := (w x).norm) (fun k => hhard k _))
    (hV.fc_deriv he (r := (u x - w x).norm) (fun k => hhard k _))).const_mul
      (S.ofPair ⟨nej, u x⟩ ⟨nek, w x⟩)
  refine HasDerivAt.congr_deriv key ?_
  have hrc := hV.rc_pos
  unfold Cabana.angularRate
  by_cases hs : (⟨S.sc.ec, 3, S.e1, S.e2, S.eta, S.lambda, S.zeta, S.rc, S.rs⟩ :
      CabanaRow).InScope nej nek (u x) (w x)
  · rw [if_pos hs]
    obtain ⟨-, ⟨-, h1⟩, h2, h3, h4⟩ := hs
    dsimp only at h1 h2 h3 h4 ⊢
    have h5 : √(w x - u x).norm2 < S.rc := by
      rw [Real.sqrt_lt' hrc, sq]
      exact h4
    have hof : S.ofPair ⟨nej, u x⟩ ⟨nek, w x⟩ = 1 := by
      unfold SymFnc.ofPair
      rw [if_pos]
      rcases h2 with ⟨a, b⟩ | ⟨a, b⟩
      · exact Or.inl ⟨a.symm, b.symm⟩
      · exact Or.inr ⟨a.symm, b.symm⟩
    rw [hM.1, hM.2, cabanaCutoff_eq ht h1, cabanaCutoff_eq ht h3, cabanaCutoff_eq ht h5, ← hfc,
      Option.getD_some, Option.getD_some, Option.getD_some, (hV.fc_fdf he).1, (hV.fc_fdf he).1,
      (hV.fc_fdf he).1, hof, one_mul, hnn, norm_eq (w x - u x)]
    dsimp only
    have hcos : (u x).dot (w x) * (1 / (u x).norm / (w x).norm) = cosAngle (u x) (w x) := by
      unfold cosAngle
      rw [div_div, mul_one_div]
    rw [hcos]
    have hg : (if 0 < S.rs then
        Real.exp (-S.eta * (((u x).norm - S.rs) * ((u x).norm - S.rs)
          + ((w x).norm - S.rs) * ((w x).norm - S.rs)
          + (√(w x - u x).norm2 - S.rs) * (√(w x - u x).norm2 - S.rs)))
        else Real.exp (-S.eta * ((u x).norm2 + (w x).norm2 + (w x - u x).norm2))) =
        S.gauss (u x).norm * S.gauss (w x).norm * S.gauss √(w x - u x).norm2 := by
      unfold SymFnc.gauss
      rw [← Real.exp_add, ← Real.exp_add]
      split
      · congr 1; ring
      · rename_i h0
        have : S.rs = 0 := le_antisymm (not_lt.1 h0) hrs
        rw [this, ← norm_eq, ← norm_sq (u x), ← norm_sq (w x), ← norm_sq (w x - u x)]
        congr 1; ring
    have hq : ∀ r : ℝ, 0 < r → ∀ p : ℝ,
        (if 0 < S.rs then p * (r - S.rs) / r else p) = p * (r - S.rs) / r := by
      intro r hr p
      split
      · rfl
      · rename_i h0
        have : S.rs = 0 := le_antisymm (not_lt.1 h0) hrs
        rw [this, sub_zero, mul_div_assoc, div_self hr.ne', mul_one]
    have hjk : 0 < √(w x - u x).norm2 := by rw [← norm_eq, ← hnn]; exact hapart
    unfold CabanaRow.angular
    dsimp only
    rw [hg, power_eq, hq _ hp, hq _ hp', hq _ hjk, angularFactor_eq hV he ha, ← norm_sq (u x),
      ← norm_sq (w x), sq, sq]
    generalize posPow S.zeta (1 + S.lambda * cosAngle (u x) (w x)) = P
    generalize cosAngle (u x) (w x) = c
    generalize S.gauss (u x).norm = g1
    generalize S.gauss (w x).norm = g2
    generalize S.gauss √(w x - u x).norm2 = g3
    generalize S.fc.f (u x).norm = f1
    generalize S.fc.f (w x).norm = f2
    generalize S.fc.f √(w x - u x).norm2 = f3
    generalize S.fc.df (u x).norm = d1
    generalize S.fc.df (w x).norm = d2
    generalize S.fc.df √(w x - u x).norm2 = d3
    generalize (2 : ℝ) ^ (1 - S.zeta) = two
    generalize √(w x - u x).norm2 = r3 at *
    have hz := hzeta.ne'
    congr 1
    · field_simp
      ring
    · field_simp
      ring
    · field_simp
      ring
  · rw [if_neg hs]
    have hz : S.ofPair ⟨nej, u x⟩ ⟨nek, w x⟩ = 0 ∨ S.rc ≤ (u x).norm ∨ S.rc ≤ (w x).norm ∨
        S.rc ≤ (u x - w x).norm := by
      by_contra hc
      push Not at hc
      obtain ⟨c0, c1, c2, c3⟩ := hc
      apply hs
      have h4 : (w x - u x).norm2 < S.rc * S.rc := by
        rw [← norm_sq, sq, ← hnn]
        exact mul_self_lt_mul_self (by rw [norm_eq]; exact Real.sqrt_nonneg _) c3
      unfold SymFnc.ofPair at c0
      rcases not_not.1 fun h => c0 (if_neg h) with ⟨a, b⟩ | ⟨a, b⟩
      · exact ⟨rfl, ⟨Or.inl a.symm, c1⟩, Or.inl ⟨a.symm, b.symm⟩, c2, h4⟩
      · exact ⟨rfl, ⟨Or.inr a.symm, c1⟩, Or.inr ⟨a.symm, b.symm⟩, c2, h4⟩
    unfold gradOf
    rcases hz with hz | hz | hz | hz
    · rw [hz, zero_mul]
    · obtain ⟨z1, z2⟩ := hV.fc_zero he hz
      simp only [z1, z2]
      ring
    · obtain ⟨z1, z2⟩ := hV.fc_zero he hz
      simp only [z1, z2]
      ring
    · obtain ⟨z1, z2⟩ := hV.fc_zero he hz
      simp only [z1, z2]
      ring

end N2P2
