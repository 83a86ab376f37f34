import Verif.Lemma.SymGrpConc

/-! Groups as the setup leaves them, and the loops of the radial groups. -/

namespace N2P2

/-- A group with the members `f 0`, `f 1`, ... as the setup leaves it. -/
structure SymGrp.Formed (g : SymGrp) (f : ℕ → SymFnc) : Prop where
  pos : 0 < g.rows.length
  row : ∀ l M, g.rows[l]? = some M → M.sf = f l ∧ M.scalingFactor = (f l).sf
  kind : ∀ l, l < g.rows.length → (f l).kind = g.kind
  elements : ∀ l, l < g.rows.length → match g.kind with
    | .ExpRad | .CompRad => (f l).e1 = g.e1
    | .ExpAngn | .ExpAngw | .CompAngn | .CompAngw => (f l).e1 = g.e1 ∧ (f l).e2 = g.e2
    | _ => True
  cutoff : ∀ l, l < g.rows.length → (f l).IsExp → (f l).rc = g.rc ∧ (f l).fc.fdf = g.fc.fdf
  range : ∀ l, l < g.rows.length → ¬ (f l).IsExp → g.rmin = 0 ∧ (f l).rc ≤ g.rmax
  angles : ∀ l, l < g.rows.length → ¬ (f l).IsExp → (f l).IsAng →
    (f l).angleLeft * Real.pi / 180 = (f l).angleLeftRadians ∧
    (f l).angleRight * Real.pi / 180 = (f l).angleRightRadians
  norm : ∀ l M, g.rows[l]? = some M → (f l).IsExp → (f l).IsAng →
    M.factorNorm = 2 ^ (1 - (f l).zeta) * (f l).sf ∧
    M.factorDeriv = (fdiv (2 * (f l).eta) (f l).zeta).bind fun x => fdiv x (f l).lambda
  fresh : ∀ l M, g.rows[l]? = some M → M.fresh = false → ∃ l', l = l' + 1 ∧
    ((f l).IsExp → (f l).IsAng → (f l').eta = (f l).eta ∧ (f l').rs = (f l).rs) ∧
    ((f l).kind = .CompAngn ∨ (f l).kind = .CompAngnWeighted → (f l').cr = (f l).cr)

theorem SymGrp.Formed.get {g : SymGrp} {f : ℕ → SymFnc} (h : g.Formed f) {l : ℕ}
    (hl : l < g.rows.length) : ∃ M, g.rows[l]? = some M ∧ M.sf = f l ∧
      M.scalingFactor = (f l).sf :=
  ⟨g.rows[l], List.getElem?_eq_getElem hl, h.row l _ (List.getElem?_eq_getElem hl)⟩

/-- The state of the loops after the contributions `X`. -/
def GState (f : ℕ → SymFnc) (m : ℕ) (a : Atom) (L : CacheLayout) (R : ℝ) (X : ℕ → Contrib)
    (s : Buf × Atom) : Prop :=
  ∃ caches, CachesOK L R a caches ∧ s = (gRes X, gAtom f m a X caches)

theorem GState.init {f : ℕ → SymFnc} {m : ℕ} {a : Atom} {L : CacheLayout} {R : ℝ}
    (h : a.CacheOK L R) : GState f m a L R 0 (fun _ => 0, a) := by
  refine ⟨fun k => (a.neighbors[k]?.map (·.cache)).getD [], ?_, ?_⟩
  · intro k n hk hd
    have := h n (List.mem_of_getElem? hk) hd
    simpa [hk] using this
  · rw [gAtom_zero]
    rfl

theorem SymFnc.cachedFunction_exp {S : SymFnc} (h : S.IsExp) : S.cachedFunction = S.fc.fdf := by
  unfold SymFnc.cachedFunction
  rcases h with h | h | h | h | h <;> rw [h]

theorem SymFnc.cachedFunction_comp {S : SymFnc} (h : ¬ S.IsExp) : S.cachedFunction = S.cr.fdf := by
  unfold SymFnc.cachedFunction
  cases hk : S.kind <;> first | rfl | exact absurd (by simp [SymFnc.IsExp, hk]) h

/-- The cache of neighbour `j`, read with the indices of the function `S`. -/
theorem SymFnc.GroupReady.read {S : SymFnc} {a : Atom} {d : Bool} {L : CacheLayout} {R : ℝ}
    (h : S.GroupReady a d L R) {caches : ℕ → List ℝ} (hc : CachesOK L R a caches) {k : ℕ}
    {n : Neighbor} (hk : a.neighbors[k]? = some n) (hd : n.d < S.rc)
    (hrel : S.checkRelevantElement n.element) (f : ℕ → SymFnc) (m : ℕ) (X : ℕ → Contrib) :
    ∃ ci cache, S.cacheIndices[n.element]? = some ci ∧
      cachedFdf S.cachedFunction ci ci (gN f m X k (caches k) n) =
        some (S.cachedFunction n.d, gN f m X k cache n) ∧
      CachesOK L R a (Function.update caches k cache) := by
  have hmem := List.mem_of_getElem? hk
  have hci : S.cacheIndices[n.element]? =
      some (S.cacheIndices[n.element]'(h.allocated.cache.2 n hmem)) := List.getElem?_eq_getElem _
  obtain ⟨cache, e, hok⟩ := cached_gN h.disjoint h.slots hc hk (hd.trans_le h.le) hrel hci
    Iff.rfl f m X
  exact ⟨_, cache, hci, e, hok⟩

/-! ### Gaussian radial groups -/

theorem SymGrp.Formed.rad {g : SymGrp} {f : ℕ → SymFnc} (h : g.Formed f) {l : ℕ}
    (hl : l < g.rows.length) (hk : g.kind = .ExpRad ∨ g.kind = .ExpRadWeighted) :
    (f l).IsExp ∧ ¬ (f l).IsAng ∧ (∀ n, g.selJ n ↔ (f l).rkernel.sel n) := by
  have hkl := h.kind l hl
  have hel := h.elements l hl
  have hexp : (f l).IsExp := by unfold SymFnc.IsExp; rw [hkl]; rcases hk with hk | hk <;> simp [hk]
  obtain ⟨hrc, -⟩ := h.cutoff l hl hexp
  refine ⟨hexp, ?_, ?_⟩
  · unfold SymFnc.IsAng; rw [hkl]; rcases hk with hk | hk <;> simp [hk]
  · intro n
    rcases hk with hk | hk
    · rw [hk] at hkl hel
      unfold SymGrp.selJ SymFnc.rkernel
      simp only [hk, hkl]
      show _ ↔ (f l).e1 = n.element ∧ n.d < (f l).rc
      rw [hel, hrc]
    · rw [hk] at hkl
      unfold SymGrp.selJ SymFnc.rkernel
      simp only [hk, hkl]
      show _ ↔ n.d < (f l).rc
      rw [hrc]

theorem SymGrp.expRadMember_eq {g : SymGrp} {f : ℕ → SymFnc} {a : Atom} {d : Bool} {L : CacheLayout}
    {R : ℝ} (hk : g.kind = .ExpRad ∨ g.kind = .ExpRadWeighted) (hF : g.Formed f)
    (hr : ∀ l < g.rows.length, (f l).GroupReady a d L R) {j : ℕ} {n n' : Neighbor}
    (hn : a.neighbors[j]? = some n) (hsel : g.selJ n) (he : n'.element = n.element)
    (hdr : n'.dr = n.dr) (hd : n'.d = n.d) (X : ℕ → Contrib) (l : ℕ) (hl : l < g.rows.length)
    (s : Buf × Atom) (hs : GState f g.rows.length a L R X s) :
    ∃ s', g.expRadMember d j n' (g.fc.fdf n.d) s l = some s' ∧
      GState f g.rows.length a L R (X + Pi.single l ((f l).rkernel.contrib d a j)) s' := by
  classical
  obtain ⟨caches, hc, rfl⟩ := hs
  obtain ⟨M, hM, hMf, hMs⟩ := hF.get hl
  obtain ⟨hexp, hang, hseliff⟩ := hF.rad hl hk
  obtain ⟨hrc, hfc⟩ := hF.cutoff l hl hexp
  have hsl := (hseliff n).1 hsel
  obtain ⟨hdl, hrel⟩ := (f l).rkernel_sel hang n hsl
  have hcon : (f l).rkernel.contrib d a j =
      ((f l).rkernel.term n (g.fc.fdf n.d), if d then
        ((f l).rkernel.p1 n (g.fc.fdf n.d) • n.dr,
          Pi.single j ((f l).rkernel.p1 n (g.fc.fdf n.d) • n.dr)) else 0) := by
    unfold RadialKernel.contrib
    rw [hn]
    have e : (f l).rkernel.fdf = g.fc.fdf := by
      rw [(f l).rkernel_fdf hang, (f l).cachedFunction_exp hexp, hfc]
    simp only [if_pos hsl, e]
  have hterm : g.weight M n' * Real.exp (-M.sf.eta * (n'.d - M.sf.rs) * (n'.d - M.sf.rs)) *
      (g.fc.fdf n.d).1 = (f l).rkernel.term n (g.fc.fdf n.d) := by
    have hkl := hF.kind l hl
    rw [hMf, hd]
    unfold SymGrp.weight SymFnc.rkernel
    rcases hk with hk | hk <;> rw [hk] at hkl <;> simp only [hk, hkl]
    · rw [one_mul]; rfl
    · rw [hMf, he]; rfl
  have hp1 : M.scalingFactor * ((g.fc.fdf n.d).2 - 2 * M.sf.eta * (n'.d - M.sf.rs) *
      (g.fc.fdf n.d).1) * (g.weight M n' * Real.exp (-M.sf.eta * (n'.d - M.sf.rs) *
      (n'.d - M.sf.rs))) / n'.d = (f l).rkernel.p1 n (g.fc.fdf n.d) := by
    have hkl := hF.kind l hl
    rw [hMf, hd, hMs]
    unfold SymGrp.weight SymFnc.rkernel
    rcases hk with hk | hk <;> rw [hk] at hkl <;> simp only [hk, hkl]
    · rw [one_mul]; rfl
    · rw [hMf, he]; rfl
  unfold SymGrp.expRadMember
  rw [hM]
  simp only [Option.bind_eq_bind, Option.bind_some]
  rw [hterm, hp1, hcon]
  cases d with
  | false =>
    refine ⟨_, rfl, caches, hc, ?_⟩
    rw [gRes_set X l _ 0]
    simp only [Bool.false_eq_true, if_false]
    rw [gAtom_value]
  | true =>
    simp only [if_true]
    rw [saveRadial_gAtom X caches hl hn (hr l hl).allocated hdl hrel he hdr M hMf _
      ((f l).rkernel.term n (g.fc.fdf n.d))]
    refine ⟨_, rfl, caches, hc, ?_⟩
    rw [gRes_set]

theorem SymGrp.expRadStep_eq {g : SymGrp} {f : ℕ → SymFnc} {a : Atom} {d : Bool} {L : CacheLayout}
    {R : ℝ} (hk : g.kind = .ExpRad ∨ g.kind = .ExpRadWeighted) (hF : g.Formed f)
    (hr : ∀ l < g.rows.length, (f l).GroupReady a d L R) {j : ℕ} (hj : j < a.neighbors.length)
    (X : ℕ → Contrib) (s : Buf × Atom) (hs : GState f g.rows.length a L R X s) :
    ∃ s', g.expRadStep d s j = some s' ∧ GState f g.rows.length a L R
      (X + mask g.rows.length fun l => (f l).rkernel.contrib d a j) s' := by
  classical
  have hn : a.neighbors[j]? = some a.neighbors[j] := List.getElem?_eq_getElem hj
  generalize a.neighbors[j] = n at hn
  unfold SymGrp.expRadStep
  obtain ⟨caches, hc, rfl⟩ := hs
  rw [gAtom_neighbor f _ a X caches j hn]
  simp only [Option.bind_eq_bind, Option.bind_some]
  have hsel' : g.selJ (gN f g.rows.length X j (caches j) n) ↔ g.selJ n := Iff.rfl
  by_cases hsel : g.selJ n
  · rw [if_pos (hsel'.2 hsel)]
    obtain ⟨hexp, hang, hseliff⟩ := hF.rad hF.pos hk
    obtain ⟨hd0, hrel0⟩ := (f 0).rkernel_sel hang n ((hseliff n).1 hsel)
    obtain ⟨ci, cache, hci, e, hok⟩ := (hr 0 hF.pos).read hc hn hd0 hrel0 f g.rows.length X
    obtain ⟨M0, hM0, hMf0, -⟩ := hF.get hF.pos
    have hfirst : g.firstCache (gN f g.rows.length X j (caches j) n).element = some ci := by
      unfold SymGrp.firstCache
      rw [hM0]
      show M0.sf.cacheIndices[n.element]? = some ci
      rw [hMf0, hci]
    rw [hfirst]
    simp only [Option.bind_some]
    rw [(f 0).cachedFunction_exp hexp, (hF.cutoff 0 hF.pos hexp).2] at e
    rw [e]
    simp only [Option.bind_some]
    rw [gAtom_setNeighbor f _ a X caches j hn]
    refine foldlM_range_inv _ (fun l s => GState f g.rows.length a L R
      (X + mask l fun l => (f l).rkernel.contrib d a j) s) _ _ ?_ ?_
    · intro l hl s hs
      obtain ⟨s', e', hs'⟩ := SymGrp.expRadMember_eq hk hF hr hn hsel (n' := gN f g.rows.length X j
        cache n) rfl rfl rfl _ l hl s hs
      refine ⟨s', e', ?_⟩
      rw [mask_succ, ← add_assoc]
      exact hs'
    · rw [mask_zero, add_zero]
      exact ⟨_, hok, rfl⟩
  · rw [if_neg (fun h => hsel (hsel'.1 h))]
    refine ⟨_, rfl, caches, hc, ?_⟩
    have : (X + mask g.rows.length fun l => (f l).rkernel.contrib d a j) = X := by
      funext l
      unfold mask
      rw [Pi.add_apply]
      by_cases hl : l < g.rows.length
      · rw [if_pos hl]
        have : (f l).rkernel.contrib d a j = 0 := by
          unfold RadialKernel.contrib
          rw [hn]
          exact if_neg fun h => hsel (((hF.rad hl hk).2.2 n).2 h)
        show X l + (f l).rkernel.contrib d a j = X l
        rw [this, add_zero]
      · rw [if_neg hl, add_zero]
    rw [this]

/-! ### Compact radial groups -/

theorem SymGrp.Formed.crad {g : SymGrp} {f : ℕ → SymFnc} (h : g.Formed f) {l : ℕ}
    (hl : l < g.rows.length) (hk : g.kind = .CompRad ∨ g.kind = .CompRadWeighted) :
    ¬ (f l).IsExp ∧ ¬ (f l).IsAng ∧ ∀ n, 0 < n.d →
      (g.selJ n ∧ ¬ (n.d ≤ (f l).rl ∨ (f l).rc ≤ n.d) ↔ (f l).rkernel.sel n) := by
  have hkl := h.kind l hl
  have hel := h.elements l hl
  have hexp : ¬ (f l).IsExp := by
    unfold SymFnc.IsExp; rw [hkl]; rcases hk with hk | hk <;> simp [hk]
  obtain ⟨hmin, hmax⟩ := h.range l hl hexp
  refine ⟨hexp, ?_, ?_⟩
  · unfold SymFnc.IsAng; rw [hkl]; rcases hk with hk | hk <;> simp [hk]
  · intro n hn
    rw [not_or, not_le, not_le]
    rcases hk with hk | hk
    · rw [hk] at hkl hel
      unfold SymGrp.selJ SymFnc.rkernel
      simp only [hk, hkl]
      show _ ↔ (f l).e1 = n.element ∧ (f l).rl < n.d ∧ n.d < (f l).rc
      rw [hel, hmin]
      constructor
      · rintro ⟨⟨h1, -, -⟩, h2, h3⟩; exact ⟨h1, h2, h3⟩
      · rintro ⟨h1, h2, h3⟩; exact ⟨⟨h1, h3.trans_le hmax, hn⟩, h2, h3⟩
    · rw [hk] at hkl
      unfold SymGrp.selJ SymFnc.rkernel
      simp only [hk, hkl]
      show _ ↔ (f l).rl < n.d ∧ n.d < (f l).rc
      rw [hmin]
      constructor
      · rintro ⟨-, h2, h3⟩; exact ⟨h2, h3⟩
      · rintro ⟨h2, h3⟩; exact ⟨⟨h3.trans_le hmax, hn⟩, h2, h3⟩

theorem SymGrp.compRadMember_eq {g : SymGrp} {f : ℕ → SymFnc} {a : Atom} {d : Bool}
    {L : CacheLayout} {R : ℝ} (hk : g.kind = .CompRad ∨ g.kind = .CompRadWeighted)
    (hF : g.Formed f) (hr : ∀ l < g.rows.length, (f l).GroupReady a d L R) {j : ℕ} {n : Neighbor}
    (hn : a.neighbors[j]? = some n) (hsel : g.selJ n) (X : ℕ → Contrib) (l : ℕ)
    (hl : l < g.rows.length) (s : Buf × Atom) (hs : GState f g.rows.length a L R X s) :
    ∃ s', g.compRadMember d j s l = some s' ∧
      GState f g.rows.length a L R (X + Pi.single l ((f l).rkernel.contrib d a j)) s' := by
  classical
  obtain ⟨caches, hc, rfl⟩ := hs
  obtain ⟨M, hM, hMf, hMs⟩ := hF.get hl
  obtain ⟨hexp, hang, hseliff⟩ := hF.crad hl hk
  have hpos : 0 < n.d := (hr l hl).list.pos n (List.mem_of_getElem? hn)
  unfold SymGrp.compRadMember
  rw [hM]
  simp only [Option.bind_eq_bind, Option.bind_some]
  rw [gAtom_neighbor f _ a X caches j hn]
  simp only [Option.bind_some]
  have hcond : ((gN f g.rows.length X j (caches j) n).d ≤ M.sf.rl ∨
      M.sf.rc ≤ (gN f g.rows.length X j (caches j) n).d) ↔
      (n.d ≤ (f l).rl ∨ (f l).rc ≤ n.d) := by rw [hMf]; rfl
  by_cases hout : n.d ≤ (f l).rl ∨ (f l).rc ≤ n.d
  · rw [if_pos (hcond.2 hout)]
    have : (f l).rkernel.contrib d a j = 0 := by
      unfold RadialKernel.contrib
      rw [hn]
      exact if_neg fun h => ((hseliff n hpos).2 h).2 hout
    rw [this, Pi.single_zero, add_zero]
    exact ⟨_, rfl, caches, hc, rfl⟩
  · rw [if_neg (fun h => hout (hcond.1 h))]
    have hsl := (hseliff n hpos).1 ⟨hsel, hout⟩
    obtain ⟨hdl, hrel⟩ := (f l).rkernel_sel hang n hsl
    obtain ⟨ci, cache, hci, e, hok⟩ := (hr l hl).read hc hn hdl hrel f g.rows.length X
    rw [(f l).cachedFunction_comp hexp] at e
    have hci' : M.sf.cacheIndices[(gN f g.rows.length X j (caches j) n).element]? = some ci := by
      rw [hMf]; exact hci
    rw [hci']
    simp only [Option.bind_some]
    rw [hMf, e]
    simp only [Option.bind_some]
    rw [gAtom_setNeighbor f _ a X caches j hn]
    have hkl := hF.kind l hl
    have hcon : (f l).rkernel.contrib d a j =
        ((f l).rkernel.term n ((f l).cr.fdf n.d), if d then
          ((f l).rkernel.p1 n ((f l).cr.fdf n.d) • n.dr,
            Pi.single j ((f l).rkernel.p1 n ((f l).cr.fdf n.d) • n.dr)) else 0) := by
      unfold RadialKernel.contrib
      rw [hn]
      have e : (f l).rkernel.fdf = (f l).cr.fdf := by
        rw [(f l).rkernel_fdf hang, (f l).cachedFunction_comp hexp]
      simp only [if_pos hsl, e]
    have hw : g.weight M (gN f g.rows.length X j cache n) = g.weight M n := rfl
    have hterm : g.weight M n * ((f l).cr.fdf n.d).1 =
        (f l).rkernel.term n ((f l).cr.fdf n.d) := by
      unfold SymGrp.weight SymFnc.rkernel
      rcases hk with hk | hk <;> rw [hk] at hkl <;> simp only [hk, hkl]
      · rw [one_mul]; rfl
      · rw [hMf, mul_comm]; rfl
    have hp1 : ((f l).cr.fdf n.d).2 * (g.weight M n * M.scalingFactor / n.d) =
        (f l).rkernel.p1 n ((f l).cr.fdf n.d) := by
      rw [hMs]
      unfold SymGrp.weight SymFnc.rkernel
      rcases hk with hk | hk <;> rw [hk] at hkl <;> simp only [hk, hkl]
      · show _ = (f l).sf * ((f l).cr.fdf n.d).2 / n.d
        ring
      · rw [hMf]
        show _ = (f l).sf * (f l).atomicNumber n.element * ((f l).cr.fdf n.d).2 / n.d
        ring
    rw [hw]
    rw [hterm, hcon]
    by_cases hstop : ¬ d = true ∨ ((f l).cr.fdf n.d).2 = 0
    · rw [if_pos hstop]
      refine ⟨_, rfl, _, hok, ?_⟩
      rw [gRes_set X l _ 0]
      have h0 : (if d = true then ((f l).rkernel.p1 n ((f l).cr.fdf n.d) • n.dr,
          (Pi.single j ((f l).rkernel.p1 n ((f l).cr.fdf n.d) • n.dr) : ℕ → Vec3)) else 0) = 0 := by
        rcases hstop with h | h
        · rw [if_neg h]
        · rw [← hp1, h, zero_mul, zero_smul, Pi.single_zero]
          split <;> rfl
      rw [h0, gAtom_value]
    · rw [if_neg hstop]
      have hd : d = true := by_contra fun h => hstop (Or.inl h)
      subst hd
      simp only [if_true]
      have hp1' : ((f l).cr.fdf n.d).2 * (g.weight M n * M.scalingFactor /
          (gN f g.rows.length X j cache n).d) = (f l).rkernel.p1 n ((f l).cr.fdf n.d) := hp1
      rw [hp1']
      rw [saveRadial_gAtom X _ hl hn (n' := gN f g.rows.length X j cache n) (hr l hl).allocated
        hdl hrel rfl rfl M hMf _
        ((f l).rkernel.term n ((f l).cr.fdf n.d))]
      refine ⟨_, rfl, _, hok, ?_⟩
      rw [gRes_set]

theorem SymGrp.compRadStep_eq {g : SymGrp} {f : ℕ → SymFnc} {a : Atom} {d : Bool} {L : CacheLayout}
    {R : ℝ} (hk : g.kind = .CompRad ∨ g.kind = .CompRadWeighted) (hF : g.Formed f)
    (hr : ∀ l < g.rows.length, (f l).GroupReady a d L R) {j : ℕ} (hj : j < a.neighbors.length)
    (X : ℕ → Contrib) (s : Buf × Atom) (hs : GState f g.rows.length a L R X s) :
    ∃ s', g.compRadStep d s j = some s' ∧ GState f g.rows.length a L R
      (X + mask g.rows.length fun l => (f l).rkernel.contrib d a j) s' := by
  classical
  have hn : a.neighbors[j]? = some a.neighbors[j] := List.getElem?_eq_getElem hj
  generalize a.neighbors[j] = n at hn
  unfold SymGrp.compRadStep
  obtain ⟨caches, hc, rfl⟩ := hs
  rw [gAtom_neighbor f _ a X caches j hn]
  simp only [Option.bind_eq_bind, Option.bind_some]
  have hsel' : g.selJ (gN f g.rows.length X j (caches j) n) ↔ g.selJ n := Iff.rfl
  by_cases hsel : g.selJ n
  · rw [if_pos (hsel'.2 hsel)]
    refine foldlM_range_inv _ (fun l s => GState f g.rows.length a L R
      (X + mask l fun l => (f l).rkernel.contrib d a j) s) _ _ ?_ ?_
    · intro l hl s hs
      obtain ⟨s', e', hs'⟩ := SymGrp.compRadMember_eq hk hF hr hn hsel _ l hl s hs
      refine ⟨s', e', ?_⟩
      rw [mask_succ, ← add_assoc]
      exact hs'
    · rw [mask_zero, add_zero]
      exact ⟨_, hc, rfl⟩
  · rw [if_neg (fun h => hsel (hsel'.1 h))]
    refine ⟨_, rfl, caches, hc, ?_⟩
    have : (X + mask g.rows.length fun l => (f l).rkernel.contrib d a j) = X := by
      funext l
      unfold mask
      rw [Pi.add_apply]
      by_cases hl : l < g.rows.length
      · rw [if_pos hl]
        have hpos : 0 < n.d := (hr l hl).list.pos n (List.mem_of_getElem? hn)
        have : (f l).rkernel.contrib d a j = 0 := by
          unfold RadialKernel.contrib
          rw [hn]
          exact if_neg fun h => hsel (((hF.crad hl hk).2.2 n hpos).2 h).1
        show X l + (f l).rkernel.contrib d a j = X l
        rw [this, add_zero]
      · rw [if_neg hl, add_zero]
    rw [this]

/-- A loop over neighbours each step of which adds contributions. -/
theorem GState.loop {f : ℕ → SymFnc} {m : ℕ} {a : Atom} {L : CacheLayout} {R : ℝ} {b : ℕ}
    (step : Buf × Atom → ℕ → Option (Buf × Atom)) (c : ℕ → ℕ → Contrib)
    (h : ∀ j < b, ∀ X s, GState f m a L R X s → ∃ s', step s j = some s' ∧
      GState f m a L R (X + c j) s') (X : ℕ → Contrib) (s : Buf × Atom) (hs : GState f m a L R X s) :
    ∃ s', (List.range b).foldlM step s = some s' ∧
      GState f m a L R (X + ∑ j ∈ Finset.range b, c j) s' := by
  refine foldlM_range_inv step (fun i s => GState f m a L R (X + ∑ j ∈ Finset.range i, c j) s) b s
    ?_ ?_
  · intro l hl s hs
    obtain ⟨s', e, hs'⟩ := h l hl _ s hs
    refine ⟨s', e, ?_⟩
    rw [Finset.sum_range_succ, ← add_assoc]
    exact hs'
  · simpa using hs

end N2P2
