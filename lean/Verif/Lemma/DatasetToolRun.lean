import Verif.Lemma.DatasetTool

namespace N2P2

open Training (Key)

namespace DatasetTool

variable {D : DatasetTool}

/-! ### Errors -/

/-- Factor between units. -/
noncomputable def factor (D : DatasetTool) : Key → ℝ
  | .energy => D.energyUnit
  | .force => D.energyUnit / D.lengthUnit
  | .charge => D.chargeUnit

theorem Ready.factor_pos (h : D.Ready) {k : Key} (hk : k ≠ .charge) : 0 < D.factor k := by
  cases k
  · exact h.energyUnit_pos
  · exact div_pos h.energyUnit_pos h.lengthUnit_pos
  · exact absurd rfl hk

theorem deviations_eq (h : D.Ready) {r v : Structure} (hv : D.Pair r v) {k : Key} (hk : k ≠ .charge) :
    deviations k v = (deviations k (D.predicted r v)).map (· * D.factor k) := by
  have hE := h.energyUnit_pos.ne'
  have hL := h.lengthUnit_pos.ne'
  cases k with
  | energy =>
    show [v.energyRef - v.energy] = [(r.energyRef - (v.energy / D.energyUnit + D.baseEnergy r)) * D.energyUnit]
    rw [hv.energyRef]
    congr 1
    field_simp
    ring
  | force =>
    have key : ∀ l l' : List Atom, List.Forall₂ (fun a b : Atom => b.element = a.element ∧ b.index = a.index ∧
        b.indexStructure = a.indexStructure ∧ b.r = D.lengthUnit • a.r ∧
        b.fRef = (D.energyUnit / D.lengthUnit) • a.fRef) l l' →
        l'.flatMap (fun a => [a.fRef 0 - a.f 0, a.fRef 1 - a.f 1, a.fRef 2 - a.f 2]) =
        ((List.zipWith (fun a b : Atom => { a with
          f := fun i => b.f i * D.lengthUnit / D.energyUnit
          charge := b.charge / D.chargeUnit }) l l').flatMap
            fun a => [a.fRef 0 - a.f 0, a.fRef 1 - a.f 1, a.fRef 2 - a.f 2]).map
          (· * (D.energyUnit / D.lengthUnit)) := by
      intro l l' hl
      induction hl with
      | nil => rfl
      | @cons a b l l' hab _ ih =>
        have hc : ∀ i : Fin 3, b.fRef i - b.f i =
            (a.fRef i - b.f i * D.lengthUnit / D.energyUnit) * (D.energyUnit / D.lengthUnit) := by
          intro i
          rw [hab.2.2.2.2]
          simp only [Pi.smul_apply, smul_eq_mul]
          field_simp
        rw [List.zipWith_cons_cons, List.flatMap_cons, List.flatMap_cons, List.map_append, ih, hc 0, hc 1, hc 2]
        rfl
    exact key _ _ hv.atoms
  | charge => exact absurd rfl hk

theorem deviationsPerAtom_eq (h : D.Ready) {r v : Structure} (hr : D.Input r) (hv : D.Pair r v) {k : Key}
    (hk : k ≠ .charge) :
    deviationsPerAtom k v = (deviationsPerAtom k (D.predicted r v)).map (· * D.factor k) := by
  unfold deviationsPerAtom
  rw [deviations_eq h hv hk, List.map_map, List.map_map, hv.numAtoms, ← hr.numAtoms]
  refine List.map_congr_left fun x _ => ?_
  show _ = x / (r.numAtoms : ℝ) * _
  simp only [Function.comp]
  ring

theorem errorOf_eq (h : D.Ready) {qs : List (Structure × Structure)}
    (hq : ∀ q ∈ qs, D.Input q.1 ∧ D.Pair q.1 q.2) {k : Key} (hk : k ≠ .charge) (m : Metric) :
    errorOf k m (qs.map Prod.snd) =
      (errorOf k m (qs.map fun q => D.predicted q.1 q.2)).map (· * D.factor k) := by
  refine error_scale k m (h.factor_pos hk).le ?_ ?_
  · induction qs with
    | nil => rfl
    | cons q qs ih =>
      rw [List.map_cons, List.map_cons, List.flatMap_cons, List.flatMap_cons, List.map_append,
        ih fun x hx => hq x (by simp [hx]), deviations_eq h (hq q (by simp)).2 hk]
  · induction qs with
    | nil => rfl
    | cons q qs ih =>
      rw [List.map_cons, List.map_cons, List.flatMap_cons, List.flatMap_cons, List.map_append,
        ih fun x hx => hq x (by simp [hx]), deviationsPerAtom_eq h (hq q (by simp)).1 (hq q (by simp)).2 hk]

theorem deviations_cleared (k : Key) (s : Structure) : deviations k s.cleared = deviations k s := by
  cases k
  · rfl
  · simp [deviations, Structure.cleared, List.flatMap_map, Atom.cleared]
  · simp [deviations, Structure.cleared, Atom.cleared, Function.comp_def]

theorem sums_cleared (k : Key) (ss : List Structure) (e : ErrAcc) (h : Sums k (ss.map Structure.cleared) e) :
    Sums k ss e := by
  have e1 : (ss.map Structure.cleared).flatMap (deviations k) = ss.flatMap (deviations k) := by
    rw [List.flatMap_map]
    exact List.flatMap_congr fun s _ => deviations_cleared k s
  have e2 : (ss.map Structure.cleared).flatMap (deviationsPerAtom k) = ss.flatMap (deviationsPerAtom k) := by
    rw [List.flatMap_map]
    refine List.flatMap_congr fun s _ => ?_
    unfold deviationsPerAtom
    rw [deviations_cleared k s]
    rfl
  unfold Sums at h ⊢
  rw [e1, e2] at h
  exact h

theorem logRow_eq (h : D.Ready) {qs : List (Structure × Structure)}
    (hq : ∀ q ∈ qs, D.Input q.1 ∧ D.Pair q.1 q.2) {k : Key} (hk : k ≠ .charge) {e : ErrAcc}
    (he : ∀ m ∈ k.metrics, e.value m = errorOf k m (qs.map Prod.snd)) :
    D.logRow k e = some ((k.metrics.map fun m => errorOf k m (qs.map fun q => D.predicted q.1 q.2)) ++
      if D.normalize then k.metrics.map fun m => errorOf k m (qs.map Prod.snd) else []) := by
  have e1 : k.metrics.map e.value = k.metrics.map fun m => errorOf k m (qs.map Prod.snd) :=
    List.map_congr_left he
  unfold logRow
  by_cases hn : D.normalize = true
  · rw [if_pos hn, if_pos hn]
    have hu : D.factor k = unitFactor D.units k := by
      cases k
      · exact if_pos hn
      · unfold factor energyUnit lengthUnit
        rw [if_pos hn, if_pos hn]
        rfl
      · exact absurd rfl hk
    have e2 : k.metrics.mapM (fun m => physicalValue D.units k (e.value m)) =
        some (k.metrics.map fun m => errorOf k m (qs.map fun q => D.predicted q.1 q.2)) := by
      refine mapM_pure_some _ fun m hm => ?_
      rw [he m hm, errorOf_eq h hq hk m]
      cases errorOf k m (qs.map fun q => D.predicted q.1 q.2) with
      | none => rfl
      | some x =>
        show (D.units.physical k.text (x * D.factor k)).map some = _
        rw [physical_factor (h.units hn), hu, mul_div_cancel_right₀ _ (unitFactor_pos (h.units hn) k).ne']
        rfl
    rw [e2, e1]
    rfl
  · rw [if_neg hn, if_neg hn, e1, List.append_nil]
    congr 1
    refine List.map_congr_left fun m _ => ?_
    have hu : D.factor k = 1 := by
      cases k
      · exact if_neg hn
      · unfold factor energyUnit lengthUnit
        rw [if_neg hn, if_neg hn, div_one]
      · exact absurd rfl hk
    rw [errorOf_eq h hq hk m, hu]
    cases errorOf k m (qs.map fun q => D.predicted q.1 q.2) with
    | none => rfl
    | some x => simp

/-! ### One process -/

/-- What a process has done with its structures; the text `he`, `hf` is written first. -/
structure Done (D : DatasetTool) (he hf : Str) (t : ToolState) (qs : List (Structure × Structure)) : Prop where
  energy : ∃ te, t.energy = he ++ te ∧ Rows te (qs.map fun q => D.energyWords (D.predicted q.1 q.2) q.2)
  forces : D.useForces = true → ∃ tf, t.forces = hf ++ tf ∧
    Rows tf (qs.flatMap fun q => D.allForceWords (D.predicted q.1 q.2) q.2)
  output : ∃ T, t.output = T.flatten ∧
    List.Forall₂ (fun q x => (D.predicted q.1 q.2).writeToFile D.N D.m false = some x) qs T
  sumE : Sums .energy (qs.map fun q => q.2.cleared) t.errorEnergy
  sumF : D.useForces = true → Sums .force (qs.map fun q => q.2.cleared) t.errorForce

theorem step_done (h : D.Ready) {he hf : Str} {t : ToolState} {qs : List (Structure × Structure)}
    (ht : D.Done he hf t qs) {r s v : Structure} (hr : D.Input r) (hv : D.Pair r v) (hs : D.evaluate s = some v)
    {x : Str} (hx : (D.predicted r v).writeToFile D.N D.m false = some x) :
    ∃ t', D.step t s = some t' ∧ D.Done he hf t' (qs ++ [(r, v)]) := by
  obtain ⟨te, h1, h2⟩ := energyLine_ok h hr hv
  obtain ⟨tf, h3, h4⟩ := forceText_ok h hr hv
  obtain ⟨T, g1, g2⟩ := ht.output
  obtain ⟨e0, g3, g4⟩ := ht.energy
  unfold step
  rw [hs]
  simp only [Option.bind_eq_bind, Option.bind_some, h1, outputText_eq h hr hv, hx, h3]
  have hE : Sums .energy ((qs ++ [(r, v)]).map fun q => q.2.cleared) (updateErrorEnergy t.errorEnergy v.cleared) := by
    rw [List.map_append]
    exact sums_step ht.sumE v.cleared
  have hO : ∃ T', t.output ++ x = T'.flatten ∧
      List.Forall₂ (fun q x => (D.predicted q.1 q.2).writeToFile D.N D.m false = some x) (qs ++ [(r, v)]) T' :=
    ⟨T ++ [x], by rw [g1]; simp, List.rel_append g2 (.cons hx .nil)⟩
  have hen : ∃ te', t.energy ++ te = he ++ te' ∧
      Rows te' ((qs ++ [(r, v)]).map fun q => D.energyWords (D.predicted q.1 q.2) q.2) := by
    refine ⟨e0 ++ te, by rw [g3, List.append_assoc], ?_⟩
    rw [List.map_append]
    exact rows_append g4 h2
  by_cases hu : D.useForces = true
  · rw [show onlyIf D.useForces (some tf) = some tf by rw [hu]; rfl]
    simp only [Option.bind_some]
    refine ⟨_, rfl, hen, fun _ => ?_, hO, hE, fun _ => ?_⟩
    · obtain ⟨f0, g5, g6⟩ := ht.forces hu
      refine ⟨f0 ++ tf, by dsimp only; rw [g5, List.append_assoc], ?_⟩
      rw [List.flatMap_append]
      refine rows_append g6 ?_
      simpa using h4
    · dsimp only
      rw [if_pos hu, List.map_append]
      exact sums_step (ht.sumF hu) v.cleared
  · rw [show onlyIf D.useForces (some tf) = some [] by rw [Bool.not_eq_true] at hu; rw [hu]; rfl]
    simp only [Option.bind_some]
    exact ⟨_, rfl, hen, fun h' => absurd h' hu, hO, hE, fun h' => absurd h' hu⟩

theorem energyHeader_ok (normalize : Bool) : ∃ h, energyHeader normalize = some h ∧
    ∀ l ∈ h, IsCommentLine '#' l := by
  have hex : ∃ h, energyHeader normalize = some h := by cases normalize <;> exact ⟨_, rfl⟩
  obtain ⟨h, hh⟩ := hex
  refine ⟨h, hh, ?_⟩
  cases normalize <;>
  · unfold energyHeader at hh
    exact header_comment (by decide) (by decide) (by decide) (by decide) ⟨10, by decide, by decide⟩ hh

theorem forceHeader_ok (normalize : Bool) : ∃ h, forceHeader normalize = some h ∧
    ∀ l ∈ h, IsCommentLine '#' l := by
  have hex : ∃ h, forceHeader normalize = some h := by cases normalize <;> exact ⟨_, rfl⟩
  obtain ⟨h, hh⟩ := hex
  refine ⟨h, hh, ?_⟩
  cases normalize <;>
  · unfold forceHeader at hh
    exact header_comment (by decide) (by decide) (by decide) (by decide) ⟨10, by decide, by decide⟩ hh

/-- Structures with their evaluations. -/
structure Results (D : DatasetTool) (raw : List Structure) (qs : List (Structure × Structure)) : Prop where
  raw : qs.map Prod.fst = raw
  evaluation : ∀ q ∈ qs, D.Evaluation q.1 q.2
  input : ∀ q ∈ qs, D.Input q.1 ∧ D.Pair q.1 q.2

theorem start_done (D : DatasetTool) {he hf : List Str} (e1 : energyHeader D.normalize = some he)
    (e2 : forceHeader D.normalize = some hf) (rank : ℕ) : ∃ t, D.start rank = some t ∧
      D.Done (if rank = 0 then he.flatten else []) (if rank = 0 then hf.flatten else []) t [] := by
  unfold start onlyIf
  rw [e1, e2]
  by_cases h0 : rank = 0
  · subst h0
    by_cases hu : D.useForces = true
    · simp only [hu, beq_self_eq_true, Bool.and_self, if_true, Option.bind_eq_bind, Option.bind_some]
      exact ⟨_, rfl, ⟨[], by simp, rows_nil⟩, fun _ => ⟨[], by simp, rows_nil⟩, ⟨[], rfl, .nil⟩, sums_zero _,
        fun _ => sums_zero _⟩
    · rw [Bool.not_eq_true] at hu
      simp only [hu, beq_self_eq_true, Bool.false_and, if_true, Bool.false_eq_true, if_false, Option.bind_eq_bind,
        Option.bind_some]
      exact ⟨_, rfl, ⟨[], by simp, rows_nil⟩, fun h' => absurd (hu.symm.trans h') (by decide), ⟨[], rfl, .nil⟩,
        sums_zero _, fun _ => sums_zero _⟩
  · have hb : (rank == 0) = false := by simpa using h0
    simp only [hb, Bool.and_false, Bool.false_eq_true, if_false, if_neg h0, Option.bind_eq_bind, Option.bind_some]
    exact ⟨_, rfl, ⟨[], by simp, rows_nil⟩, fun _ => ⟨[], by simp, rows_nil⟩, ⟨[], rfl, .nil⟩, sums_zero _,
      fun _ => sums_zero _⟩

theorem steps_done (h : D.Ready) {he hf : Str} {raw : List Structure} {g : Structure → Structure}
    (hr : ∀ r ∈ raw, D.Input r ∧ ∀ v, D.Evaluation r v → ∃ x, (D.predicted r v).writeToFile D.N D.m false = some x)
    (g2 : ∀ r ∈ raw, D.Normalized r (g r)) : ∀ (l : List Structure), (∀ r ∈ l, r ∈ raw) →
      ∀ (t : ToolState) (qs : List (Structure × Structure)), D.Done he hf t qs →
      ∃ t' qs', (l.map g).foldlM D.step t = some t' ∧ qs'.map Prod.fst = l ∧
        (∀ q ∈ qs', D.Evaluation q.1 q.2 ∧ D.Input q.1 ∧ D.Pair q.1 q.2) ∧ D.Done he hf t' (qs ++ qs') := by
  intro l
  induction l with
  | nil =>
    intro _ t qs d
    refine ⟨t, [], rfl, rfl, fun q hq => absurd hq (by simp), ?_⟩
    rw [List.append_nil]
    exact d
  | cons r l ih =>
    intro hm t qs d
    obtain ⟨hi, hw⟩ := hr r (hm r (by simp))
    have hn := g2 r (hm r (by simp))
    obtain ⟨v, hv1, hv2⟩ := hi.evaluates _ hn
    have hev : D.Evaluation r v := ⟨_, hn, hv1, hv2⟩
    obtain ⟨x, hx⟩ := hw v hev
    have hp := pair_of hi hn hv2
    obtain ⟨t', e, d'⟩ := step_done h d hi hp hv1 hx
    obtain ⟨t'', qs', e', m', p', d''⟩ := ih (fun y hy => hm y (by simp [hy])) t' _ d'
    refine ⟨t'', (r, v) :: qs', ?_, by rw [List.map_cons, m'], ?_, ?_⟩
    · rw [List.map_cons, List.foldlM_cons, e]
      exact e'
    · intro q hq
      rcases List.mem_cons.1 hq with rfl | hq
      · exact ⟨hev, hi, hp⟩
      · exact p' q hq
    · rw [List.append_assoc, List.singleton_append] at d''
      exact d''

theorem process_done (h : D.Ready) {he hf : List Str} (e1 : energyHeader D.normalize = some he)
    (e2 : forceHeader D.normalize = some hf) (rank : ℕ) {raw : List Structure}
    (hr : ∀ r ∈ raw, D.Input r ∧ ∀ v, D.Evaluation r v → ∃ x, (D.predicted r v).writeToFile D.N D.m false = some x) :
    ∃ t qs, D.process rank raw = some t ∧ D.Results raw qs ∧
      D.Done (if rank = 0 then he.flatten else []) (if rank = 0 then hf.flatten else []) t qs := by
  have : Inhabited Structure := ⟨Structure.init⟩
  have hl : ∀ r ∈ raw, ∃ s, D.load r = some s ∧ D.Normalized r s := fun r hx => load_ok h (hr r hx).1
  choose! g g1 g2 using hl
  obtain ⟨t0, e3, d0⟩ := start_done D e1 e2 rank
  obtain ⟨t, qs, e4, m1, p1, d1⟩ := steps_done h hr g2 raw (fun _ hx => hx) t0 [] d0
  rw [List.nil_append] at d1
  refine ⟨t, qs, ?_, ⟨m1, fun q hq => (p1 q hq).1, fun q hq => (p1 q hq).2⟩, d1⟩
  unfold process
  rw [mapM_pure_some raw g1, Option.bind_eq_bind, Option.bind_some, e3]
  exact e4

/-! ### Reading the predicted data set -/

theorem readsAs_of {N : NumberText} (hN : N.Sane) {m : EMap} (hm : m.Sane) : ∀ (ss : List Structure) (T : List Str)
    (k : ℕ), (∀ s ∈ ss, s.Filable N m false) →
    List.Forall₂ (fun s x => s.writeToFile N m false = some x) ss T → ReadsAs N m k (readLines T.flatten) ss := by
  intro ss
  induction ss with
  | nil =>
    intro T k _ hf
    cases hf
    rfl
  | cons s ss ih =>
    intro T k hs hf
    obtain _ | ⟨hx, hf⟩ := hf
    rename_i x T
    obtain ⟨text, h1, h2⟩ := C58_roundtrip_partial hN hm s false (hs s (by simp)) k
    rw [hx] at h1
    cases h1
    obtain ⟨u, h3, h4⟩ := h2 T.flatten
    exact ⟨u, _, h3, h4, ih T (k + 1) (fun y hy => hs y (by simp [hy])) hf⟩

end DatasetTool

end N2P2
