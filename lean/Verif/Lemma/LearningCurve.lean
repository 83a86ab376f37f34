import Verif.Spec.LearningCurve
import Verif.Lemma.Convert
import Verif.Props.Dataset

/-! Errors reported during training. -/

namespace N2P2

open Training (Key SampleType)

/-! ### Errors -/

theorem average_scale (xs : List ℝ) (c : ℝ) :
    average (xs.map (· * c)) = (average xs).map (· * c) := by
  unfold average
  by_cases h : xs = []
  · subst h; simp
  · rw [if_neg h, if_neg (by simpa using h), Option.map_some, List.length_map]
    congr 1
    have : (xs.map (· * c)).sum = xs.sum * c := by
      rw [List.sum_map_mul_right, List.map_id']
    rw [this]; ring

theorem rms_scale (xs : List ℝ) {c : ℝ} (hc : 0 ≤ c) :
    rootMeanSquare (xs.map (· * c)) = (rootMeanSquare xs).map (· * c) := by
  unfold rootMeanSquare
  have : (xs.map (· * c)).map (· ^ 2) = (xs.map (· ^ 2)).map (· * c ^ 2) := by
    simp only [List.map_map]
    refine List.map_congr_left fun x _ => ?_
    simp only [Function.comp]; ring
  rw [this, average_scale]
  cases average (xs.map (· ^ 2)) with
  | none => rfl
  | some y =>
    simp only [Option.map_some]
    congr 1
    rw [Real.sqrt_mul' _ (by positivity), Real.sqrt_sq hc]

theorem mae_scale (xs : List ℝ) {c : ℝ} (hc : 0 ≤ c) :
    meanAbsolute (xs.map (· * c)) = (meanAbsolute xs).map (· * c) := by
  unfold meanAbsolute
  have : (xs.map (· * c)).map abs = (xs.map abs).map (· * c) := by
    simp only [List.map_map]
    refine List.map_congr_left fun x _ => ?_
    simp only [Function.comp, abs_mul, abs_of_nonneg hc]
  rw [this, average_scale]

theorem error_scale (k : Key) (m : Metric) {c : ℝ} (hc : 0 ≤ c) {ss ps : List Structure}
    (hd : ss.flatMap (deviations k) = (ps.flatMap (deviations k)).map (· * c))
    (hp : ss.flatMap (deviationsPerAtom k) = (ps.flatMap (deviationsPerAtom k)).map (· * c)) :
    errorOf k m ss = (errorOf k m ps).map (· * c) := by
  cases m <;> simp only [errorOf, hd, hp, rms_scale _ hc, mae_scale _ hc]

/-- Factor between units. -/
noncomputable def unitFactor (u : ModeUnits) : Key → ℝ
  | .energy => u.convEnergy
  | .force => u.convEnergy / u.convLength
  | .charge => u.convCharge

theorem unitFactor_pos {u : ModeUnits} (hu : u.Positive) (k : Key) : 0 < unitFactor u k := by
  obtain ⟨h1, h2, h3⟩ := hu
  cases k
  · exact h1
  · exact div_pos h1 h2
  · exact h3

theorem physical_factor {u : ModeUnits} (hu : u.Positive) (k : Key) (x : ℝ) :
    u.physical k.text x = some (x / unitFactor u k) := by
  obtain ⟨h1, h2, h3⟩ := hu
  cases k
  · rfl
  · show some (x * u.convLength / u.convEnergy) = _
    unfold unitFactor
    congr 1
    field_simp
  · rfl

theorem deviations_units {u : ModeUnits} {p s : Structure}
    (h : Structure.NormalizedFrom u p s) (k : Key) :
    deviations k s = (deviations k p).map (· * unitFactor u k) := by
  cases k with
  | energy =>
    simp only [deviations, List.map_cons, List.map_nil, unitFactor, h.energy, h.energyRef]
    congr 1; ring
  | force =>
    have key : ∀ l l' : List Atom, List.Forall₂ (Atom.NormalizedFrom u) l l' →
        l'.flatMap (fun a => [a.fRef 0 - a.f 0, a.fRef 1 - a.f 1, a.fRef 2 - a.f 2]) =
        (l.flatMap fun a => [a.fRef 0 - a.f 0, a.fRef 1 - a.f 1, a.fRef 2 - a.f 2]).map
          (· * (u.convEnergy / u.convLength)) := by
      intro l l' hl
      induction hl with
      | nil => rfl
      | @cons a b l l' hab _ ih =>
        simp only [List.flatMap_cons, List.map_append, ih, List.map_cons, List.map_nil, hab.f, hab.fRef]
        congr 1
        congr 1
        · ring
        · congr 1
          · ring
          · congr 1; ring
    exact key _ _ h.atoms
  | charge =>
    have key : ∀ l l' : List Atom, List.Forall₂ (Atom.NormalizedFrom u) l l' →
        l'.map (fun a => a.chargeRef - a.charge) =
        (l.map fun a => a.chargeRef - a.charge).map (· * u.convCharge) := by
      intro l l' hl
      induction hl with
      | nil => rfl
      | @cons a b l l' hab _ ih =>
        simp only [List.map_cons, ih, hab.charge, hab.chargeRef]
        congr 1; ring
    exact key _ _ h.atoms

theorem deviationsPerAtom_units {u : ModeUnits} {p s : Structure}
    (h : Structure.NormalizedFrom u p s) (k : Key) :
    deviationsPerAtom k s = (deviationsPerAtom k p).map (· * unitFactor u k) := by
  unfold deviationsPerAtom
  rw [deviations_units h k, h.numAtoms, List.map_map, List.map_map]
  refine List.map_congr_left fun x _ => ?_
  simp only [Function.comp]; ring

theorem forall₂_concat {α β : Type*} {R : α → β → Prop} {a : List (List α)} {b : List (List β)}
    (h : List.Forall₂ (List.Forall₂ R) a b) : List.Forall₂ R a.flatten b.flatten := by
  induction h with
  | nil => exact .nil
  | cons h1 _ ih => exact List.rel_append h1 ih

theorem forall₂_part {u : ModeUnits} (part : Part) {ps ss : List Structure}
    (h : List.Forall₂ (Structure.NormalizedFrom u) ps ss) :
    List.Forall₂ (Structure.NormalizedFrom u) (ps.filter (·.sampleType = part.sample))
      (ss.filter (·.sampleType = part.sample)) := by
  induction h with
  | nil => exact .nil
  | @cons p s ps ss h1 _ ih =>
    rw [List.filter_cons, List.filter_cons, h1.sample]
    split_ifs
    · exact .cons h1 ih
    · exact ih

theorem error_units {u : ModeUnits} (hu : u.Positive) (k : Key) (m : Metric) {ps ss : List Structure}
    (h : List.Forall₂ (Structure.NormalizedFrom u) ps ss) :
    errorOf k m ss = (errorOf k m ps).map (· * unitFactor u k) := by
  refine error_scale k m (unitFactor_pos hu k).le ?_ ?_
  · induction h with
    | nil => rfl
    | cons h1 _ ih => rw [List.flatMap_cons, List.flatMap_cons, List.map_append, ih, deviations_units h1]
  · induction h with
    | nil => rfl
    | cons h1 _ ih =>
      rw [List.flatMap_cons, List.flatMap_cons, List.map_append, ih, deviationsPerAtom_units h1]

theorem physicalValue_units {u : ModeUnits} (hu : u.Positive) (k : Key) (v : Option ℝ) :
    physicalValue u k (v.map (· * unitFactor u k)) = some v := by
  cases v with
  | none => rfl
  | some x =>
    simp only [physicalValue, Option.map_some, physical_factor hu]
    rw [mul_div_cancel_right₀ _ (unitFactor_pos hu k).ne']

/-! ### Errors of all processes -/

/-- What a process adds up. -/
def Sums (k : Key) (ss : List Structure) (e : ErrAcc) : Prop :=
  e.count = (ss.flatMap (deviations k)).length ∧
  e.RMSE = ((ss.flatMap (deviations k)).map (· ^ 2)).sum ∧
  e.MAE = ((ss.flatMap (deviations k)).map abs).sum ∧
  (k = .energy → e.RMSEpa = ((ss.flatMap (deviationsPerAtom k)).map (· ^ 2)).sum ∧
    e.MAEpa = ((ss.flatMap (deviationsPerAtom k)).map abs).sum)

theorem sums_zero (k : Key) : Sums k [] ErrAcc.zero := by
  refine ⟨rfl, ?_, ?_, fun _ => ⟨?_, ?_⟩⟩ <;> simp [ErrAcc.zero]

theorem sums_step {k : Key} {ss : List Structure} {e : ErrAcc} (h : Sums k ss e) (s : Structure) :
    Sums k (ss ++ [s]) (updateError k e s) := by
  obtain ⟨h1, h2, h3, h4⟩ := h
  cases k with
  | energy =>
    obtain ⟨h5, h6⟩ := h4 rfl
    refine ⟨?_, ?_, ?_, fun _ => ⟨?_, ?_⟩⟩
    · simp [updateError, updateErrorEnergy, h1, deviations]
    · simp [updateError, updateErrorEnergy, h2, deviations, pow_two]
    · simp [updateError, updateErrorEnergy, h3, deviations]
    · simp [updateError, updateErrorEnergy, h5, deviations, deviationsPerAtom, pow_two]
      ring
    · simp [updateError, updateErrorEnergy, h6, deviations, deviationsPerAtom, abs_div]
  | force =>
    have key : ∀ (l : List Atom) (e : ErrAcc),
        (l.foldl Atom.updateErrorForce e).count = e.count +
          (l.flatMap fun a => [a.fRef 0 - a.f 0, a.fRef 1 - a.f 1, a.fRef 2 - a.f 2]).length ∧
        (l.foldl Atom.updateErrorForce e).RMSE = e.RMSE +
          ((l.flatMap fun a => [a.fRef 0 - a.f 0, a.fRef 1 - a.f 1, a.fRef 2 - a.f 2]).map (· ^ 2)).sum ∧
        (l.foldl Atom.updateErrorForce e).MAE = e.MAE +
          ((l.flatMap fun a => [a.fRef 0 - a.f 0, a.fRef 1 - a.f 1, a.fRef 2 - a.f 2]).map abs).sum := by
      intro l
      induction l with
      | nil => intro e; simp
      | cons a l ih =>
        intro e
        obtain ⟨i1, i2, i3⟩ := ih (Atom.updateErrorForce e a)
        rw [List.foldl_cons, i1, i2, i3]
        simp only [List.flatMap_cons, List.length_append, List.map_append, List.sum_append,
          Atom.updateErrorForce, List.length_cons, List.length_nil, List.map_cons, List.map_nil,
          List.sum_cons, List.sum_nil, Pi.sub_apply]
        exact ⟨by omega, by ring, by ring⟩
    obtain ⟨i1, i2, i3⟩ := key s.atoms e
    refine ⟨?_, ?_, ?_, fun h => by cases h⟩
    · show (s.atoms.foldl Atom.updateErrorForce e).count = _
      rw [i1, h1, List.flatMap_append, List.length_append]; simp [deviations]
    · show (s.atoms.foldl Atom.updateErrorForce e).RMSE = _
      rw [i2, h2, List.flatMap_append, List.map_append, List.sum_append]; simp [deviations]
    · show (s.atoms.foldl Atom.updateErrorForce e).MAE = _
      rw [i3, h3, List.flatMap_append, List.map_append, List.sum_append]; simp [deviations]
  | charge =>
    have key : ∀ (l : List Atom) (e : ErrAcc),
        (l.foldl Atom.updateErrorCharge e).count = e.count +
          (l.map fun a => a.chargeRef - a.charge).length ∧
        (l.foldl Atom.updateErrorCharge e).RMSE = e.RMSE +
          ((l.map fun a => a.chargeRef - a.charge).map (· ^ 2)).sum ∧
        (l.foldl Atom.updateErrorCharge e).MAE = e.MAE +
          ((l.map fun a => a.chargeRef - a.charge).map abs).sum := by
      intro l
      induction l with
      | nil => intro e; simp
      | cons a l ih =>
        intro e
        obtain ⟨i1, i2, i3⟩ := ih (Atom.updateErrorCharge e a)
        rw [List.foldl_cons, i1, i2, i3]
        simp only [Atom.updateErrorCharge, List.length_cons, List.map_cons, List.sum_cons]
        exact ⟨by omega, by ring, by ring⟩
    obtain ⟨i1, i2, i3⟩ := key s.atoms e
    refine ⟨?_, ?_, ?_, fun h => by cases h⟩
    · show (s.atoms.foldl Atom.updateErrorCharge e).count = _
      rw [i1, h1, List.flatMap_append, List.length_append]; simp [deviations]
    · show (s.atoms.foldl Atom.updateErrorCharge e).RMSE = _
      rw [i2, h2, List.flatMap_append, List.map_append, List.sum_append]; simp [deviations]
    · show (s.atoms.foldl Atom.updateErrorCharge e).MAE = _
      rw [i3, h3, List.flatMap_append, List.map_append, List.sum_append]; simp [deviations]

/-- The errors of all processes. -/
theorem collect_errors {k : Key} {parts : List (List Structure)} {es : List ErrAcc}
    (h : List.Forall₂ (Sums k) parts es) {m : Metric} (hm : m ∈ k.metrics) :
    (collectError es).value m = errorOf k m parts.flatten := by
  have hc : (es.map (·.count)).sum = (parts.flatten.flatMap (deviations k)).length := by
    induction h with
    | nil => rfl
    | cons h1 _ ih => simp only [List.map_cons, List.sum_cons, List.flatten_cons, List.flatMap_append,
        List.length_append, ih, h1.1]
  have hr : (es.map (·.RMSE)).sum = ((parts.flatten.flatMap (deviations k)).map (· ^ 2)).sum := by
    clear hc
    induction h with
    | nil => rfl
    | cons h1 _ ih => simp only [List.map_cons, List.sum_cons, List.flatten_cons, List.flatMap_append,
        List.map_append, List.sum_append, ih, h1.2.1]
  have ha : (es.map (·.MAE)).sum = ((parts.flatten.flatMap (deviations k)).map abs).sum := by
    clear hc hr
    induction h with
    | nil => rfl
    | cons h1 _ ih => simp only [List.map_cons, List.sum_cons, List.flatten_cons, List.flatMap_append,
        List.map_append, List.sum_append, ih, h1.2.2.1]
  have hpa : k = .energy → (es.map (·.RMSEpa)).sum =
      ((parts.flatten.flatMap (deviationsPerAtom k)).map (· ^ 2)).sum ∧ (es.map (·.MAEpa)).sum =
      ((parts.flatten.flatMap (deviationsPerAtom k)).map abs).sum := by
    clear hc hr ha
    intro hk
    induction h with
    | nil => exact ⟨rfl, rfl⟩
    | cons h1 _ ih => simp only [List.map_cons, List.sum_cons, List.flatten_cons, List.flatMap_append,
        List.map_append, List.sum_append, ih.1, ih.2, (h1.2.2.2 hk).1, (h1.2.2.2 hk).2, and_self]
  have hlen : (parts.flatten.flatMap (deviationsPerAtom k)).length =
      (parts.flatten.flatMap (deviations k)).length := by
    simp [List.length_flatMap, deviationsPerAtom]
  have hmp : m = .RMSEpa ∨ m = .MAEpa → k = .energy := by
    cases k
    · exact fun _ => rfl
    · intro h; rcases h with rfl | rfl <;> exact absurd hm (by decide)
    · intro h; rcases h with rfl | rfl <;> exact absurd hm (by decide)
  unfold ErrAcc.value
  show (if (es.map (·.count)).sum = 0 then none else some ((collectError es).at m)) = _
  rw [hc]
  set D := parts.flatten.flatMap (deviations k) with hD
  set P := parts.flatten.flatMap (deviationsPerAtom k) with hP
  by_cases h0 : D.length = 0
  · rw [if_pos h0]
    have e1 : D = [] := List.eq_nil_of_length_eq_zero h0
    have e2 : P = [] := List.eq_nil_of_length_eq_zero (hlen.trans h0)
    cases m <;> simp [errorOf, ← hD, ← hP, e1, e2, rootMeanSquare, meanAbsolute, average]
  · rw [if_neg h0]
    have n1 : D ≠ [] := fun h => h0 (by rw [h]; rfl)
    have n2 : P ≠ [] := fun h => h0 (by rw [← hlen, h]; rfl)
    cases m with
    | RMSEpa =>
      simp only [errorOf, ← hP, rootMeanSquare, average, List.map_eq_nil_iff, if_neg n2,
        Option.map_some, ErrAcc.at, collectError, hc, (hpa (hmp (.inl rfl))).1, List.length_map, hlen]
    | RMSE =>
      simp only [errorOf, ← hD, rootMeanSquare, average, List.map_eq_nil_iff, if_neg n1,
        Option.map_some, ErrAcc.at, collectError, hc, hr, List.length_map]
    | MAEpa =>
      simp only [errorOf, ← hP, meanAbsolute, average, List.map_eq_nil_iff, if_neg n2,
        ErrAcc.at, collectError, hc, (hpa (hmp (.inr rfl))).2, List.length_map, hlen]
    | MAE =>
      simp only [errorOf, ← hD, meanAbsolute, average, List.map_eq_nil_iff, if_neg n1,
        ErrAcc.at, collectError, hc, ha, List.length_map]

/-! ### Lines -/

/-- Text of lines which are no comments, with these words. -/
def Rows (text : Str) (words : List (List Str)) : Prop :=
  ∃ ls : List Str, text = ls.flatMap (· ++ ['\n']) ∧
    (∀ l ∈ ls, '\n' ∉ l ∧ l ≠ [] ∧ l.head? ≠ some '#') ∧ ls.map (fun l => split (reduce l)) = words

theorem rows_nil : Rows [] [] := ⟨[], rfl, by simp, rfl⟩

theorem rows_append {t t' : Str} {w w' : List (List Str)} (h : Rows t w) (h' : Rows t' w') :
    Rows (t ++ t') (w ++ w') := by
  obtain ⟨ls, rfl, h1, rfl⟩ := h
  obtain ⟨ls', rfl, h1', rfl⟩ := h'
  refine ⟨ls ++ ls', by simp, fun l hl => ?_, by simp⟩
  rcases List.mem_append.1 hl with hl | hl
  · exact h1 l hl
  · exact h1' l hl

/-- Fields with padding. -/
theorem fieldLine_body (n : ℕ) (w : Str) (fs : List (ℕ × Str)) :
    fieldLine (padLeft n w) (fs.map fun f => padLeft f.1 f.2) =
      (List.replicate (n - w.length) ' ' ++ w ++ spaced (fs.map fun f => (f.1 - f.2.length, f.2))) ++
        ['\n'] := by
  simp [fieldLine, padLeft, spaced, List.flatMap_map]

theorem newline_spaced {fs : List (ℕ × Str)} (h : ∀ f ∈ fs, '\n' ∉ f.2) : '\n' ∉ spaced fs := by
  intro hc
  obtain ⟨f, hf, hc⟩ := List.mem_flatMap.1 hc
  rcases List.mem_cons.1 hc with hc | hc
  · exact absurd hc (by decide)
  · rcases List.mem_append.1 hc with hc | hc
    · exact absurd (List.eq_of_mem_replicate hc) (by decide)
    · exact h f hf hc

theorem lead_head (n a : ℕ) (t : Str) : (List.replicate n ' ' ++ natText a ++ t) ≠ [] ∧
    (List.replicate n ' ' ++ natText a ++ t).head? ≠ some '#' := by
  cases n with
  | zero =>
    cases e : natText a with
    | nil => exact absurd e (natText_word a).1
    | cons c cs =>
      have : c.isDigit = true := natText_digit (n := a) (by rw [e]; simp)
      refine ⟨by simp, ?_⟩
      simp only [List.replicate_zero, List.nil_append, List.cons_append, List.head?_cons]
      rintro h
      cases h
      exact absurd this (by decide)
  | succ n => exact ⟨by simp [List.replicate_succ], by simp [List.replicate_succ]⟩

theorem row_line (n a : ℕ) (fs : List (ℕ × Str)) (h : ∀ f ∈ fs, IsWord f.2 ∧ '\n' ∉ f.2) :
    Rows (fieldLine (padLeft n (natText a)) (fs.map fun f => padLeft f.1 f.2))
      [natText a :: fs.map Prod.snd] := by
  refine ⟨[List.replicate (n - (natText a).length) ' ' ++ natText a ++
      spaced (fs.map fun f => (f.1 - f.2.length, f.2))], ?_, ?_, ?_⟩
  · rw [fieldLine_body]; simp
  · intro l hl
    rw [List.mem_singleton.1 hl]
    refine ⟨?_, (lead_head _ _ _).1, (lead_head _ _ _).2⟩
    intro hc
    rcases List.mem_append.1 hc with hc | hc
    · rcases List.mem_append.1 hc with hc | hc
      · exact absurd (List.eq_of_mem_replicate hc) (by decide)
      · exact natText_newline a hc
    · refine newline_spaced ?_ hc
      intro f hf
      obtain ⟨g, hg, rfl⟩ := List.mem_map.1 hf
      exact (h g hg).2
  · rw [List.map_singleton]
    have := tokens_lead (n - (natText a).length) (natText a) (natText_word a)
      (fs.map fun f => (f.1 - f.2.length, f.2)) (by
        intro f hf
        obtain ⟨g, hg, rfl⟩ := List.mem_map.1 hf
        exact (h g hg).1)
    rw [(C01_tokens_are_words _ _).2 this, List.map_map]
    rfl

theorem natText_size {a : ℕ} (h : a < 2 ^ 64) : (natText a).length ≤ 20 :=
  natText_length (by norm_num) (lt_trans h (by norm_num))

theorem atomLine_ok {N : NumberText} (hN : N.Data) {a : Atom}
    (ha : a.index < 2 ^ 64 ∧ a.indexStructure < 2 ^ 64) (x y : ℝ) :
    ∃ t, atomLine N a x y = some t ∧
      Rows t [[natText a.indexStructure, natText a.index, N.print x, N.print y]] := by
  have h1 := natText_size ha.1
  have h2 := natText_size ha.2
  obtain ⟨w1, n1, l1⟩ := hN.1 x
  obtain ⟨w2, n2, l2⟩ := hN.1 y
  have hr := row_line 10 a.indexStructure [(10, natText a.index), (16, N.print x), (16, N.print y)]
    (by
      intro f hf
      simp only [List.mem_cons, List.not_mem_nil, or_false] at hf
      rcases hf with rfl | rfl | rfl
      · exact ⟨natText_word _, natText_newline _⟩
      · exact ⟨w1, n1⟩
      · exact ⟨w2, n2⟩)
  refine ⟨_, ?_, hr⟩
  unfold atomLine strpr
  refine if_pos ?_
  simp only [fieldLine, padLeft, List.length_append, List.length_replicate, List.flatMap_cons,
    List.flatMap_nil, List.length_cons, List.length_nil]
  omega

theorem comparisonText_ok {N : NumberText} (hN : N.Data) (k : Key) {s : Structure} (hs : Trainable s) :
    ∃ t, comparisonText N k s = some t ∧ Rows t (comparisonWords N k s) := by
  cases k with
  | energy =>
    have h1 := natText_size hs.index
    obtain ⟨w1, n1, l1⟩ := hN.1 (s.energyRef / s.numAtoms)
    obtain ⟨w2, n2, l2⟩ := hN.1 (s.energy / s.numAtoms)
    have hr := row_line 10 s.index [(16, N.print (s.energyRef / s.numAtoms)),
      (16, N.print (s.energy / s.numAtoms))]
      (by
        intro f hf
        simp only [List.mem_cons, List.not_mem_nil, or_false] at hf
        rcases hf with rfl | rfl
        · exact ⟨w1, n1⟩
        · exact ⟨w2, n2⟩)
    refine ⟨_, ?_, hr⟩
    unfold comparisonText Structure.getEnergyLine strpr
    refine if_pos ?_
    simp only [fieldLine, padLeft, List.length_append, List.length_replicate, List.flatMap_cons,
      List.flatMap_nil, List.length_cons, List.length_nil]
    omega
  | force =>
    have key : ∀ l : List Atom, (∀ a ∈ l, a.index < 2 ^ 64 ∧ a.indexStructure < 2 ^ 64) →
        ∃ ls, (l.mapM fun a => a.getForcesLines N) = some ls ∧ Rows ls.flatten.flatten
          (l.flatMap fun a => [
            [natText a.indexStructure, natText a.index, N.print (a.fRef 0), N.print (a.f 0)],
            [natText a.indexStructure, natText a.index, N.print (a.fRef 1), N.print (a.f 1)],
            [natText a.indexStructure, natText a.index, N.print (a.fRef 2), N.print (a.f 2)]]) := by
      intro l
      induction l with
      | nil => intro _; exact ⟨[], rfl, rows_nil⟩
      | cons a l ih =>
        intro h
        obtain ⟨ls, e, hr⟩ := ih fun b hb => h b (by simp [hb])
        obtain ⟨t0, e0, r0⟩ := atomLine_ok hN (h a (by simp)) (a.fRef 0) (a.f 0)
        obtain ⟨t1, e1, r1⟩ := atomLine_ok hN (h a (by simp)) (a.fRef 1) (a.f 1)
        obtain ⟨t2, e2, r2⟩ := atomLine_ok hN (h a (by simp)) (a.fRef 2) (a.f 2)
        have ea : a.getForcesLines N = some [t0, t1, t2] := by
          simp [Atom.getForcesLines, e0, e1, e2]
        refine ⟨[t0, t1, t2] :: ls, by simp [ea, e], ?_⟩
        have := rows_append r0 (rows_append r1 (rows_append r2 hr))
        simpa using this
    obtain ⟨ls, e, hr⟩ := key s.atoms hs.atomIndex
    exact ⟨ls.flatten.flatten, by simp [comparisonText, e], hr⟩
  | charge =>
    have key : ∀ l : List Atom, (∀ a ∈ l, a.index < 2 ^ 64 ∧ a.indexStructure < 2 ^ 64) →
        ∃ ls, (l.mapM fun a => a.getChargeLine N) = some ls ∧ Rows ls.flatten
          (l.map fun a =>
            [natText a.indexStructure, natText a.index, N.print a.chargeRef, N.print a.charge]) := by
      intro l
      induction l with
      | nil => intro _; exact ⟨[], rfl, rows_nil⟩
      | cons a l ih =>
        intro h
        obtain ⟨ls, e, hr⟩ := ih fun b hb => h b (by simp [hb])
        obtain ⟨t0, e0, r0⟩ := atomLine_ok hN (h a (by simp)) a.chargeRef a.charge
        have ea : a.getChargeLine N = some t0 := e0
        refine ⟨t0 :: ls, by simp [ea, e], ?_⟩
        have := rows_append r0 hr
        simpa using this
    obtain ⟨ls, e, hr⟩ := key s.atoms hs.atomIndex
    exact ⟨ls.flatten, by simp [comparisonText, e], hr⟩

/-! ### One process -/

/-- What a process has after some structures. -/
structure Processed (N : NumberText) (k : Key) (doWrite : Bool) (header : Str) (ss : List Structure)
    (p : PropState) : Prop where
  train : Sums k (ss.filter (·.sampleType = .training)) p.train
  test : Sums k (ss.filter (·.sampleType = .test)) p.test
  fileTrain : doWrite = true → ∃ t, p.fileTrain = header ++ t ∧
    Rows t ((ss.filter (·.sampleType = .training)).flatMap (comparisonWords N k))
  fileTest : doWrite = true → ∃ t, p.fileTest = header ++ t ∧
    Rows t ((ss.filter (·.sampleType = .test)).flatMap (comparisonWords N k))

theorem processed_step {N : NumberText} (hN : N.Data) {k : Key} {doWrite : Bool} {header : Str}
    {ss : List Structure} {p : PropState} (h : Processed N k doWrite header ss p) {s : Structure}
    (hs : Trainable s) : ∃ p', PropState.update N k doWrite p s = some p' ∧
      Processed N k doWrite header (ss ++ [s]) p' := by
  obtain ⟨t, et, ht⟩ := comparisonText_ok hN k hs
  obtain ⟨text, e, hw⟩ : ∃ text, onlyIf doWrite (comparisonText N k s) =
      some text ∧ (doWrite = true → Rows text (comparisonWords N k s)) := by
    by_cases hd : doWrite = true
    · exact ⟨t, by rw [onlyIf, if_pos hd, et], fun _ => ht⟩
    · exact ⟨[], by rw [onlyIf, if_neg hd], fun h => absurd h hd⟩
  rcases hs.set with h1 | h1
  · refine ⟨{ p with
      train := updateError k p.train s
      fileTrain := p.fileTrain ++ text }, ?_, ?_⟩
    · unfold PropState.update
      rw [e, Option.bind_eq_bind, Option.bind_some, h1]
    · have f1 : (ss ++ [s]).filter (·.sampleType = .training) =
          ss.filter (·.sampleType = .training) ++ [s] := by simp [h1]
      have f2 : (ss ++ [s]).filter (·.sampleType = .test) = ss.filter (·.sampleType = .test) := by
        simp [h1]
      refine ⟨?_, ?_, fun hd => ?_, fun hd => ?_⟩
      · rw [f1]; exact sums_step h.train s
      · rw [f2]; exact h.test
      · obtain ⟨t', e', r'⟩ := h.fileTrain hd
        refine ⟨t' ++ text, ?_, ?_⟩
        · show p.fileTrain ++ text = _
          rw [e', List.append_assoc]
        · rw [f1, List.flatMap_append]
          have := rows_append r' (hw hd)
          simpa using this
      · rw [f2]; exact h.fileTest hd
  · refine ⟨{ p with
      test := updateError k p.test s
      fileTest := p.fileTest ++ text }, ?_, ?_⟩
    · unfold PropState.update
      rw [e, Option.bind_eq_bind, Option.bind_some, h1]
    · have f1 : (ss ++ [s]).filter (·.sampleType = .test) =
          ss.filter (·.sampleType = .test) ++ [s] := by simp [h1]
      have f2 : (ss ++ [s]).filter (·.sampleType = .training) =
          ss.filter (·.sampleType = .training) := by simp [h1]
      refine ⟨?_, ?_, fun hd => ?_, fun hd => ?_⟩
      · rw [f2]; exact h.train
      · rw [f1]; exact sums_step h.test s
      · rw [f2]; exact h.fileTrain hd
      · obtain ⟨t', e', r'⟩ := h.fileTest hd
        refine ⟨t' ++ text, ?_, ?_⟩
        · show p.fileTest ++ text = _
          rw [e', List.append_assoc]
        · rw [f1, List.flatMap_append]
          have := rows_append r' (hw hd)
          simpa using this

theorem comparisonHeader_ok (k : Key) : ∃ h, comparisonHeader k = some h ∧
    ∀ l ∈ h, IsCommentLine '#' l := by
  have hex : ∃ h, comparisonHeader k = some h := by cases k <;> exact ⟨_, rfl⟩
  obtain ⟨h, hh⟩ := hex
  refine ⟨h, hh, ?_⟩
  cases k
  · unfold comparisonHeader at hh
    exact header_comment (by decide) (by decide) (by decide) (by decide) ⟨10, by decide, by decide⟩ hh
  · unfold comparisonHeader at hh
    exact header_comment (by decide) (by decide) (by decide) (by decide) ⟨10, by decide, by decide⟩ hh
  · unfold comparisonHeader at hh
    exact header_comment (by decide) (by decide) (by decide) (by decide) ⟨10, by decide, by decide⟩ hh

theorem run_processed {N : NumberText} (hN : N.Data) (k : Key) (doWrite : Bool) (rank : ℕ)
    {h : List Str} (hh : comparisonHeader k = some h) {ss : List Structure}
    (hs : ∀ s ∈ ss, Trainable s) : ∃ p, PropState.run N k doWrite rank ss = some p ∧
      Processed N k doWrite (if rank = 0 then h.flatten else []) ss p := by
  have key : ∀ (ss pre : List Structure) (p : PropState) (header : Str),
      Processed N k doWrite header pre p → (∀ s ∈ ss, Trainable s) →
      ∃ p', ss.foldlM (PropState.update N k doWrite) p = some p' ∧
        Processed N k doWrite header (pre ++ ss) p' := by
    intro ss
    induction ss with
    | nil => intro pre p header hp _; exact ⟨p, rfl, by simpa using hp⟩
    | cons s ss ih =>
      intro pre p header hp hs
      obtain ⟨p', e, hp'⟩ := processed_step hN hp (hs s (by simp))
      obtain ⟨q, eq, hq⟩ := ih (pre ++ [s]) p' header hp' fun x hx => hs x (by simp [hx])
      refine ⟨q, ?_, by simpa using hq⟩
      rw [List.foldlM_cons, e]
      exact eq
  obtain ⟨h0, e0, c0⟩ : ∃ h0, onlyIf (doWrite && rank == 0) (comparisonHeader k) =
      some h0 ∧ (doWrite = true → h0.flatten = if rank = 0 then h.flatten else []) := by
    by_cases hc : doWrite = true ∧ rank = 0
    · exact ⟨h, by rw [onlyIf, if_pos (by simpa using hc), hh], fun _ => by rw [if_pos hc.2]⟩
    · refine ⟨[], by rw [onlyIf, if_neg (by simpa using hc)], fun hd => ?_⟩
      rw [if_neg fun hr => hc ⟨hd, hr⟩]
      rfl
  have hstart : PropState.start k doWrite rank = some ⟨.zero, .zero, h0.flatten, h0.flatten⟩ := by
    unfold PropState.start
    rw [e0]
    rfl
  obtain ⟨p, e, hp⟩ := key ss [] ⟨.zero, .zero, h0.flatten, h0.flatten⟩
    (if rank = 0 then h.flatten else [])
    ⟨sums_zero k, sums_zero k, fun hd => ⟨[], by rw [List.append_nil]; exact c0 hd, rows_nil⟩,
      fun hd => ⟨[], by rw [List.append_nil]; exact c0 hd, rows_nil⟩⟩ hs
  refine ⟨p, ?_, by simpa using hp⟩
  unfold PropState.run
  rw [hstart]
  exact e

end N2P2
