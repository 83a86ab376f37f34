import Verif.Spec.DatasetTool
import Verif.Lemma.ComparisonFile
import Verif.Lemma.CurveFile
import Verif.Lemma.Normalization
import Verif.Props.Units
import Verif.Props.StructureFile

namespace N2P2

open Training (Key)

namespace DatasetTool

variable {D : DatasetTool}

theorem Ready.energyUnit_pos (h : D.Ready) : 0 < D.energyUnit := by
  unfold energyUnit
  split_ifs with hn
  · exact (h.units hn).1
  · exact one_pos

theorem Ready.lengthUnit_pos (h : D.Ready) : 0 < D.lengthUnit := by
  unfold lengthUnit
  split_ifs with hn
  · exact (h.units hn).2.1
  · exact one_pos

/-- Sum of the energies of free atoms. -/
noncomputable def freeSum (D : DatasetTool) (s : Structure) : ℝ := (s.atoms.map fun a => D.offs.getD a.element 0).sum

theorem baseEnergy_eq (D : DatasetTool) (s : Structure) :
    D.baseEnergy s = s.atoms.length * (if D.normalize then D.units.meanEnergy else 0) + D.freeSum s := by
  unfold baseEnergy freeSum
  induction s.atoms with
  | nil => simp
  | cons a l ih =>
    simp only [List.map_cons, List.sum_cons, ih, List.length_cons]
    push_cast
    ring

theorem offset_zip (h : D.Ready) {r : Structure} (hr : D.Input r) :
    ¬ r.numAtomsPerElement.length < D.offs.length ∧
    ((List.zip r.numAtomsPerElement D.offs).map fun q => (q.1 : ℝ) * q.2).sum = D.freeSum r := by
  have h1 : ¬ r.numAtomsPerElement.length < D.offs.length := by
    rw [hr.counts, h.offsets]
    simp
  refine ⟨h1, ?_⟩
  obtain ⟨h2, -⟩ := C37_offset_is_sum_over_atoms D.offs r (by rw [h.offsets]; exact hr.element)
    (by rw [h.offsets]; exact hr.counts)
  unfold getEnergyOffset at h2
  rw [if_neg h1, foldl_offset_add, zero_add] at h2
  exact Option.some.inj h2

theorem Atom.normalized_eq (a : Atom) (h : a.hasSymmetryFunctionDerivatives = false) (cE cL cQ : ℝ) :
    ∃ b, a.toNormalizedUnits cE cL cQ = some b ∧ b.element = a.element ∧ b.index = a.index ∧
      b.indexStructure = a.indexStructure ∧ b.r = cL • a.r ∧ b.fRef = (cE / cL) • a.fRef := by
  unfold N2P2.Atom.toNormalizedUnits
  rw [if_pos (by simp [Atom.derivativesAllocated, h])]
  exact ⟨_, rfl, rfl, rfl, rfl, rfl, rfl⟩

theorem load_ok (h : D.Ready) {r : Structure} (hr : D.Input r) : ∃ s, D.load r = some s ∧ D.Normalized r s := by
  obtain ⟨h1, h2⟩ := offset_zip h hr
  have e1 : removeEnergyOffset D.offs r true = some { r with energyRef := r.energyRef - D.freeSum r } := by
    unfold removeEnergyOffset
    rw [if_neg h1, if_pos rfl, foldl_offset_sub, h2]
  unfold load
  rw [e1, Option.bind_eq_bind, Option.bind_some]
  unfold toNormalized
  by_cases hn : D.normalize = true
  · rw [if_pos hn]
    have : Inhabited Atom := ⟨Atom.init⟩
    have hat : ∀ a ∈ r.atoms, ∃ b, a.toNormalizedUnits D.units.convEnergy D.units.convLength D.units.convCharge =
        some b ∧ b.element = a.element ∧ b.index = a.index ∧ b.indexStructure = a.indexStructure ∧
        b.r = D.units.convLength • a.r ∧ b.fRef = (D.units.convEnergy / D.units.convLength) • a.fRef :=
      fun a ha => Atom.normalized_eq a (hr.fresh a ha) _ _ _
    choose! g g1 g2 using hat
    have e2 := mapM_pure_some (f := fun a : Atom => a.toNormalizedUnits D.units.convEnergy D.units.convLength
      D.units.convCharge) r.atoms g1
    unfold Structure.toNormalizedUnits
    rw [e2]
    refine ⟨_, rfl, ⟨rfl, rfl, rfl, rfl, rfl, ?_, ?_, ?_⟩⟩
    · intro hp k
      show (if r.isPeriodic = true then fun i => D.units.convLength • r.box i else r.box) k = _
      rw [if_pos hp]
      unfold lengthUnit
      rw [if_pos hn]
    · show (r.energyRef - D.freeSum r - r.numAtoms * D.units.meanEnergy) * D.units.convEnergy = _
      rw [baseEnergy_eq, if_pos hn, hr.numAtoms]
      unfold energyUnit
      rw [if_pos hn]
      ring
    · unfold lengthUnit energyUnit
      rw [if_pos hn, if_pos hn, List.forall₂_map_right_iff, List.forall₂_same]
      exact g2
  · rw [if_neg hn]
    refine ⟨_, rfl, ⟨rfl, rfl, rfl, rfl, rfl, ?_, ?_, ?_⟩⟩
    · intro hp k
      unfold lengthUnit
      rw [if_neg hn, one_smul]
    · show r.energyRef - D.freeSum r = _
      rw [baseEnergy_eq, if_neg hn]
      unfold energyUnit
      rw [if_neg hn]
      ring
    · unfold lengthUnit energyUnit
      rw [if_neg hn, if_neg hn, List.forall₂_same]
      intro a _
      exact ⟨rfl, rfl, rfl, by rw [one_smul], by rw [div_one, one_smul]⟩

/-- Evaluation and the structure in the data set. -/
structure Pair (D : DatasetTool) (r v : Structure) : Prop where
  index : v.index = r.index
  comment : v.comment = r.comment
  numAtoms : v.numAtoms = r.atoms.length
  counts : v.numAtomsPerElement = r.numAtomsPerElement
  periodic : v.isPeriodic = r.isPeriodic
  box : r.isPeriodic = true → ∀ k, v.box k = D.lengthUnit • r.box k
  energyRef : v.energyRef = (r.energyRef - D.baseEnergy r) * D.energyUnit
  atoms : List.Forall₂ (fun a b : Atom => b.element = a.element ∧ b.index = a.index ∧
    b.indexStructure = a.indexStructure ∧ b.r = D.lengthUnit • a.r ∧
    b.fRef = (D.energyUnit / D.lengthUnit) • a.fRef) r.atoms v.atoms

theorem forall₂_trans {α : Type} {R S T : α → α → Prop} (h : ∀ a b c, R a b → S b c → T a c) :
    ∀ {l m n : List α}, List.Forall₂ R l m → List.Forall₂ S m n → List.Forall₂ T l n
  | _, _, _, .nil, .nil => .nil
  | _, _, _, .cons h1 t1, .cons h2 t2 => .cons (h _ _ _ h1 h2) (forall₂_trans h t1 t2)

theorem pair_of {r s v : Structure} (hr : D.Input r) (h1 : D.Normalized r s) (h2 : s.KeptBy v) : D.Pair r v := by
  refine ⟨h2.index.trans h1.index, h2.comment.trans h1.comment, (h2.numAtoms.trans h1.numAtoms).trans hr.numAtoms,
    h2.counts.trans h1.counts, h2.periodic.trans h1.periodic, fun hp k => ?_, h2.energyRef.trans h1.energyRef, ?_⟩
  · rw [h2.box]
    exact h1.box (h1.periodic.trans hp) k
  · refine forall₂_trans ?_ h1.atoms h2.atoms
    rintro a b c ⟨x1, x2, x3, x4, x5⟩ ⟨y1, y2, y3, y4, y5⟩
    exact ⟨y1.trans x1, y2.trans x2, y3.trans x3, y4.trans x4, y5.trans x5⟩

theorem predicted_length {r v : Structure} (h : D.Pair r v) : (D.predicted r v).atoms.length = r.atoms.length := by
  have := h.atoms.length_eq
  simp [predicted, this]

/-! ### Energies -/

theorem energyValues_eq (h : D.Ready) {r v : Structure} (hr : D.Input r) (hv : D.Pair r v) :
    D.energyValues v.cleared = some ([(D.predicted r v).energyRef, (D.predicted r v).energy] ++
      if D.normalize then [v.energyRef, v.energy] else []) := by
  obtain ⟨h1, h2⟩ := offset_zip h hr
  have hc : v.cleared.numAtomsPerElement = r.numAtomsPerElement := hv.counts
  have hE := h.energyUnit_pos.ne'
  have href := hv.energyRef
  unfold energyValues
  by_cases hn : D.normalize = true
  · have eE : D.energyUnit = D.units.convEnergy := if_pos hn
    simp only [if_pos hn]
    unfold getEnergyOffset
    rw [hc, if_neg h1, foldl_offset_add, zero_add, h2, Option.bind_eq_bind, Option.bind_some]
    congr 1
    show [v.energyRef / D.units.convEnergy + v.numAtoms * D.units.meanEnergy + D.freeSum r,
      v.energy / D.units.convEnergy + v.numAtoms * D.units.meanEnergy + D.freeSum r, v.energyRef, v.energy] =
      [r.energyRef, v.energy / D.energyUnit + D.baseEnergy r, v.energyRef, v.energy]
    have e1 : v.energyRef / D.units.convEnergy + v.numAtoms * D.units.meanEnergy + D.freeSum r = r.energyRef := by
      rw [href, ← eE, mul_div_cancel_right₀ _ hE, hv.numAtoms, baseEnergy_eq, if_pos hn]
      ring
    have e2 : v.energy / D.units.convEnergy + v.numAtoms * D.units.meanEnergy + D.freeSum r =
        v.energy / D.energyUnit + D.baseEnergy r := by
      rw [← eE, hv.numAtoms, baseEnergy_eq, if_pos hn]
      ring
    rw [e1, e2]
  · have eE : D.energyUnit = 1 := if_neg hn
    simp only [if_neg hn]
    unfold getEnergyWithOffset
    rw [hc, if_neg h1, if_neg h1, foldl_offset_add, foldl_offset_add, h2]
    simp only [Option.bind_eq_bind, Option.bind_some, if_true, Bool.false_eq_true, if_false]
    congr 1
    show [v.energyRef + D.freeSum r, v.energy + D.freeSum r] = [r.energyRef, v.energy / D.energyUnit + D.baseEnergy r]
    rw [href, eE, baseEnergy_eq, if_neg hn]
    congr 1
    · ring
    · congr 1
      ring

theorem head_some {i j : ℕ} (hi : i < 2 ^ 64) (hj : j < 2 ^ 64) :
    numbersHead i j = some (padLeft 10 (natText i) ++ ' ' :: padLeft 10 (natText j)) := by
  have h1 := natText_size hi
  have h2 := natText_size hj
  unfold numbersHead strpr
  rw [if_pos]
  simp only [padLeft, List.length_append, List.length_replicate, List.length_cons]
  omega

theorem fields_length {N : NumberText} (hN : N.Data) (xs : List ℝ) :
    ((realFields N xs).flatMap (' ' :: ·)).length ≤ 25 * xs.length := by
  induction xs with
  | nil => simp [realFields]
  | cons x xs ih =>
    obtain ⟨-, -, l1⟩ := hN.1 x
    have : (realFields N (x :: xs)).flatMap (' ' :: ·) =
        (' ' :: padLeft 16 (N.print x)) ++ (realFields N xs).flatMap (' ' :: ·) := rfl
    rw [this]
    simp only [padLeft, List.length_append, List.length_replicate, List.length_cons]
    omega

theorem row_ok {N : NumberText} (hN : N.Data) (i j : ℕ) (xs : List ℝ) :
    Rows ((padLeft 10 (natText i) ++ ' ' :: padLeft 10 (natText j)) ++ fieldLine [] (realFields N xs))
      [natText i :: natText j :: xs.map N.print] := by
  have hr := row_line 10 i ((10, natText j) :: xs.map fun x => (16, N.print x)) (by
    intro f hf
    rcases List.mem_cons.1 hf with rfl | hf
    · exact ⟨natText_word _, natText_newline _⟩
    · obtain ⟨x, -, rfl⟩ := List.mem_map.1 hf
      exact ⟨(hN.1 x).1, (hN.1 x).2.1⟩)
  have e : fieldLine (padLeft 10 (natText i)) (((10, natText j) :: xs.map fun x => (16, N.print x)).map
      fun f => padLeft f.1 f.2) =
      (padLeft 10 (natText i) ++ ' ' :: padLeft 10 (natText j)) ++ fieldLine [] (realFields N xs) := by
    simp [fieldLine, realFields, List.map_map, Function.comp_def]
  rw [e] at hr
  simpa [List.map_map, Function.comp_def] using hr

theorem tail_some {N : NumberText} (hN : N.Data) (xs : List ℝ) (hx : xs.length ≤ 10) :
    strpr (fieldLine [] (realFields N xs)) = some (fieldLine [] (realFields N xs)) := by
  have := fields_length hN xs
  unfold strpr fieldLine
  rw [if_pos]
  simp only [List.length_append, List.length_cons, List.length_nil]
  omega

theorem energyLine_ok (h : D.Ready) {r v : Structure} (hr : D.Input r) (hv : D.Pair r v) :
    ∃ t, D.energyLine v.cleared = some t ∧ Rows t [D.energyWords (D.predicted r v) v] := by
  have hi : v.cleared.index < 2 ^ 64 := hv.index ▸ hr.size.1
  have hj : v.cleared.numAtoms < 2 ^ 64 := by
    show v.numAtoms < _
    rw [hv.numAtoms, ← hr.numAtoms]
    exact hr.size.2.1
  unfold energyLine
  rw [head_some hi hj, energyValues_eq h hr hv]
  simp only [Option.bind_eq_bind, Option.bind_some]
  rw [tail_some h.numbers _ (by split_ifs <;> simp)]
  refine ⟨_, rfl, ?_⟩
  have := row_ok h.numbers v.cleared.index v.cleared.numAtoms
    ([(D.predicted r v).energyRef, (D.predicted r v).energy] ++ if D.normalize then [v.energyRef, v.energy] else [])
  have e : natText v.cleared.index :: natText v.cleared.numAtoms :: List.map D.N.print
      ([(D.predicted r v).energyRef, (D.predicted r v).energy] ++ if D.normalize then [v.energyRef, v.energy] else []) =
      D.energyWords (D.predicted r v) v := by
    unfold energyWords
    rw [predicted_length hv]
    show natText v.index :: natText v.numAtoms :: _ = _
    rw [hv.numAtoms, hv.index]
    split_ifs <;> rfl
  rw [e] at this
  exact this

/-! ### Forces -/

theorem forceLine_ok (h : D.Ready) (a b : Atom) (hi : b.index < 2 ^ 64 ∧ b.indexStructure < 2 ^ 64) (i : Fin 3)
    (h1 : a.fRef i = b.fRef i * D.lengthUnit / D.energyUnit) (h2 : a.f i = b.f i * D.lengthUnit / D.energyUnit)
    (h3 : a.index = b.index) (h4 : a.indexStructure = b.indexStructure) :
    ∃ t, D.forceLine b i = some t ∧ Rows t [[natText a.indexStructure, natText a.index, D.N.print (a.fRef i),
      D.N.print (a.f i)] ++ if D.normalize then [D.N.print (b.fRef i), D.N.print (b.f i)] else []] := by
  unfold forceLine forceMiddle
  rw [head_some hi.2 hi.1, h3, h4, tail_some h.numbers _ (by simp)]
  by_cases hn : D.normalize = true
  · have eE : D.energyUnit = D.units.convEnergy := if_pos hn
    have eL : D.lengthUnit = D.units.convLength := if_pos hn
    have p1 : D.units.physical "force" (b.fRef i) = some (a.fRef i) := by
      rw [h1, eE, eL]
      rfl
    have p2 : D.units.physical "force" (b.f i) = some (a.f i) := by
      rw [h2, eE, eL]
      rfl
    simp only [if_pos hn, p1, p2, Option.bind_eq_bind, Option.bind_some]
    have hl := fields_length h.numbers [a.fRef i, a.f i]
    have e1 : strpr ((realFields D.N [a.fRef i, a.f i]).flatMap (' ' :: ·)) =
        some ((realFields D.N [a.fRef i, a.f i]).flatMap (' ' :: ·)) := by
      unfold strpr
      rw [if_pos]
      simp only [List.length_cons, List.length_nil] at hl
      omega
    rw [e1]
    simp only [Option.bind_some]
    refine ⟨_, rfl, ?_⟩
    have := row_ok h.numbers b.indexStructure b.index [a.fRef i, a.f i, b.fRef i, b.f i]
    have e2 : (padLeft 10 (natText b.indexStructure) ++ ' ' :: padLeft 10 (natText b.index)) ++
        fieldLine [] (realFields D.N [a.fRef i, a.f i, b.fRef i, b.f i]) =
        (padLeft 10 (natText b.indexStructure) ++ ' ' :: padLeft 10 (natText b.index)) ++
          (realFields D.N [a.fRef i, a.f i]).flatMap (' ' :: ·) ++ fieldLine [] (realFields D.N [b.fRef i, b.f i]) := by
      simp [fieldLine, realFields]
    rw [e2] at this
    exact this
  · have eE : D.energyUnit = 1 := if_neg hn
    have eL : D.lengthUnit = 1 := if_neg hn
    rw [eE, eL, mul_one, div_one] at h1 h2
    simp only [if_neg hn, Option.bind_eq_bind, Option.bind_some]
    refine ⟨_, rfl, ?_⟩
    have := row_ok h.numbers b.indexStructure b.index [b.fRef i, b.f i]
    rw [h1, h2]
    simpa using this

theorem vec_back {c : ℝ} (hc : c ≠ 0) (v : Vec3) : Vec3.div (c • v) c = v := by
  unfold Vec3.div
  rw [smul_smul, one_div, inv_mul_cancel₀ hc, one_smul]

theorem force_back (h : D.Ready) {f g : Vec3} (hg : g = (D.energyUnit / D.lengthUnit) • f) (i : Fin 3) :
    f i = g i * D.lengthUnit / D.energyUnit := by
  have h1 := h.energyUnit_pos.ne'
  have h2 := h.lengthUnit_pos.ne'
  rw [hg]
  simp only [Pi.smul_apply, smul_eq_mul]
  field_simp

theorem forceText_ok (h : D.Ready) {r v : Structure} (hr : D.Input r) (hv : D.Pair r v) :
    ∃ t, D.forceText v.cleared = some t ∧ Rows t (D.allForceWords (D.predicted r v) v) := by
  have key : ∀ (l l' : List Atom), (∀ a ∈ l, a.index < 2 ^ 64 ∧ a.indexStructure < 2 ^ 64) →
      List.Forall₂ (fun a b : Atom => b.element = a.element ∧ b.index = a.index ∧
        b.indexStructure = a.indexStructure ∧ b.r = D.lengthUnit • a.r ∧
        b.fRef = (D.energyUnit / D.lengthUnit) • a.fRef) l l' →
      ∃ ls, (l'.map Atom.cleared).mapM (fun a => [0, 1, 2].mapM (D.forceLine a)) = some ls ∧
        Rows ls.flatten.flatten (List.zipWith D.forceWords (List.zipWith (fun a b : Atom => { a with
          f := fun i => b.f i * D.lengthUnit / D.energyUnit
          charge := b.charge / D.chargeUnit }) l l') l').flatten := by
    intro l
    induction l with
    | nil =>
      intro l' _ hf
      cases hf
      exact ⟨[], rfl, rows_nil⟩
    | cons a l ih =>
      intro l' hs hf
      obtain _ | ⟨⟨x1, x2, x3, x4, x5⟩, hf⟩ := hf
      rename_i b l'
      obtain ⟨ls, e, hrow⟩ := ih l' (fun c hc => hs c (by simp [hc])) hf
      have hline : ∀ i : Fin 3, ∃ t, D.forceLine b.cleared i = some t ∧
          Rows t [[natText a.indexStructure, natText a.index, D.N.print (a.fRef i),
            D.N.print (b.f i * D.lengthUnit / D.energyUnit)] ++
            if D.normalize then [D.N.print (b.fRef i), D.N.print (b.f i)] else []] := by
        intro i
        exact forceLine_ok h { a with
          f := fun i => b.f i * D.lengthUnit / D.energyUnit
          charge := b.charge / D.chargeUnit } b.cleared (by
            show b.index < _ ∧ b.indexStructure < _
            rw [x2, x3]
            exact hs a (by simp)) i (force_back h x5 i) rfl x2.symm x3.symm
      choose t t1 t2 using hline
      refine ⟨[t 0, t 1, t 2] :: ls, ?_, ?_⟩
      · rw [List.map_cons, List.mapM_cons]
        have e3 : [0, 1, 2].mapM (D.forceLine b.cleared) = some [t 0, t 1, t 2] := by
          simp [List.mapM_cons, t1]
        rw [e3, e]
        rfl
      · show Rows ([t 0, t 1, t 2] ++ ls.flatten).flatten _
        rw [List.flatten_append, List.zipWith_cons_cons, List.zipWith_cons_cons, List.flatten_cons]
        refine rows_append ?_ hrow
        have := rows_append (t2 0) (rows_append (t2 1) (t2 2))
        simpa [forceWords] using this
  obtain ⟨ls, e, hrow⟩ := key r.atoms v.atoms hr.size.2.2 hv.atoms
  unfold forceText
  rw [show v.cleared.atoms = v.atoms.map Atom.cleared from rfl, e]
  exact ⟨_, rfl, hrow⟩

/-! ### Predicted data set -/

theorem mapM_congr₂ {α β γ : Type} {f : α → Option γ} {g : β → Option γ} {l : List α} {l' : List β}
    (h : List.Forall₂ (fun a b => f a = g b) l l') : l.mapM f = l'.mapM g := by
  induction h with
  | nil => rfl
  | cons h1 _ ih => rw [List.mapM_cons, List.mapM_cons, h1, ih]

theorem writeToFile_congr (N : NumberText) (m : EMap) {s t : Structure} (h1 : s.comment = t.comment)
    (h2 : s.isPeriodic = t.isPeriodic) (h3 : t.isPeriodic = true → ∀ k, s.box k = t.box k) (h4 : s.energy = t.energy)
    (h5 : s.charge = t.charge) (h6 : List.Forall₂ (fun a b : Atom => a.element = b.element ∧ a.r = b.r ∧ a.f = b.f ∧
      a.charge = b.charge) s.atoms t.atoms) : s.writeToFile N m false = t.writeToFile N m false := by
  have hb : writeBox N s = writeBox N t := by
    unfold writeBox
    rw [h2]
    by_cases hp : t.isPeriodic = true
    · rw [if_pos hp, if_pos hp, h3 hp, h3 hp, h3 hp]
    · rw [if_neg hp, if_neg hp]
  have ha : s.atoms.mapM (writeAtom N m false) = t.atoms.mapM (writeAtom N m false) := by
    refine mapM_congr₂ (h6.imp ?_)
    rintro a b ⟨x1, x2, x3, x4⟩
    unfold writeAtom
    rw [x1, x2, x3, x4]
    simp only [Bool.false_eq_true, if_false]
  unfold Structure.writeToFile
  rw [hb, ha, h1, h4, h5]
  simp only [Bool.false_eq_true, if_false]

theorem forall₂_zipWith {α β γ : Type} {R : α → β → Prop} {S : β → γ → Prop} {f : α → β → γ}
    (hf : ∀ a b, R a b → S b (f a b)) : ∀ {l : List α} {l' : List β}, List.Forall₂ R l l' →
      List.Forall₂ S l' (List.zipWith f l l')
  | _, _, .nil => .nil
  | _, _, .cons h t => .cons (hf _ _ h) (forall₂_zipWith hf t)

theorem outputText_eq (h : D.Ready) {r v : Structure} (hr : D.Input r) (hv : D.Pair r v) :
    D.outputText v.cleared = (D.predicted r v).writeToFile D.N D.m false := by
  obtain ⟨h1, h2⟩ := offset_zip h hr
  have hE := h.energyUnit_pos.ne'
  have hL := h.lengthUnit_pos.ne'
  have hc : v.cleared.numAtomsPerElement = r.numAtomsPerElement := hv.counts
  unfold outputText toPhysical
  by_cases hn : D.normalize = true
  · have eE : D.units.convEnergy = D.energyUnit := (if_pos hn).symm
    have eL : D.units.convLength = D.lengthUnit := (if_pos hn).symm
    have eQ : D.units.convCharge = D.chargeUnit := (if_pos hn).symm
    rw [if_pos hn]
    have hat : ∀ a ∈ v.cleared.atoms, a.toPhysicalUnits D.units.convEnergy D.units.convLength D.units.convCharge =
        some ((a.toPhysicalUnits D.units.convEnergy D.units.convLength D.units.convCharge).getD a) := by
      intro a ha
      obtain ⟨b, -, rfl⟩ := List.mem_map.1 ha
      unfold Atom.toPhysicalUnits
      rw [if_pos (by simp [Atom.derivativesAllocated, Atom.cleared])]
      rfl
    unfold Structure.toPhysicalUnits
    rw [mapM_pure_some _ hat]
    simp only [Option.map_some, Option.bind_eq_bind, Option.bind_some]
    unfold addEnergyOffset
    rw [if_neg (by
      show ¬ v.cleared.numAtomsPerElement.length < _
      rw [hc]
      exact h1)]
    simp only [Bool.false_eq_true, if_false, Option.bind_some]
    refine writeToFile_congr _ _ hv.comment hv.periodic ?_ ?_ ?_ ?_
    · intro hp k
      have hp' : v.isPeriodic = true := hv.periodic.trans hp
      show (if v.isPeriodic = true then fun i => (v.box i).div D.units.convLength else v.box) k = r.box k
      rw [if_pos hp', eL]
      rw [hv.box hp k, vec_back hL]
    · show ((List.zip v.cleared.numAtomsPerElement D.offs).foldl (fun e p => e + (p.1 : ℝ) * p.2)
        (v.energy / D.units.convEnergy + v.numAtoms * D.units.meanEnergy)) = v.energy / D.energyUnit + D.baseEnergy r
      rw [hc, foldl_offset_add, h2, eE, hv.numAtoms, baseEnergy_eq, if_pos hn]
      ring
    · show v.charge / D.units.convCharge = _
      rw [eQ]
      rfl
    · show List.Forall₂ _ ((v.atoms.map Atom.cleared).map _) (List.zipWith _ r.atoms v.atoms)
      rw [List.map_map, List.forall₂_map_left_iff]
      refine forall₂_zipWith ?_ hv.atoms
      rintro a b ⟨x1, -, -, x4, -⟩
      have e : (b.cleared.toPhysicalUnits D.units.convEnergy D.units.convLength D.units.convCharge).getD b.cleared =
          { b.cleared with
            energy := b.energy / D.units.convEnergy
            r := b.r.div D.units.convLength
            f := b.f.div (D.units.convEnergy / D.units.convLength)
            fRef := b.fRef.div (D.units.convEnergy / D.units.convLength)
            charge := b.charge / D.units.convCharge
            chargeRef := b.chargeRef / D.units.convCharge } := by
        unfold Atom.toPhysicalUnits
        rw [if_pos (by simp [Atom.derivativesAllocated, Atom.cleared])]
        rfl
      show _ ∧ _
      simp only [Function.comp, e]
      refine ⟨x1, ?_, ?_, ?_⟩
      · rw [x4, eL, vec_back hL]
      · rw [eE, eL]
        funext i
        show (1 / (D.energyUnit / D.lengthUnit)) * b.f i = b.f i * D.lengthUnit / D.energyUnit
        field_simp
      · rw [eQ]
  · have eE : D.energyUnit = 1 := if_neg hn
    have eL : D.lengthUnit = 1 := if_neg hn
    have eQ : D.chargeUnit = 1 := if_neg hn
    rw [if_neg hn]
    simp only [Option.bind_eq_bind, Option.bind_some]
    unfold addEnergyOffset
    rw [if_neg (by
      rw [hc]
      exact h1)]
    simp only [Bool.false_eq_true, if_false, Option.bind_some]
    refine writeToFile_congr _ _ hv.comment hv.periodic ?_ ?_ ?_ ?_
    · intro hp k
      show v.box k = r.box k
      rw [hv.box hp k, eL, one_smul]
    · show ((List.zip v.cleared.numAtomsPerElement D.offs).foldl (fun e p => e + (p.1 : ℝ) * p.2) v.energy) =
        v.energy / D.energyUnit + D.baseEnergy r
      rw [hc, foldl_offset_add, h2, eE, baseEnergy_eq, if_neg hn]
      ring
    · show v.charge = v.charge / D.chargeUnit
      rw [eQ, div_one]
    · show List.Forall₂ _ (v.atoms.map Atom.cleared) (List.zipWith _ r.atoms v.atoms)
      rw [List.forall₂_map_left_iff]
      refine forall₂_zipWith ?_ hv.atoms
      rintro a b ⟨x1, -, -, x4, -⟩
      refine ⟨x1, ?_, ?_, ?_⟩
      · show b.r = a.r
        rw [x4, eL, one_smul]
      · funext i
        show b.f i = b.f i * D.lengthUnit / D.energyUnit
        rw [eE, eL, mul_one, div_one]
      · show b.charge = b.charge / D.chargeUnit
        rw [eQ, div_one]

end DatasetTool

end N2P2
