import Verif.Spec.Compare
import Verif.Lemma.ShapeFile
import Verif.Lemma.Convert
import Verif.Lemma.LammpsTypes
import Verif.Props.StructureFile
import Verif.Lemma.ScalingFile
import Verif.Props.Convert

/-! Lemmas for nnp-comp2. -/

namespace N2P2

theorem natText_no_space (n : ℕ) : ' ' ∉ natText n := fun h => absurd (natText_digit h) (by decide)

theorem natText_row (n : ℕ) : IsWord (natText n) ∧ '\n' ∉ natText n :=
  ⟨natText_word _, fun h => absurd (natText_digit h) (by decide)⟩

theorem counted_warnings {s : Structure} {n : ℕ} (hn : n < 2 ^ 64) (h : WarningsNoted s n) :
    commentWarnings s.comment = some n := by
  obtain ⟨w, rest, e, hw, hr⟩ := h
  unfold commentWarnings
  have h2 : ∃ t, split (natText n ++ rest) = natText n :: t := by
    rcases hr with rfl | ⟨t, rfl⟩
    · rw [List.append_nil]
      exact ⟨[], split_one (natText_no_space n) (natText_word n).1⟩
    · exact ⟨_, split_cons (natText_no_space n)⟩
  obtain ⟨t, h2⟩ := h2
  rw [e, List.append_assoc, List.cons_append, split_cons hw, h2]
  show some (textSize (natText n)) = some n
  rw [textSize_natText hn]

/-! ### Comparison -/

theorem compareAtoms_eq : ∀ (as bs : List Atom) (mean mx : ℝ), as.length = bs.length →
    compareAtoms as (bs.flatMap fun a => [a.f 0, a.f 1, a.f 2]) mean mx =
      some (List.zipWith (fun a b : Atom => { a with fRef := fun i => a.f i - b.f i }) as bs,
        mean + (((List.zipWith (fun a b : Atom => { a with fRef := fun i => a.f i - b.f i }) as bs).flatMap
          fun a => [a.fRef 0, a.fRef 1, a.fRef 2]).map fun v => |v|).sum,
        (((List.zipWith (fun a b : Atom => { a with fRef := fun i => a.f i - b.f i }) as bs).flatMap
          fun a => [a.fRef 0, a.fRef 1, a.fRef 2]).map fun v => |v|).foldl max mx)
  | [], [], mean, mx, _ => by simp [compareAtoms]
  | a :: as, b :: bs, mean, mx, h => by
    have hd : (![a.f 0 - b.f 0, a.f 1 - b.f 1, a.f 2 - b.f 2] : Vec3) = fun i => a.f i - b.f i := by
      funext i
      fin_cases i <;> rfl
    rw [List.flatMap_cons]
    simp only [List.cons_append, List.nil_append, compareAtoms]
    rw [hd, compareAtoms_eq as bs _ _ (by simpa using h)]
    simp only [Option.map_some, List.zipWith_cons_cons, List.flatMap_cons, List.cons_append, List.nil_append,
      List.map_cons, List.sum_cons, List.foldl_cons, Option.some.injEq, Prod.mk.injEq, true_and, and_true]
    ring
  | [], _ :: _, _, _, h => by simp at h
  | _ :: _, [], _, _, h => by simp at h

theorem refComponents_length (s : Structure) : s.refComponents.length = 3 * s.atoms.length := by
  unfold Structure.refComponents
  rw [List.length_flatMap]
  simp [mul_comm]

theorem diffLine_rows {N : NumberText} (hN : N.Sane) (s : Structure) (ew : ℕ) (e mean mx : ℝ) :
    Rows (diffLine N s ew e mean mx) [[natText s.index, natText s.numAtoms, natText s.numElementsPresent, natText ew,
      N.print s.energy, N.print e, N.print mean, N.print mx]] := by
  refine row_line 7 s.index [(10, natText s.numAtoms), (10, natText s.numElementsPresent), (10, natText ew),
    (16, N.print s.energy), (16, N.print e), (16, N.print mean), (16, N.print mx)] ?_
  intro f hf
  simp only [List.mem_cons, List.not_mem_nil, or_false] at hf
  rcases hf with rfl | rfl | rfl | rfl | rfl | rfl | rfl
  all_goals first | exact natText_row _ | exact ⟨(hN _).1, (hN _).2.1⟩

/-! ### Selection -/

theorem checkComponents (t : ℝ) (vs : List ℝ) : ∀ c : ForceCheck, vs.foldl (checkComponent t) c =
    ⟨c.flag || decide (∃ f ∈ vs, t < |f|), c.count + vs.countP (fun f => t < |f|),
      c.mean + (vs.map fun v => |v|).sum, (vs.map fun v => |v|).foldl max c.max⟩ := by
  induction vs with
  | nil => intro c; simp
  | cons f vs ih =>
    intro c
    rw [List.foldl_cons, ih]
    unfold checkComponent
    by_cases h : t < |f|
    · simp only [h, if_true, List.mem_cons, exists_eq_or_imp, true_or, decide_true, Bool.or_true, Bool.true_or,
        List.countP_cons, List.map_cons, List.sum_cons, List.foldl_cons, ForceCheck.mk.injEq, true_and, and_true]
      constructor
      · ring
      · ring
    · simp only [h, if_false, List.mem_cons, exists_eq_or_imp, false_or, List.countP_cons, List.map_cons, List.sum_cons,
        List.foldl_cons, ForceCheck.mk.injEq, true_and, and_true, decide_false]
      constructor
      · simp
      · ring

open Classical in
theorem selectForces_eq (T : CompareLimits) (s : Structure) (h : s.numAtoms = s.atoms.length) :
    selectForces T.force s = ⟨decide (ForcesDiffer T s),
      if 0 < T.force then s.refComponents.countP fun f => T.force < |f| else 0,
      if 0 < T.force then meanAbs s.refComponents else 0,
      if 0 < T.force then largestAbs s.refComponents else 0⟩ := by
  unfold selectForces
  by_cases ht : 0 < T.force
  · rw [if_pos ht, if_pos ht, if_pos ht, if_pos ht]
    have e : s.atoms.foldl (fun c a => checkComponent T.force (checkComponent T.force (checkComponent T.force c
        (a.fRef 0)) (a.fRef 1)) (a.fRef 2)) ⟨false, 0, 0, 0⟩ =
        s.refComponents.foldl (checkComponent T.force) ⟨false, 0, 0, 0⟩ := by
      unfold Structure.refComponents
      rw [List.foldl_flatMap]
      rfl
    dsimp only
    rw [e, checkComponents]
    unfold meanAbs largestAbs ForcesDiffer
    rw [refComponents_length, h]
    simp [ht]
  · rw [if_neg ht, if_neg ht, if_neg ht, if_neg ht]
    simp [ForcesDiffer, ht]

theorem flagText_eq (p : Prop) [Decidable p] : flagText (decide p) = yesNo p := by
  unfold flagText yesNo
  by_cases h : p <;> simp [h] <;> decide

open Classical in
/-- What is written for a structure. -/
noncomputable def selectText (N : NumberText) (m : EMap) (T : CompareLimits) (p : Structure × ℕ) : Str :=
  if Disagrees T p then (p.1.writeToFile N m true).getD [] else []

noncomputable def selectLine (N : NumberText) (T : CompareLimits) (p : Structure × ℕ) (k : ℕ) : Str :=
  fieldLine (padLeft 7 (natText k))
    [padLeft 5 ((selectRow N T p k).getD 1 []), padLeft 5 ((selectRow N T p k).getD 2 []),
      padLeft 5 ((selectRow N T p k).getD 3 []), padLeft 5 ((selectRow N T p k).getD 4 []),
      padLeft 10 ((selectRow N T p k).getD 5 []), padLeft 10 ((selectRow N T p k).getD 6 []),
      padLeft 16 ((selectRow N T p k).getD 7 []), padLeft 10 ((selectRow N T p k).getD 8 []),
      padLeft 16 ((selectRow N T p k).getD 9 []), padLeft 16 ((selectRow N T p k).getD 10 [])]

theorem yesNo_row (p : Prop) : IsWord (yesNo p) ∧ '\n' ∉ yesNo p := by
  unfold yesNo
  split
  · exact ⟨⟨by decide, by decide⟩, by decide⟩
  · exact ⟨⟨by decide, by decide⟩, by decide⟩

theorem selectLine_rows {N : NumberText} (hN : N.Sane) (T : CompareLimits) (p : Structure × ℕ) (k : ℕ) :
    Rows (selectLine N T p k) [selectRow N T p k] := by
  have hp : ∀ x, IsWord (N.print x) ∧ '\n' ∉ N.print x := fun x => ⟨(hN x).1, (hN x).2.1⟩
  refine row_line 7 k [(5, (selectRow N T p k).getD 1 []), (5, (selectRow N T p k).getD 2 []),
    (5, (selectRow N T p k).getD 3 []), (5, (selectRow N T p k).getD 4 []), (10, (selectRow N T p k).getD 5 []),
    (10, (selectRow N T p k).getD 6 []), (16, (selectRow N T p k).getD 7 []), (10, (selectRow N T p k).getD 8 []),
    (16, (selectRow N T p k).getD 9 []), (16, (selectRow N T p k).getD 10 [])] ?_
  intro f hf
  simp only [List.mem_cons, List.not_mem_nil, or_false] at hf
  rcases hf with rfl | rfl | rfl | rfl | rfl | rfl | rfl | rfl | rfl | rfl
  all_goals first | exact yesNo_row _ | exact natText_row _ | exact hp _

theorem energyDiffers_iff (T : CompareLimits) {s : Structure} (h : s.numAtoms = s.atoms.length)
    (h0 : s.atoms ≠ []) : (0 < T.energy ∧ T.energy < |s.energyRef| / s.numAtoms) ↔ EnergyDiffers T s := by
  have hp : (0 : ℝ) < s.atoms.length := by
    exact_mod_cast List.length_pos_iff.2 h0
  unfold EnergyDiffers
  rw [h, lt_div_iff₀ hp]

theorem selectStructure_eq {N : NumberText} {m : EMap} (T : CompareLimits) (k : ℕ) {s : Structure} {n : ℕ}
    (hn : n < 2 ^ 64) (hc : WarningsNoted s n) (h : s.numAtoms = s.atoms.length) (h0 : s.atoms ≠ [])
    (hw : ∃ t, s.writeToFile N m true = some t) :
    selectStructure N m T k s = some (selectLine N T (s, n) k, selectText N m T (s, n)) := by
  classical
  have h1 : s.numAtoms ≠ 0 := by
    rw [h]
    exact fun e => h0 (List.length_eq_zero_iff.1 e)
  obtain ⟨t, hw⟩ := hw
  unfold selectStructure
  rw [if_neg h1, counted_warnings hn hc, selectForces_eq T s h]
  have e1 := energyDiffers_iff T h h0
  have e2 : (decide (0 < T.ew ∧ T.ew ≤ n) || decide (0 < T.energy ∧ T.energy < |s.energyRef| / s.numAtoms) ||
      decide (ForcesDiffer T s)) = decide (Disagrees T (s, n)) := by
    unfold Disagrees ManyWarnings
    rw [← e1]
    simp only [Bool.decide_or, Bool.or_assoc]
  have e3 : decide (0 < T.energy ∧ T.energy < |s.energyRef| / s.numAtoms) = decide (EnergyDiffers T s) :=
    decide_eq_decide.2 e1
  have e4 : flagText (decide (0 < T.ew ∧ T.ew ≤ n)) = yesNo (ManyWarnings T n) := flagText_eq _
  dsimp only [Option.bind_eq_bind, Option.bind_some]
  rw [e2, e4, e3, flagText_eq, flagText_eq, flagText_eq, h]
  unfold selectText
  rw [hw]
  by_cases hs : Disagrees T (s, n)
  · rw [if_pos hs, if_pos (decide_eq_true hs)]
    rfl
  · rw [if_neg hs, if_neg (by simp [hs])]
    rfl

theorem selectStructure_past (N : NumberText) (m : EMap) (T : CompareLimits) (k : ℕ) (u x : Structure) :
    selectStructure N m T k (u.withPast x) = selectStructure N m T k u := by
  have h1 : (u.withPast x).numAtoms = u.numAtoms := rfl
  have h2 : (u.withPast x).comment = u.comment := rfl
  have h3 : (u.withPast x).energyRef = u.energyRef := rfl
  have h4 : selectForces T.force (u.withPast x) = selectForces T.force u := rfl
  have h5 : (u.withPast x).writeToFile N m true = u.writeToFile N m true := rfl
  unfold selectStructure
  rw [h1, h2, h3, h4, h5]

theorem selectHeader_ok : ∃ h, selectHeader = some h ∧ ∀ l ∈ h, IsCommentLine '#' l := by
  obtain ⟨h, hh⟩ : ∃ h, selectHeader = some h := ⟨_, rfl⟩
  exact ⟨h, hh, header_comment (by decide) (by decide) (by decide) (by decide) ⟨7, by decide, by decide⟩ hh⟩

end N2P2
