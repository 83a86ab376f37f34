import Verif.Spec.Training
import Mathlib.Data.List.Count
import Mathlib.Data.List.Range

/-! Lemmas on training set selection. -/

namespace N2P2

namespace Training

theorem modifyBack_concat {α : Type} (f : α → α) (l : List α) (x : α) :
    modifyBack f (l ++ [x]) = l ++ [f x] := by
  simp [modifyBack]

/-- Appending candidates to a property. -/
def Property.append (q : Property) (l : List UpdateCandidate) : Property :=
  { q with updateCandidates := q.updateCandidates ++ l }

theorem pushCandidate_eq (i : ℕ) (q : Property) : q.pushCandidate i = q.append [⟨i, 0, []⟩] := rfl

theorem pushSub_append (a c i n : ℕ) (subs : List SubCandidate) (q : Property)
    (l : List UpdateCandidate) :
    (q.append (l ++ [⟨i, n, subs⟩])).pushSub a c = q.append (l ++ [⟨i, n, subs ++ [⟨a, c⟩]⟩]) := by
  simp only [Property.pushSub, Property.append, ← List.append_assoc, modifyBack_concat]

theorem append_append (q : Property) (l l' : List UpdateCandidate) :
    (q.append l).append l' = q.append (l ++ l') := by
  simp [Property.append]

theorem append_nil (q : Property) : q.append [] = q := by simp [Property.append]

theorem push_push (a c i : ℕ) (q : Property) :
    (q.pushCandidate i).pushSub a c = q.append [⟨i, 0, [⟨a, c⟩]⟩] := by
  have := pushSub_append a c i 0 [] q []
  simpa [pushCandidate_eq] using this

theorem forceCandidates_other {nnp : NNPType} (h : nnp ≠ .HDNNP_4G) (i : ℕ) (atoms : List ℕ)
    (q : Property) : forceCandidates nnp i atoms q = q.append (atoms.flatMap fun a =>
      [⟨i, 0, [⟨a, 0⟩]⟩, ⟨i, 0, [⟨a, 1⟩]⟩, ⟨i, 0, [⟨a, 2⟩]⟩]) := by
  unfold forceCandidates
  induction atoms generalizing q with
  | nil => simp [append_nil]
  | cons a rest ih =>
    rw [List.foldl_cons, ih]
    simp [h, push_push, append_append]

theorem forceCandidates_4G (i : ℕ) (atoms : List ℕ) (q : Property) (subs : List SubCandidate) :
    forceCandidates .HDNNP_4G i atoms (q.append [⟨i, 0, subs⟩])
      = q.append [⟨i, 0, subs ++ atoms.flatMap fun a => [⟨a, 0⟩, ⟨a, 1⟩, ⟨a, 2⟩]⟩] := by
  unfold forceCandidates
  induction atoms generalizing subs with
  | nil => simp
  | cons a rest ih =>
    have hp := fun c subs => pushSub_append a c i 0 subs q []
    simp only [List.nil_append] at hp
    rw [List.foldl_cons]
    simp only [List.foldl_cons, List.foldl_nil, ne_eq, not_true_eq_false, if_false, hp]
    have := ih (((subs ++ [⟨a, 0⟩]) ++ [⟨a, 1⟩]) ++ [⟨a, 2⟩])
    simp only [List.foldl_cons, List.foldl_nil, ne_eq, not_true_eq_false, if_false] at this
    rw [this]
    simp

theorem chargeCandidates_eq (i : ℕ) (atoms : List ℕ) (q : Property) :
    chargeCandidates i atoms q = q.append (atoms.map fun a => ⟨i, 0, [⟨a, 0⟩]⟩) := by
  unfold chargeCandidates
  induction atoms generalizing q with
  | nil => simp [append_nil]
  | cons a rest ih =>
    rw [List.foldl_cons, ih, push_push, append_append]
    simp

/-- What a structure adds to a property. -/
def Property.addStruct (nnp : NNPType) (k : Key) (i : ℕ) (s : Struct) (q : Property) : Property where
  numTrainPatterns := q.numTrainPatterns
    + if s.sampleType = .training then patternsOf nnp k s else 0
  numTestPatterns := q.numTestPatterns + if s.sampleType = .test then patternsOf nnp k s else 0
  updateCandidates := q.updateCandidates ++ candidatesOf nnp k i s

theorem ifExists_same (p : PropertyMap) (k : Key) (f : Property → Property) :
    p.ifExists k f k = (p k).map f := by simp [PropertyMap.ifExists]

theorem ifExists_ne (p : PropertyMap) {k k' : Key} (f : Property → Property) (h : k' ≠ k) :
    p.ifExists k f k' = p k' := by simp [PropertyMap.ifExists, h]

theorem registerStructure_eq (nnp : NNPType) (i : ℕ) (s : Struct) (p : PropertyMap) (k : Key) :
    registerStructure nnp i s p k = (p k).map (Property.addStruct nnp k i s) := by
  unfold registerStructure
  rcases hs : s.sampleType with _ | _ | _ | _
  · simp only
    cases p k with
    | none => rfl
    | some q => simp [Property.addStruct, candidatesOf, hs]
  · simp only
    cases k with
    | energy =>
      rw [ifExists_ne _ _ (by decide), ifExists_ne _ _ (by decide), ifExists_same]
      congr 1
      funext q
      simp [Property.addStruct, candidatesOf, hs, patternsOf, Property.pushCandidate,
        Property.addTrain]
    | force =>
      rw [ifExists_ne _ _ (by decide), ifExists_same, ifExists_ne _ _ (by decide)]
      congr 1
      funext q
      by_cases h : nnp = .HDNNP_4G
      · subst h
        simp only [if_true, pushCandidate_eq, forceCandidates_4G]
        simp [Property.addStruct, candidatesOf, hs, patternsOf, Property.append, Property.addTrain]
      · simp only [if_neg h, forceCandidates_other h]
        simp [Property.addStruct, candidatesOf, hs, patternsOf, Property.append, Property.addTrain, h]
    | charge =>
      rw [ifExists_same, ifExists_ne _ _ (by decide), ifExists_ne _ _ (by decide)]
      congr 1
      funext q
      by_cases h : nnp = .HDNNP_4G
      · subst h
        simp [Property.addStruct, candidatesOf, hs, patternsOf, Property.pushCandidate,
          Property.addTrain]
      · simp only [if_neg h, chargeCandidates_eq]
        simp [Property.addStruct, candidatesOf, hs, patternsOf, Property.append, Property.addTrain, h]
  · simp only
    cases p k with
    | none => rfl
    | some q => simp [Property.addStruct, candidatesOf, hs]
  · simp only
    cases k with
    | energy =>
      have : (if nnp = .HDNNP_4G then
            ((p.ifExists .energy (·.addTest 1)).ifExists .force
              (·.addTest (3 * s.numAtoms))).ifExists .charge (·.addTest 1)
          else ((p.ifExists .energy (·.addTest 1)).ifExists .force
              (·.addTest (3 * s.numAtoms))).ifExists .charge (·.addTest s.numAtoms)) .energy
          = (p .energy).map (·.addTest 1) := by
        split_ifs <;>
        rw [ifExists_ne _ _ (by decide), ifExists_ne _ _ (by decide), ifExists_same]
      rw [this]
      congr 1
      funext q
      simp [Property.addStruct, candidatesOf, hs, patternsOf, Property.addTest]
    | force =>
      have : (if nnp = .HDNNP_4G then
            ((p.ifExists .energy (·.addTest 1)).ifExists .force
              (·.addTest (3 * s.numAtoms))).ifExists .charge (·.addTest 1)
          else ((p.ifExists .energy (·.addTest 1)).ifExists .force
              (·.addTest (3 * s.numAtoms))).ifExists .charge (·.addTest s.numAtoms)) .force
          = (p .force).map (·.addTest (3 * s.numAtoms)) := by
        split_ifs <;>
        rw [ifExists_ne _ _ (by decide), ifExists_same, ifExists_ne _ _ (by decide)]
      rw [this]
      congr 1
      funext q
      simp [Property.addStruct, candidatesOf, hs, patternsOf, Property.addTest]
    | charge =>
      have : (if nnp = .HDNNP_4G then
            ((p.ifExists .energy (·.addTest 1)).ifExists .force
              (·.addTest (3 * s.numAtoms))).ifExists .charge (·.addTest 1)
          else ((p.ifExists .energy (·.addTest 1)).ifExists .force
              (·.addTest (3 * s.numAtoms))).ifExists .charge (·.addTest s.numAtoms)) .charge
          = (p .charge).map (·.addTest (if nnp = .HDNNP_4G then 1 else s.numAtoms)) := by
        split_ifs <;>
        rw [ifExists_same, ifExists_ne _ _ (by decide), ifExists_ne _ _ (by decide)]
      rw [this]
      congr 1
      funext q
      simp [Property.addStruct, candidatesOf, hs, patternsOf, Property.addTest]

/-- The loop in terms of the structures it leaves. -/
theorem selectLoop_props (nnp : NNPType) (f : ℝ) (rnd : ℕ → ℝ) (k : Key) (l : List Struct) :
    ∀ (i n : ℕ) (p : PropertyMap) (q : Property), p k = some q →
      ∃ q', (selectLoop nnp f rnd i n l p).2 k = some q' ∧
        q'.updateCandidates = q.updateCandidates ++
          ((selectLoop nnp f rnd i n l p).1.zipIdx i).flatMap
            (fun x => candidatesOf nnp k x.2 x.1) ∧
        q'.numTrainPatterns = q.numTrainPatterns + (((selectLoop nnp f rnd i n l p).1.filter
            fun s => decide (s.sampleType = .training)).map (patternsOf nnp k)).sum ∧
        q'.numTestPatterns = q.numTestPatterns + (((selectLoop nnp f rnd i n l p).1.filter
            fun s => decide (s.sampleType = .test)).map (patternsOf nnp k)).sum := by
  induction l with
  | nil => intro i n p q hq; exact ⟨q, hq, by simp [selectLoop]⟩
  | cons s rest ih =>
    intro i n p q hq
    simp only [selectLoop]
    generalize hs' : (if s.sampleType = .unknown then assign f (rnd n) s else s) = s'
    generalize (if s.sampleType = .unknown then n + 1 else n) = n'
    have h1 : registerStructure nnp i s' p k = some (Property.addStruct nnp k i s' q) := by
      rw [registerStructure_eq, hq]; rfl
    obtain ⟨q', h2, h3, h4, h5⟩ := ih (i + 1) n' _ _ h1
    refine ⟨q', h2, ?_, ?_, ?_⟩
    · rw [h3]; simp [Property.addStruct, List.zipIdx_cons]
    · rw [h4]
      by_cases h : s'.sampleType = .training <;> simp [Property.addStruct, h, add_assoc]
    · rw [h5]
      by_cases h : s'.sampleType = .test <;> simp [Property.addStruct, h, add_assoc]

theorem selectLoop_none (nnp : NNPType) (f : ℝ) (rnd : ℕ → ℝ) (k : Key) (l : List Struct) :
    ∀ (i n : ℕ) (p : PropertyMap), p k = none → (selectLoop nnp f rnd i n l p).2 k = none := by
  induction l with
  | nil => intro i n p h; exact h
  | cons s rest ih =>
    intro i n p h
    simp only [selectLoop]
    exact ih _ _ _ (by rw [registerStructure_eq, h]; rfl)

theorem selectLoop_types (nnp : NNPType) (f : ℝ) (rnd : ℕ → ℝ) (l : List Struct) :
    ∀ (i n : ℕ) (p : PropertyMap) (j : ℕ),
      (selectLoop nnp f rnd i n l p).1[j]? = (l[j]?).map fun s =>
        { s with sampleType := expectedType f (fun m => rnd (n + m)) l j s } := by
  induction l with
  | nil => intro i n p j; simp [selectLoop]
  | cons s rest ih =>
    intro i n p j
    simp only [selectLoop]
    cases j with
    | zero =>
      simp only [List.getElem?_cons_zero, Option.map_some, expectedType, undecidedBefore,
        List.take_zero, List.countP_nil, add_zero]
      by_cases h : s.sampleType = .unknown
      · simp [h, assign]
      · simp [h]
    | succ j =>
      rw [List.getElem?_cons_succ, List.getElem?_cons_succ, ih]
      congr 1
      funext t
      congr 1
      unfold expectedType undecidedBefore
      by_cases h : s.sampleType = .unknown
      · simp only [h, if_true, List.take_succ_cons, List.countP_cons, decide_true]
        congr 3
        exact congrArg rnd (by omega)
      · simp [h]

end Training

end N2P2
