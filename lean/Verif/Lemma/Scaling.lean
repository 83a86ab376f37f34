import Verif.Spec.Scaling
import Mathlib.Tactic.Linarith
import Mathlib.Tactic.Ring
import Mathlib.Data.List.Induction

namespace N2P2

open Classical in
theorem at_set (M : ℝ) (d : StatData) (i j : Nat) (c : StatContainer) :
    StatData.at M (CMap.set d i c) j = if i = j then c else d.at M j := by
  unfold StatData.at
  rw [CMap.find?_set]
  split <;> rfl

theorem countEW_set (M : ℝ) (d : StatData) (i : Nat) (c : StatContainer) :
    StatData.countEW (CMap.set d i c) + (d.at M i).countEW = d.countEW + c.countEW := by
  induction d with
  | nil => simp [StatData.countEW, StatData.at, CMap.set, CMap.find?, StatContainer.init]
  | cons p t ih =>
    obtain ⟨k, v⟩ := p
    unfold CMap.set
    unfold StatData.countEW StatData.at at *
    unfold CMap.find?
    by_cases h : k = i
    · simp only [h, if_true, List.map_cons, List.sum_cons, Option.getD_some]; omega
    · simp only [h, if_false, List.map_cons, List.sum_cons]; omega

theorem find?_mapv (d : StatData) (f : StatContainer → StatContainer) (j : Nat) :
    CMap.find? (d.map (fun p => (p.1, f p.2))) j = (CMap.find? d j).map f := by
  induction d with
  | nil => rfl
  | cons p t ih =>
    obtain ⟨k, v⟩ := p
    simp only [List.map_cons, CMap.find?]
    split
    · rfl
    · exact ih

theorem at_resetStatistics (M : ℝ) (d : StatData) (j : Nat) :
    (d.resetStatistics M).at M j = (d.at M j).resetStatistics M := by
  unfold StatData.at StatData.resetStatistics
  rw [find?_mapv]
  cases CMap.find? d j <;> rfl

theorem at_resetEW (M : ℝ) (d : StatData) (j : Nat) :
    (d.resetEW).at M j = (d.at M j).resetEW := by
  unfold StatData.at StatData.resetEW
  rw [find?_mapv]
  cases CMap.find? d j <;> rfl

theorem countEW_resetStatistics (M : ℝ) (d : StatData) :
    (d.resetStatistics M).countEW = d.countEW := by
  unfold StatData.countEW StatData.resetStatistics
  rw [List.map_map]
  rfl

theorem countEW_resetEW (d : StatData) : (d.resetEW).countEW = 0 := by
  unfold StatData.countEW StatData.resetEW
  rw [List.map_map]
  have : ((fun p => p.2.countEW) ∘ fun p : Nat × StatContainer => (p.1, p.2.resetEW)) =
      fun _ => 0 := by funext p; rfl
  rw [this]
  simp

/-- Values for index `j` in a list of processed pairs. -/
def valsAt (j : Nat) (l : List (SymFncScaling × ℝ)) : List ℝ :=
  (l.filter (fun p => p.1.index = j)).map (·.2)

open Classical in
/-- Unscaled out-of-range values for index `j`. -/
noncomputable def ewAt (eps : ℝ) (j : Nat) (l : List (SymFncScaling × ℝ)) : List ℝ :=
  (l.filter (fun p => p.1.index = j ∧ Outside eps p)).map (fun p => p.1.unscale p.2)

/-- `c'` is `c` after processing the values `vs` and warnings `ws`. -/
structure Absorbed (c c' : StatContainer) (vs ws : List ℝ) : Prop where
  count : c'.count = c.count + vs.length
  sum : c'.sum = c.sum + vs.sum
  sum2 : c'.sum2 = c.sum2 + (vs.map (fun x => x * x)).sum
  min : c'.min = vs.foldl Min.min c.min
  max : c'.max = vs.foldl Max.max c.max
  countEW : c'.countEW = c.countEW + ws.length
  valueEW : c'.valueEW = c.valueEW ++ ws

theorem Absorbed.refl (c : StatContainer) : Absorbed c c [] [] := by
  constructor <;> simp

theorem Absorbed.trans {a b c : StatContainer} {v1 w1 v2 w2 : List ℝ} (h1 : Absorbed a b v1 w1)
    (h2 : Absorbed b c v2 w2) : Absorbed a c (v1 ++ v2) (w1 ++ w2) := by
  constructor
  · rw [h2.count, h1.count, List.length_append]; omega
  · rw [h2.sum, h1.sum, List.sum_append]; ring
  · rw [h2.sum2, h1.sum2, List.map_append, List.sum_append]; ring
  · rw [h2.min, h1.min, List.foldl_append]
  · rw [h2.max, h1.max, List.foldl_append]
  · rw [h2.countEW, h1.countEW, List.length_append]; omega
  · rw [h2.valueEW, h1.valueEW, List.append_assoc]

theorem absorbed_addValue (M : ℝ) (d : StatData) (i j : Nat) (v : ℝ) :
    Absorbed (d.at M j) ((d.addValue M i v).at M j) (if i = j then [v] else []) [] := by
  unfold StatData.addValue
  simp only
  rw [at_set]
  by_cases h : i = j
  · subst h
    rw [if_pos rfl, if_pos rfl]
    constructor <;> simp
  · rw [if_neg h, if_neg h]; exact Absorbed.refl _

theorem absorbed_addEW (M : ℝ) (d : StatData) (i j t : Nat) (v g1 g2 : ℝ) (sym : Str) (s a : Nat) :
    Absorbed (d.at M j) ((d.addEW M i t v g1 g2 sym s a).at M j) [] (if i = j then [v] else []) := by
  unfold StatData.addEW
  simp only
  rw [at_set]
  by_cases h : i = j
  · subst h
    rw [if_pos rfl, if_pos rfl]
    constructor <;> simp
  · rw [if_neg h, if_neg h]; exact Absorbed.refl _

theorem countEW_addValue (M : ℝ) (d : StatData) (i : Nat) (v : ℝ) :
    (d.addValue M i v).countEW = d.countEW := by
  unfold StatData.addValue
  have := countEW_set M d i { d.at M i with
    count := (d.at M i).count + 1, sum := (d.at M i).sum + v, sum2 := (d.at M i).sum2 + v * v,
    min := Min.min (d.at M i).min v, max := Max.max (d.at M i).max v }
  simp only at this ⊢
  omega

theorem countEW_addEW (M : ℝ) (d : StatData) (i t : Nat) (v g1 g2 : ℝ) (sym : Str) (s a : Nat) :
    (d.addEW M i t v g1 g2 sym s a).countEW = d.countEW + 1 := by
  unfold StatData.addEW
  have := countEW_set M d i { d.at M i with
    countEW := (d.at M i).countEW + 1, Gmin := g1, Gmax := g2, type := t, element := sym,
    valueEW := (d.at M i).valueEW ++ [v],
    indexStructureEW := (d.at M i).indexStructureEW ++ [s],
    indexAtomEW := (d.at M i).indexAtomEW ++ [a] }
  simp only at this ⊢
  omega

theorem outside_iff (eps : ℝ) (sf : SymFncScaling) (g : ℝ) :
    Outside eps (sf, g) ↔ (sf.unscale g + eps < sf.Gmin ∨ sf.unscale g - eps > sf.Gmax) := by
  unfold Outside
  simp only [Set.mem_Icc, not_and_or, not_le]
  constructor
  · rintro (h | h)
    · left; linarith
    · right; linarith
  · rintro (h | h)
    · left; linarith
    · right; linarith

open Classical in
theorem updateStatLoop_spec (M eps : ℝ) (fl : StatFlags) (h1 : fl.collectStatistics = true)
    (h2 : fl.collectExtrapolationWarnings = true) (h3 : fl.stopOnExtrapolationWarnings = false)
    (sym : Str) (a : StatAtom) (sfs : List SymFncScaling) : ∀ (gs : List ℝ) (d : StatData) (n : Nat),
    gs.length ≤ sfs.length →
    (updateStatLoop M eps fl sym a sfs gs d n).2 =
      .count (n + (sfs.zip gs).countP (fun p => Outside eps p)) ∧
    (updateStatLoop M eps fl sym a sfs gs d n).1.countEW =
      d.countEW + (sfs.zip gs).countP (fun p => Outside eps p) ∧
    ∀ j, Absorbed (d.at M j) ((updateStatLoop M eps fl sym a sfs gs d n).1.at M j)
      (valsAt j (sfs.zip gs)) (ewAt eps j (sfs.zip gs)) := by
  induction sfs with
  | nil =>
    intro gs d n h
    cases gs with
    | nil =>
      simp only [updateStatLoop, List.zip_nil_right, List.countP_nil, Nat.add_zero]
      exact ⟨trivial, trivial, fun j => Absorbed.refl _⟩
    | cons g gs => simp at h
  | cons sf sfs ih =>
    intro gs d n h
    cases gs with
    | nil =>
      simp only [updateStatLoop, List.zip_nil_right, List.countP_nil, Nat.add_zero]
      exact ⟨trivial, trivial, fun j => Absorbed.refl _⟩
    | cons g gs =>
      have hl : gs.length ≤ sfs.length := by simpa using h
      have hval : ∀ j, valsAt j ((sf, g) :: sfs.zip gs) =
          (if sf.index = j then [g] else []) ++ valsAt j (sfs.zip gs) := by
        intro j; unfold valsAt; rw [List.filter_cons]
        by_cases hj : sf.index = j <;> simp [hj]
      simp only [updateStatLoop, List.zip_cons_cons, List.countP_cons, h1, h2, h3, if_true,
        Bool.false_eq_true, if_false, hval]
      by_cases hw : Outside eps (sf, g)
      · have hw' := (outside_iff eps sf g).1 hw
        rw [if_pos hw']
        have hew : ∀ j, ewAt eps j ((sf, g) :: sfs.zip gs) =
            (if sf.index = j then [sf.unscale g] else []) ++ ewAt eps j (sfs.zip gs) := by
          intro j; unfold ewAt; rw [List.filter_cons]
          by_cases hj : sf.index = j <;> simp [hj, hw]
        obtain ⟨r1, r2, r3⟩ := ih gs ((d.addValue M sf.index g).addEW M sf.index sf.type
          (sf.unscale g) sf.Gmin sf.Gmax sym a.indexStructure a.tag) (n + 1) hl
        refine ⟨?_, ?_, ?_⟩
        · rw [r1]; simp only [hw, decide_true, if_true]; congr 1; omega
        · rw [r2, countEW_addEW, countEW_addValue]; simp only [hw, decide_true, if_true]; omega
        · intro j
          rw [hew]
          have := ((absorbed_addValue M d sf.index j g).trans
            (absorbed_addEW M (d.addValue M sf.index g) sf.index j sf.type (sf.unscale g) sf.Gmin
              sf.Gmax sym a.indexStructure a.tag)).trans (r3 j)
          simpa using this
      · have hw' : ¬ _ := fun h => hw ((outside_iff eps sf g).2 h)
        rw [if_neg hw']
        have hew : ∀ j, ewAt eps j ((sf, g) :: sfs.zip gs) = ewAt eps j (sfs.zip gs) := by
          intro j; unfold ewAt; rw [List.filter_cons]
          simp [hw]
        obtain ⟨r1, r2, r3⟩ := ih gs (d.addValue M sf.index g) n hl
        refine ⟨?_, ?_, ?_⟩
        · rw [r1]; simp [hw]
        · rw [r2, countEW_addValue]; simp [hw]
        · intro j
          rw [hew]
          simpa using (absorbed_addValue M d sf.index j g).trans (r3 j)

open Classical in
theorem updateStatLoop_count (M eps : ℝ) (fl : StatFlags)
    (h3 : fl.stopOnExtrapolationWarnings = false)
    (sym : Str) (a : StatAtom) (sfs : List SymFncScaling) : ∀ (gs : List ℝ) (d : StatData) (n : Nat),
    gs.length ≤ sfs.length →
    (updateStatLoop M eps fl sym a sfs gs d n).2 =
      .count (n + (sfs.zip gs).countP (fun p => Outside eps p)) := by
  induction sfs with
  | nil =>
    intro gs d n h
    cases gs with
    | nil => simp [updateStatLoop]
    | cons g gs => simp at h
  | cons sf sfs ih =>
    intro gs d n h
    cases gs with
    | nil => simp [updateStatLoop]
    | cons g gs =>
      have hl : gs.length ≤ sfs.length := by simpa using h
      simp only [updateStatLoop, List.zip_cons_cons, List.countP_cons, h3,
        Bool.false_eq_true, if_false]
      by_cases hw : Outside eps (sf, g)
      · rw [if_pos ((outside_iff eps sf g).1 hw), ih gs _ _ hl]
        simp only [hw, decide_true, if_true]; congr 1; omega
      · rw [if_neg (fun h => hw ((outside_iff eps sf g).2 h)), ih gs _ _ hl]
        simp [hw]

theorem updateStatLoop_stop (M eps : ℝ) (fl : StatFlags)
    (h3 : fl.stopOnExtrapolationWarnings = true)
    (sym : Str) (a : StatAtom) (sfs : List SymFncScaling) : ∀ (gs : List ℝ) (d : StatData) (n : Nat),
    gs.length ≤ sfs.length →
    ((updateStatLoop M eps fl sym a sfs gs d n).2 = .stopped ↔ ∃ p ∈ sfs.zip gs, Outside eps p) ∧
    ((updateStatLoop M eps fl sym a sfs gs d n).2 = .stopped ∨
      (updateStatLoop M eps fl sym a sfs gs d n).2 = .count n) := by
  induction sfs with
  | nil =>
    intro gs d n h
    cases gs with
    | nil => simp [updateStatLoop]
    | cons g gs => simp at h
  | cons sf sfs ih =>
    intro gs d n h
    cases gs with
    | nil => simp [updateStatLoop]
    | cons g gs =>
      have hl : gs.length ≤ sfs.length := by simpa using h
      simp only [updateStatLoop, List.zip_cons_cons, h3, if_true]
      by_cases hw : Outside eps (sf, g)
      · rw [if_pos ((outside_iff eps sf g).1 hw)]
        exact ⟨⟨fun _ => ⟨_, by simp, hw⟩, fun _ => rfl⟩, Or.inl rfl⟩
      · rw [if_neg (fun h => hw ((outside_iff eps sf g).2 h))]
        obtain ⟨r1, r2⟩ := ih gs (if fl.collectStatistics then d.addValue M sf.index g else d) n hl
        refine ⟨r1.trans ?_, r2⟩
        constructor
        · rintro ⟨p, hp, ho⟩; exact ⟨p, by simp [hp], ho⟩
        · rintro ⟨p, hp, ho⟩
          rcases List.mem_cons.1 hp with rfl | hp
          · exact absurd ho hw
          · exact ⟨p, hp, ho⟩

theorem sinceLast_nil {α : Type} (p : α → Bool) : sinceLast p [] = [] := rfl

theorem sinceLast_append {α : Type} (p : α → Bool) (h : List α) (e : α) :
    sinceLast p (h ++ [e]) = if p e then [] else sinceLast p h ++ [e] := by
  unfold sinceLast
  rw [List.reverse_append, List.reverse_singleton, List.singleton_append, List.takeWhile_cons]
  cases p e <;> simp

open Classical in
/-- The invariant of histories. -/
theorem statRun_inv (M eps : ℝ) (el : StatElement) (h1 : el.flags.collectStatistics = true)
    (h2 : el.flags.collectExtrapolationWarnings = true)
    (h3 : el.flags.stopOnExtrapolationWarnings = false) (h : List StatEvent)
    (hw : ∀ e ∈ h, e.WellFormed) :
    (statRun M eps el h).countEW =
      ((sinceLast StatEvent.clearsWarnings h).flatMap (·.processed el)).countP
        (fun p => Outside eps p) ∧
    ∀ j, Absorbed (StatContainer.init M) ((statRun M eps el h).at M j)
      (valsAt j ((sinceLast StatEvent.clearsStatistics h).flatMap (·.processed el)))
      (ewAt eps j ((sinceLast StatEvent.clearsWarnings h).flatMap (·.processed el))) := by
  induction h using List.reverseRecOn with
  | nil => exact ⟨rfl, fun j => Absorbed.refl _⟩
  | append_singleton h e ih =>
    obtain ⟨i1, i2⟩ := ih (fun x hx => hw x (by simp [hx]))
    have hrun : statRun M eps el (h ++ [e]) = statStep M eps el (statRun M eps el h) e := by
      unfold statRun; rw [List.foldl_append]; rfl
    rw [hrun, sinceLast_append, sinceLast_append]
    generalize statRun M eps el h = d at i1 i2
    cases e with
    | update a =>
      simp only [StatEvent.clearsWarnings, StatEvent.clearsStatistics, Bool.false_eq_true,
        if_false, List.flatMap_append, List.flatMap_singleton, statStep, updateStatistics]
      have hv : ∀ j (x y : List (SymFncScaling × ℝ)), valsAt j (x ++ y) = valsAt j x ++ valsAt j y := by
        intro j x y; unfold valsAt; rw [List.filter_append, List.map_append]
      have he : ∀ j (x y : List (SymFncScaling × ℝ)),
          ewAt eps j (x ++ y) = ewAt eps j x ++ ewAt eps j y := by
        intro j x y; unfold ewAt; rw [List.filter_append, List.map_append]
      by_cases c1 : a.element = el.index
      · by_cases c2 : a.numSymmetryFunctions = el.symmetryFunctions.length
        · have hp : (StatEvent.update a).processed el = el.symmetryFunctions.zip a.G := by
            simp [StatEvent.processed, c1, c2]
          rw [if_neg (not_not.2 c1), if_neg (not_not.2 c2), hp]
          have hlen : a.G.length ≤ el.symmetryFunctions.length := by
            have : a.G.length = a.numSymmetryFunctions := hw (.update a) (by simp)
            omega
          obtain ⟨_, r2, r3⟩ := updateStatLoop_spec M eps el.flags h1 h2 h3 el.symbol a
            el.symmetryFunctions a.G d 0 hlen
          refine ⟨?_, fun j => ?_⟩
          · rw [r2, i1, List.countP_append]
          · rw [hv, he]; exact (i2 j).trans (r3 j)
        · have hp : (StatEvent.update a).processed el = [] := by
            simp [StatEvent.processed, c2]
          rw [if_neg (not_not.2 c1), if_pos c2, hp]
          simp only [List.append_nil]
          exact ⟨i1, i2⟩
      · have hp : (StatEvent.update a).processed el = [] := by
          simp [StatEvent.processed, c1]
        rw [if_pos c1, hp]
        simp only [List.append_nil]
        exact ⟨i1, i2⟩
    | resetStatistics =>
      have hp : StatEvent.processed el .resetStatistics = [] := rfl
      simp only [StatEvent.clearsWarnings, StatEvent.clearsStatistics, Bool.false_eq_true,
        if_false, if_true, List.flatMap_append, List.flatMap_singleton, statStep,
        hp, List.append_nil, List.flatMap_nil]
      refine ⟨by rw [countEW_resetStatistics, i1], fun j => ?_⟩
      rw [at_resetStatistics]
      have := i2 j
      constructor
      · rfl
      · simp [StatContainer.resetStatistics, StatContainer.init, valsAt]
      · simp [StatContainer.resetStatistics, StatContainer.init, valsAt]
      · simp [StatContainer.resetStatistics, StatContainer.init, valsAt]
      · simp [StatContainer.resetStatistics, StatContainer.init, valsAt]
      · exact this.countEW
      · exact this.valueEW
    | resetEW =>
      have hp : StatEvent.processed el .resetEW = [] := rfl
      simp only [StatEvent.clearsWarnings, StatEvent.clearsStatistics, Bool.false_eq_true,
        if_false, if_true, List.flatMap_append, List.flatMap_singleton, statStep,
        hp, List.append_nil, List.flatMap_nil]
      refine ⟨by rw [countEW_resetEW]; rfl, fun j => ?_⟩
      rw [at_resetEW]
      have := i2 j
      constructor
      · exact this.count
      · exact this.sum
      · exact this.sum2
      · exact this.min
      · exact this.max
      · rfl
      · rfl
    | clear =>
      simp only [StatEvent.clearsWarnings, StatEvent.clearsStatistics, if_true, List.flatMap_nil,
        statStep]
      exact ⟨rfl, fun j => Absorbed.refl _⟩

theorem valsAt_append (j : Nat) (x y : List (SymFncScaling × ℝ)) :
    valsAt j (x ++ y) = valsAt j x ++ valsAt j y := by
  unfold valsAt; rw [List.filter_append, List.map_append]

theorem updateStatLoop_values (M eps : ℝ) (fl : StatFlags) (h1 : fl.collectStatistics = true)
    (h3 : fl.stopOnExtrapolationWarnings = false)
    (sym : Str) (a : StatAtom) (sfs : List SymFncScaling) : ∀ (gs : List ℝ) (d : StatData) (n : Nat),
    gs.length ≤ sfs.length → ∀ j, ∃ ws,
    Absorbed (d.at M j) ((updateStatLoop M eps fl sym a sfs gs d n).1.at M j)
      (valsAt j (sfs.zip gs)) ws := by
  induction sfs with
  | nil =>
    intro gs d n h j
    cases gs with
    | nil => exact ⟨[], Absorbed.refl _⟩
    | cons g gs => simp at h
  | cons sf sfs ih =>
    intro gs d n h j
    cases gs with
    | nil => exact ⟨[], Absorbed.refl _⟩
    | cons g gs =>
      have hl : gs.length ≤ sfs.length := by simpa using h
      have hval : valsAt j ((sf, g) :: sfs.zip gs) =
          (if sf.index = j then [g] else []) ++ valsAt j (sfs.zip gs) := by
        unfold valsAt; rw [List.filter_cons]
        by_cases hj : sf.index = j <;> simp [hj]
      simp only [updateStatLoop, List.zip_cons_cons, h1, h3, if_true, Bool.false_eq_true, if_false,
        hval]
      have hA := absorbed_addValue M d sf.index j g
      generalize (if sf.index = j then [g] else []) = vs at hA
      split_ifs with hw hc
      · obtain ⟨ws, r⟩ := ih gs ((d.addValue M sf.index g).addEW M sf.index sf.type
          (sf.unscale g) sf.Gmin sf.Gmax sym a.indexStructure a.tag) (n + 1) hl j
        have := (hA.trans (absorbed_addEW M (d.addValue M sf.index g) sf.index j sf.type
          (sf.unscale g) sf.Gmin sf.Gmax sym a.indexStructure a.tag)).trans r
        rw [List.append_nil] at this
        exact ⟨_, this⟩
      · obtain ⟨ws, r⟩ := ih gs (d.addValue M sf.index g) (n + 1) hl j
        exact ⟨_, hA.trans r⟩
      · obtain ⟨ws, r⟩ := ih gs (d.addValue M sf.index g) n hl j
        exact ⟨_, hA.trans r⟩

/-- The invariant for the values alone. -/
theorem statRun_values (M eps : ℝ) (el : StatElement) (h1 : el.flags.collectStatistics = true)
    (h3 : el.flags.stopOnExtrapolationWarnings = false) (h : List StatEvent)
    (hw : ∀ e ∈ h, e.WellFormed) (j : Nat) : ∃ ws,
    Absorbed (StatContainer.init M) ((statRun M eps el h).at M j)
      (valsAt j ((sinceLast StatEvent.clearsStatistics h).flatMap (·.processed el))) ws := by
  induction h using List.reverseRecOn with
  | nil => exact ⟨[], Absorbed.refl _⟩
  | append_singleton h e ih =>
    obtain ⟨ws, i2⟩ := ih (fun x hx => hw x (by simp [hx]))
    have hrun : statRun M eps el (h ++ [e]) = statStep M eps el (statRun M eps el h) e := by
      unfold statRun; rw [List.foldl_append]; rfl
    rw [hrun, sinceLast_append]
    generalize statRun M eps el h = d at i2
    cases e with
    | update a =>
      simp only [StatEvent.clearsStatistics, Bool.false_eq_true,
        if_false, List.flatMap_append, List.flatMap_singleton, statStep, updateStatistics]
      by_cases c1 : a.element = el.index
      · by_cases c2 : a.numSymmetryFunctions = el.symmetryFunctions.length
        · have hp : (StatEvent.update a).processed el = el.symmetryFunctions.zip a.G := by
            simp [StatEvent.processed, c1, c2]
          rw [if_neg (not_not.2 c1), if_neg (not_not.2 c2), hp]
          have hlen : a.G.length ≤ el.symmetryFunctions.length := by
            have : a.G.length = a.numSymmetryFunctions := hw (.update a) (by simp)
            omega
          obtain ⟨ws', r3⟩ := updateStatLoop_values M eps el.flags h1 h3 el.symbol a
            el.symmetryFunctions a.G d 0 hlen j
          rw [valsAt_append]
          exact ⟨_, i2.trans r3⟩
        · have hp : (StatEvent.update a).processed el = [] := by
            simp [StatEvent.processed, c2]
          rw [if_neg (not_not.2 c1), if_pos c2, hp]
          simp only [List.append_nil]
          exact ⟨ws, i2⟩
      · have hp : (StatEvent.update a).processed el = [] := by
          simp [StatEvent.processed, c1]
        rw [if_pos c1, hp]
        simp only [List.append_nil]
        exact ⟨ws, i2⟩
    | resetStatistics =>
      have hp : StatEvent.processed el .resetStatistics = [] := rfl
      simp only [StatEvent.clearsStatistics, if_true, statStep, List.flatMap_nil]
      rw [at_resetStatistics]
      refine ⟨ws, ?_⟩
      constructor
      · rfl
      · simp [StatContainer.resetStatistics, StatContainer.init, valsAt]
      · simp [StatContainer.resetStatistics, StatContainer.init, valsAt]
      · simp [StatContainer.resetStatistics, StatContainer.init, valsAt]
      · simp [StatContainer.resetStatistics, StatContainer.init, valsAt]
      · exact i2.countEW
      · exact i2.valueEW
    | resetEW =>
      have hp : StatEvent.processed el .resetEW = [] := rfl
      simp only [StatEvent.clearsStatistics, Bool.false_eq_true,
        if_false, List.flatMap_append, List.flatMap_singleton, statStep,
        hp, List.append_nil]
      rw [at_resetEW]
      refine ⟨[], ?_⟩
      constructor
      · exact i2.count
      · exact i2.sum
      · exact i2.sum2
      · exact i2.min
      · exact i2.max
      · rfl
      · rfl
    | clear =>
      simp only [StatEvent.clearsStatistics, if_true, List.flatMap_nil, statStep]
      exact ⟨[], Absorbed.refl _⟩

theorem foldl_min_le (vs : List ℝ) (M : ℝ) :
    vs.foldl Min.min M ≤ M ∧ (∀ v ∈ vs, vs.foldl Min.min M ≤ v) ∧
      (vs.foldl Min.min M = M ∨ vs.foldl Min.min M ∈ vs) := by
  induction vs generalizing M with
  | nil => simp
  | cons v vs ih =>
    obtain ⟨a, b, c⟩ := ih (Min.min M v)
    simp only [List.foldl_cons]
    refine ⟨le_trans a (min_le_left _ _), ?_, ?_⟩
    · intro w hw
      rcases List.mem_cons.1 hw with rfl | hw
      · exact le_trans a (min_le_right _ _)
      · exact b w hw
    · rcases c with c | c
      · rcases min_choice M v with h | h
        · left; rw [c, h]
        · right; rw [c, h]; simp
      · right; simp [c]

theorem le_foldl_max (vs : List ℝ) (M : ℝ) :
    M ≤ vs.foldl Max.max M ∧ (∀ v ∈ vs, v ≤ vs.foldl Max.max M) ∧
      (vs.foldl Max.max M = M ∨ vs.foldl Max.max M ∈ vs) := by
  induction vs generalizing M with
  | nil => simp
  | cons v vs ih =>
    obtain ⟨a, b, c⟩ := ih (Max.max M v)
    simp only [List.foldl_cons]
    refine ⟨le_trans (le_max_left _ _) a, ?_, ?_⟩
    · intro w hw
      rcases List.mem_cons.1 hw with rfl | hw
      · exact le_trans (le_max_right _ _) a
      · exact b w hw
    · rcases c with c | c
      · rcases max_choice M v with h | h
        · left; rw [c, h]
        · right; rw [c, h]; simp
      · right; simp [c]

end N2P2
