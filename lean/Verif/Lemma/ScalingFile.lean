import Verif.Spec.ScalingFile
import Verif.Lemma.WeightFile
import Verif.Lemma.Scaling
import Verif.Lemma.ListAux

namespace N2P2

/-! ### Numbers -/

theorem textInt_natText (n : ℕ) : textInt (natText n) = (n : ℤ) := by
  have hd : ∀ c ∈ natText n, c.isDigit = true := fun c hc => natText_digit hc
  have hw := natText_word n
  have h1 : (natText n).dropWhile isBlank = natText n := by
    cases e : natText n with
    | nil => rfl
    | cons c t =>
      have := hw.2 c (by rw [e]; simp)
      rw [List.dropWhile_cons, this]
      rfl
  have h2 : leadingDigits (natText n) = natText n := by
    unfold leadingDigits
    rw [List.takeWhile_eq_self_iff]
    exact hd
  unfold textInt
  rw [h1]
  have h4 : Nat.ofDigitChars 10 (natText n) 0 = n := Nat.ofDigitChars_ten_toDigits
  split
  · rename_i t e
    have := hd '-' (by rw [e]; simp)
    exact absurd this (by decide)
  · rename_i t e
    have := hd '+' (by rw [e]; simp)
    exact absurd this (by decide)
  · rw [h2, h4]

theorem textSize_natText {n : ℕ} (h : n < 2 ^ 64) : textSize (natText n) = n := by
  have h3 := textInt_natText n
  unfold textSize
  rw [h3]
  omega

/-! ### Collecting -/

theorem find?_eq_at {M : ℝ} {d : StatData} {i : ℕ} {c : StatContainer}
    (h : CMap.find? d i = some c) : d.at M i = c := by
  unfold StatData.at; rw [h]; rfl

/-- The container after the reduction. -/
noncomputable def collected (M : ℝ) (procs : List StatData) (own : StatData) (i : ℕ) :
    StatContainer :=
  { own.at M i with
    count := (procs.map fun p => (p.at M i).count).sum
    min := (procs.map fun p => (p.at M i).min).foldl Min.min (own.at M i).min
    max := (procs.map fun p => (p.at M i).max).foldl Max.max (own.at M i).max
    sum := (procs.map fun p => (p.at M i).sum).sum
    sum2 := (procs.map fun p => (p.at M i).sum2).sum }

theorem collect_find (M : ℝ) (n : ℕ) (procs : List StatData) (own : StatData) {i : ℕ} (hi : i < n) :
    CMap.find? (StatData.collect M n procs own) i = some (collected M procs own i) := by
  have key : ∀ m, (∀ j < m, CMap.find? (StatData.collect M m procs own) j =
      some (collected M procs own j)) ∧
      ∀ j, m ≤ j → (StatData.collect M m procs own).at M j = own.at M j := by
    intro m
    induction m with
    | zero => exact ⟨fun j hj => absurd hj (by omega), fun j _ => rfl⟩
    | succ m ih =>
      obtain ⟨i1, i2⟩ := ih
      have e : StatData.collect M (m + 1) procs own =
          CMap.set (StatData.collect M m procs own) m (collected M procs own m) := by
        unfold collected
        rw [← i2 m le_rfl]
        rfl
      rw [e]
      refine ⟨fun j hj => ?_, fun j hj => ?_⟩
      · rw [CMap.find?_set]
        by_cases h : m = j
        · subst h; rw [if_pos rfl]
        · rw [if_neg h]; exact i1 j (by omega)
      · rw [at_set, if_neg (by omega)]
        exact i2 j (by omega)
  exact (key n).1 i hi

theorem valsAt_zip (i : ℕ) : ∀ (f : List SymFncScaling) (n : ℕ) (G : List ℝ),
    (∀ (j : ℕ) (sf : SymFncScaling), f[j]? = some sf → sf.index = n + j) → G.length = f.length →
    valsAt i (f.zip G) = if n ≤ i ∧ i < n + f.length then [G.getD (i - n) 0] else []
  | [], n, G, _, _ => by simp [valsAt]
  | sf :: f, n, [], _, h => by simp at h
  | sf :: f, n, g :: G, hx, h => by
    have h0 : sf.index = n := by simpa using hx 0 sf rfl
    have ih := valsAt_zip i f (n + 1) G (fun j s hj => by
      have := hx (j + 1) s (by simpa using hj); omega) (by simpa using h)
    have e : valsAt i ((sf :: f).zip (g :: G)) =
        (if sf.index = i then [g] else []) ++ valsAt i (f.zip G) := by
      unfold valsAt; rw [List.zip_cons_cons, List.filter_cons]
      by_cases hj : sf.index = i <;> simp [hj]
    rw [e, ih, h0]
    by_cases h1 : n = i
    · subst h1
      rw [if_pos rfl, if_neg (by omega), if_pos (by simp)]
      simp
    · rw [if_neg h1, List.nil_append]
      by_cases h2 : n + 1 ≤ i ∧ i < n + 1 + f.length
      · rw [if_pos h2, if_pos (by rw [List.length_cons]; omega)]
        have : i - n = (i - (n + 1)) + 1 := by omega
        rw [this]
        simp
      · rw [if_neg h2, if_neg (by rw [List.length_cons]; omega)]

/-- Statistics of one process. -/
theorem process_values (M eps : ℝ) {k : ℕ} {f : List SymFncScaling}
    (hf : ∀ (i : ℕ) (sf : SymFncScaling), f[i]? = some sf → sf.index = i) {atoms : List StatAtom}
    (ha : ∀ a ∈ atoms, a.element = k ∧ a.numSymmetryFunctions = f.length ∧ a.G.length = f.length)
    {i : ℕ} (hi : i < f.length) : ∃ ws, Absorbed (StatContainer.init M)
      ((statRun M eps ⟨k, [], f, ⟨true, false, false⟩⟩ (atoms.map .update)).at M i)
      (atoms.map fun a => a.G.getD i 0) ws := by
  obtain ⟨ws, h⟩ := statRun_values M eps ⟨k, [], f, ⟨true, false, false⟩⟩ rfl rfl (atoms.map .update)
    (by
      intro e he
      obtain ⟨a, h, rfl⟩ := List.mem_map.1 he
      obtain ⟨-, h2, h3⟩ := ha a h
      exact h3.trans h2.symm) i
  refine ⟨ws, ?_⟩
  have e : ∀ l : List StatAtom, (∀ a ∈ l, a ∈ atoms) →
      sinceLast StatEvent.clearsStatistics (l.map .update) = l.map .update ∧
      valsAt i ((l.map StatEvent.update).flatMap
        (·.processed ⟨k, [], f, ⟨true, false, false⟩⟩)) = l.map fun a => a.G.getD i 0 := by
    intro l hl
    refine ⟨?_, ?_⟩
    · unfold sinceLast
      rw [List.takeWhile_eq_self_iff.2, List.reverse_reverse]
      intro e he
      obtain ⟨a, -, rfl⟩ := List.mem_map.1 (List.mem_reverse.1 he)
      rfl
    · induction l with
      | nil => rfl
      | cons a l ih =>
        obtain ⟨h1, h2, h3⟩ := ha a (hl a (by simp))
        rw [List.map_cons, List.flatMap_cons, valsAt_append, List.map_cons,
          ih fun x hx => hl x (by simp [hx])]
        have : (StatEvent.update a).processed ⟨k, [], f, ⟨true, false, false⟩⟩ = f.zip a.G := by
          simp [StatEvent.processed, h1, h2]
        rw [this, valsAt_zip i f 0 a.G (fun j s hj => by rw [hf j s hj, Nat.zero_add]) h3,
          if_pos ⟨Nat.zero_le _, by omega⟩]
        rfl
  obtain ⟨e1, e2⟩ := e atoms fun _ h => h
  rw [e1, e2] at h
  exact h

theorem foldl_min_of_mem {l : List ℝ} {x : ℝ} (hx : x ∈ l) :
    l.foldl Min.min x ∈ l ∧ ∀ y ∈ l, l.foldl Min.min x ≤ y := by
  obtain ⟨-, h2, h3⟩ := foldl_min_le l x
  refine ⟨?_, h2⟩
  rcases h3 with h | h
  · rw [h]; exact hx
  · exact h

theorem foldl_max_of_mem {l : List ℝ} {x : ℝ} (hx : x ∈ l) :
    l.foldl Max.max x ∈ l ∧ ∀ y ∈ l, y ≤ l.foldl Max.max x := by
  obtain ⟨-, h2, h3⟩ := le_foldl_max l x
  refine ⟨?_, h2⟩
  rcases h3 with h | h
  · rw [h]; exact hx
  · exact h

/-- What is collected from processes with the values `vals`. -/
structure CollectedFor (M : ℝ) (vs : List ℝ) (c : StatContainer) : Prop where
  count : c.count = vs.length
  sum : c.sum = vs.sum
  sum2 : c.sum2 = (vs.map fun x => x * x).sum
  min : vs ≠ [] → (∀ v ∈ vs, |v| ≤ M) → IsLeast {v | v ∈ vs} c.min
  max : vs ≠ [] → (∀ v ∈ vs, |v| ≤ M) → IsGreatest {v | v ∈ vs} c.max

theorem collected_values {M : ℝ} {α : Type} {data : List α} (hd : data ≠ []) (stat : α → StatData)
    (vals : α → List ℝ) (i : ℕ)
    (h : ∀ p ∈ data, ∃ ws, Absorbed (StatContainer.init M) ((stat p).at M i) (vals p) ws) :
    CollectedFor M (data.flatMap vals)
      (collected M (data.map stat) ((data.map stat).headD []) i) := by
  have hown : ∃ p ∈ data, (data.map stat).headD [] = stat p := by
    cases data with
    | nil => exact absurd rfl hd
    | cons p l => exact ⟨p, by simp, rfl⟩
  obtain ⟨p0, hp0, e0⟩ := hown
  rw [e0]
  have hvs : ∀ v, v ∈ data.flatMap vals ↔ ∃ p ∈ data, v ∈ vals p := fun v => List.mem_flatMap
  refine ⟨?_, ?_, ?_, ?_, ?_⟩
  · show ((data.map stat).map fun p => (p.at M i).count).sum = _
    rw [List.map_map, List.length_flatMap]
    congr 1
    refine List.map_congr_left fun p hp => ?_
    obtain ⟨ws, ha⟩ := h p hp
    have := ha.count
    simpa [StatContainer.init] using this
  · show ((data.map stat).map fun p => (p.at M i).sum).sum = _
    rw [List.map_map, List.flatMap_def, List.sum_flatten, List.map_map]
    congr 1
    refine List.map_congr_left fun p hp => ?_
    obtain ⟨ws, ha⟩ := h p hp
    have := ha.sum
    simpa [StatContainer.init] using this
  · show ((data.map stat).map fun p => (p.at M i).sum2).sum = _
    rw [List.map_map, List.map_flatMap, List.flatMap_def, List.sum_flatten, List.map_map]
    congr 1
    refine List.map_congr_left fun p hp => ?_
    obtain ⟨ws, ha⟩ := h p hp
    have := ha.sum2
    simpa [StatContainer.init] using this
  · intro hne hb
    have hmem : ((stat p0).at M i).min ∈ (data.map stat).map fun p => (p.at M i).min := by
      rw [List.map_map]
      exact List.mem_map.2 ⟨p0, hp0, rfl⟩
    obtain ⟨h1, h2⟩ := foldl_min_of_mem hmem
    show IsLeast _ (((data.map stat).map fun p => (p.at M i).min).foldl Min.min
      ((stat p0).at M i).min)
    generalize hm : ((data.map stat).map fun p => (p.at M i).min).foldl Min.min
      ((stat p0).at M i).min = m at h1 h2 ⊢
    have hle : ∀ v ∈ data.flatMap vals, m ≤ v := by
      intro v hv
      obtain ⟨q, hq, hv⟩ := (hvs v).1 hv
      obtain ⟨ws, ha⟩ := h q hq
      refine le_trans (h2 ((stat q).at M i).min ?_) ?_
      · rw [List.map_map]; exact List.mem_map.2 ⟨q, hq, rfl⟩
      · rw [ha.min]; exact (foldl_min_le _ _).2.1 v hv
    refine ⟨?_, fun v hv => hle v hv⟩
    rw [List.map_map] at h1
    obtain ⟨p, hp, e⟩ := List.mem_map.1 h1
    obtain ⟨ws, ha⟩ := h p hp
    have e' : m = (vals p).foldl Min.min M := by rw [← e]; exact ha.min
    rcases (foldl_min_le (vals p) M).2.2 with hc | hc
    · obtain ⟨w, hw⟩ := List.exists_mem_of_ne_nil _ hne
      have a1 := hle w hw
      have a2 := (abs_le.1 (hb w hw)).2
      have : m = w := le_antisymm a1 (by rw [e', hc]; exact a2)
      rw [this]; exact hw
    · exact (hvs m).2 ⟨p, hp, by rw [e']; exact hc⟩
  · intro hne hb
    have hmem : ((stat p0).at M i).max ∈ (data.map stat).map fun p => (p.at M i).max := by
      rw [List.map_map]
      exact List.mem_map.2 ⟨p0, hp0, rfl⟩
    obtain ⟨h1, h2⟩ := foldl_max_of_mem hmem
    show IsGreatest _ (((data.map stat).map fun p => (p.at M i).max).foldl Max.max
      ((stat p0).at M i).max)
    generalize hm : ((data.map stat).map fun p => (p.at M i).max).foldl Max.max
      ((stat p0).at M i).max = m at h1 h2 ⊢
    have hle : ∀ v ∈ data.flatMap vals, v ≤ m := by
      intro v hv
      obtain ⟨q, hq, hv⟩ := (hvs v).1 hv
      obtain ⟨ws, ha⟩ := h q hq
      refine le_trans ?_ (h2 ((stat q).at M i).max ?_)
      · rw [ha.max]; exact (le_foldl_max _ _).2.1 v hv
      · rw [List.map_map]; exact List.mem_map.2 ⟨q, hq, rfl⟩
    refine ⟨?_, fun v hv => hle v hv⟩
    rw [List.map_map] at h1
    obtain ⟨p, hp, e⟩ := List.mem_map.1 h1
    obtain ⟨ws, ha⟩ := h p hp
    have e' : m = (vals p).foldl Max.max (-M) := by rw [← e]; exact ha.max
    rcases (le_foldl_max (vals p) (-M)).2.2 with hc | hc
    · obtain ⟨w, hw⟩ := List.exists_mem_of_ne_nil _ hne
      have a1 := hle w hw
      have a2 := (abs_le.1 (hb w hw)).1
      have : m = w := le_antisymm (by rw [e', hc]; exact a2) a1
      rw [this]; exact hw
    · exact (hvs m).2 ⟨p, hp, by rw [e']; exact hc⟩

theorem sum_sq_dev (vs : List ℝ) (m : ℝ) : (vs.map fun v => (v - m) ^ 2).sum =
    (vs.map fun v => v * v).sum - 2 * m * vs.sum + vs.length * m ^ 2 := by
  induction vs with
  | nil => simp
  | cons v vs ih =>
    simp only [List.map_cons, List.sum_cons, ih, List.length_cons]
    push_cast
    ring

theorem CollectedFor.mean {M : ℝ} {vs : List ℝ} {c : StatContainer} (h : CollectedFor M vs c)
    (nan : ℝ) (hne : vs ≠ []) : c.mean nan = listMean vs := by
  unfold StatContainer.mean listMean
  rw [if_neg (by rw [h.count]; simpa using hne), h.sum, h.count]

theorem CollectedFor.sigma {M : ℝ} {vs : List ℝ} {c : StatContainer} (h : CollectedFor M vs c)
    (nan : ℝ) (hl : 2 ≤ vs.length) : c.sigma nan = listSigma vs := by
  unfold StatContainer.sigma listSigma
  have h0 : (vs.length : ℝ) ≠ 0 := by
    have : 0 < vs.length := by omega
    exact_mod_cast this.ne'
  rw [if_neg (by rw [h.count]; omega), h.sum, h.sum2, h.count, sum_sq_dev]
  congr 1
  rw [Nat.cast_sub (by omega)]
  congr 1
  · unfold listMean
    field_simp
    ring
  · simp

/-! ### Lines -/

/-- The line without its end. -/
noncomputable def scalingBody (N : NumberText) (nan : ℝ) (k i : ℕ) (c : StatContainer) : Str :=
  List.replicate (10 - (natText (k + 1)).length) ' ' ++ natText (k + 1) ++
    spaced ((10 - (natText (i + 1)).length, natText (i + 1)) ::
      [c.min, c.max, c.mean nan, c.sigma nan].map fun x => (24 - (N.print x).length, N.print x))

theorem scalingLine_eq (N : NumberText) (nan : ℝ) (k i : ℕ) (c : StatContainer) :
    scalingLine N nan k i c = scalingBody N nan k i c ++ ['\n'] := by
  simp [scalingLine, scalingBody, fieldLine, NumberText.field, padLeft, spaced]

theorem scalingBody_words {N : NumberText} (hN : N.Data) (nan : ℝ) (k i : ℕ) (c : StatContainer) :
    split (reduce (scalingBody N nan k i c)) = [natText (k + 1), natText (i + 1), N.print c.min,
      N.print c.max, N.print (c.mean nan), N.print (c.sigma nan)] := by
  unfold scalingBody
  rw [words_padded _ _ (natText_word _)]
  · rfl
  · intro f hf
    rcases List.mem_cons.1 hf with rfl | hf
    · exact natText_word _
    · obtain ⟨x, -, rfl⟩ := List.mem_map.1 hf
      exact (hN.1 x).1

theorem scalingBody_newline {N : NumberText} (hN : N.Data) (nan : ℝ) (k i : ℕ) (c : StatContainer) :
    '\n' ∉ scalingBody N nan k i c := by
  unfold scalingBody
  simp only [List.mem_append, not_or]
  refine ⟨⟨fun h => absurd (List.eq_of_mem_replicate h) (by decide), natText_newline _⟩,
    no_newline_spaced _ fun f hf => ?_⟩
  rcases List.mem_cons.1 hf with rfl | hf
  · exact natText_newline _
  · obtain ⟨x, -, rfl⟩ := List.mem_map.1 hf
    exact (hN.1 x).2.1

theorem scalingBody_first (N : NumberText) (nan : ℝ) (k i : ℕ) (c : StatContainer) :
    ∃ a t, scalingBody N nan k i c = a :: t ∧ a ≠ '#' := by
  unfold scalingBody
  cases hk : 10 - (natText (k + 1)).length with
  | zero =>
    cases hp : natText (k + 1) with
    | nil => exact absurd hp (natText_word _).1
    | cons a t =>
      have : a.isDigit = true := natText_digit (n := k + 1) (by rw [hp]; simp)
      refine ⟨a, _, rfl, ?_⟩
      rintro rfl
      exact absurd this (by decide)
  | succ n =>
    refine ⟨' ', _, rfl, by decide⟩

theorem scalingLine_strpr {N : NumberText} (hN : N.Data) (nan : ℝ) {k i : ℕ}
    (hk : k + 1 < 2 ^ 31) (hi : i + 1 < 2 ^ 31) (c : StatContainer) :
    strpr (scalingLine N nan k i c) = some (scalingBody N nan k i c ++ ['\n']) := by
  rw [scalingLine_eq, strpr, if_pos]
  have h1 := fun x => (hN.1 x).2.2
  have h2 : (natText (k + 1)).length ≤ 10 :=
    natText_length (by norm_num) (hk.trans (by norm_num))
  have h3 : (natText (i + 1)).length ≤ 10 :=
    natText_length (by norm_num) (hi.trans (by norm_num))
  have a1 := h1 c.min
  have a2 := h1 c.max
  have a3 := h1 (c.mean nan)
  have a4 := h1 (c.sigma nan)
  simp only [scalingBody, List.length_append, List.length_replicate, length_spaced,
    List.map_cons, List.map_nil, List.sum_cons, List.sum_nil, List.length_singleton]
  omega

theorem scalingHeader_comment : ∃ h, scalingHeader = some h ∧ ∀ l ∈ h, IsCommentLine '#' l := by
  obtain ⟨h, hh⟩ : ∃ h, scalingHeader = some h := ⟨_, rfl⟩
  exact ⟨h, hh, header_comment (by decide) (by decide) (by decide) (by decide)
    ⟨24, by decide, by decide⟩ hh⟩

theorem statisticsLines_comments {hs : List Str} (h : ∀ l ∈ hs, ∃ t, l = '#' :: t) (ls : List Str) :
    statisticsLines (hs ++ ls) = statisticsLines ls := by
  induction hs with
  | nil => rfl
  | cons l hs ih =>
    obtain ⟨t, rfl⟩ := h l (by simp)
    rw [List.cons_append, statisticsLines, ih fun x hx => h x (by simp [hx])]
    cases statisticsLines ls <;> simp

theorem statisticsLines_data {ls : List Str} (h : ∀ l ∈ ls, ∃ a t, l = a :: t ∧ a ≠ '#') :
    statisticsLines ls = some ls := by
  induction ls with
  | nil => rfl
  | cons l ls ih =>
    obtain ⟨a, t, rfl, ha⟩ := h l (by simp)
    rw [statisticsLines, ih fun x hx => h x (by simp [hx])]
    simp [ha]

/-! ### The whole file -/

section
variable (N : NumberText) (nan : ℝ) (cs : ℕ → ℕ → StatContainer)

/-- Lines of one element. -/
noncomputable def elementBodies (k n : ℕ) : List Str :=
  (List.range n).map fun i => scalingBody N nan k i (cs k i)

/-- Lines of elements with numbers from `k`. -/
noncomputable def allBodies : ℕ → List ℕ → List Str
  | _, [] => []
  | k, n :: ns => elementBodies N nan cs k n ++ allBodies (k + 1) ns

theorem writeElement_eq {N : NumberText} (hN : N.Data) {e : ScalingElement}
    (hk : e.index + 1 < 2 ^ 31) (hn : e.numSymmetryFunctions < 2 ^ 31 - 1)
    (hc : ∀ i < e.numSymmetryFunctions, CMap.find? e.statistics i = some (cs e.index i)) :
    writeScalingElement N nan e =
      some ((elementBodies N nan cs e.index e.numSymmetryFunctions).map (· ++ ['\n'])) := by
  unfold writeScalingElement elementBodies
  rw [mapM_eq_map _ (fun i => scalingBody N nan e.index i (cs e.index i) ++ ['\n']), List.map_map]
  · rfl
  · intro i hi
    have hi := List.mem_range.1 hi
    simp only [Option.bind_eq_bind]
    rw [hc i hi]
    simp only [Option.bind_some]
    rw [if_pos ⟨hk, by omega⟩, scalingLine_strpr hN nan hk (by omega)]

theorem writeElements_eq {N : NumberText} (hN : N.Data)
    (el : ℕ → List SymFncScaling → ScalingElement) (h1 : ∀ k f, (el k f).index = k)
    (h2 : ∀ k f, (el k f).numSymmetryFunctions = f.length) :
    ∀ (fs : List (List SymFncScaling)) (k : ℕ), k + fs.length < 2 ^ 31 - 1 →
      (∀ f ∈ fs, f.length < 2 ^ 31 - 1) →
      (∀ (j : ℕ) (f : List SymFncScaling), fs[j]? = some f → ∀ i < f.length,
        CMap.find? (el (k + j) f).statistics i = some (cs (k + j) i)) →
      ∃ ls, (fs.mapIdx fun j f => el (k + j) f).mapM (writeScalingElement N nan) = some ls ∧
        ls.flatten.flatten = (allBodies N nan cs k (fs.map List.length)).flatMap (· ++ ['\n'])
  | [], k, _, _, _ => ⟨[], rfl, rfl⟩
  | f :: fs, k, hk, hn, hc => by
    obtain ⟨ls, e1, e2⟩ := writeElements_eq hN el h1 h2 fs (k + 1)
      (by rw [List.length_cons] at hk; omega) (fun m hm => hn m (by simp [hm])) (by
        intro j m hj i hi
        have := hc (j + 1) m (by simpa using hj) i hi
        rw [show k + 1 + j = k + (j + 1) by omega]
        exact this)
    have e3 := writeElement_eq nan cs hN (e := el k f) (by rw [h1]; omega)
      (by rw [h2]; exact hn f (by simp)) (by
        intro i hi
        rw [h1]
        exact hc 0 f rfl i (by rw [h2] at hi; exact hi))
    refine ⟨(elementBodies N nan cs (el k f).index (el k f).numSymmetryFunctions).map
      (· ++ ['\n']) :: ls, ?_, ?_⟩
    · rw [List.mapIdx_cons, List.mapM_cons]
      have e4 : (fun i => (fun j f => el (k + j) f) (i + 1)) = fun j f => el (k + 1 + j) f := by
        funext j m
        rw [show k + 1 + j = k + (j + 1) by omega]
      rw [e4, e1]
      simp only [Nat.add_zero, e3, Option.bind_eq_bind, Option.bind_some, Option.pure_def]
    · rw [List.flatten_cons, List.flatten_append, e2, h1, h2]
      simp [allBodies, List.flatMap_def]

theorem allBodies_data {N : NumberText} (hN : N.Data) : ∀ (ns : List ℕ) (k : ℕ),
    ∀ l ∈ allBodies N nan cs k ns, '\n' ∉ l ∧ ∃ a t, l = a :: t ∧ a ≠ '#'
  | [], k, l, h => by cases h
  | n :: ns, k, l, h => by
    rcases List.mem_append.1 h with h | h
    · obtain ⟨i, -, rfl⟩ := List.mem_map.1 h
      exact ⟨scalingBody_newline hN nan k i _, scalingBody_first N nan k i _⟩
    · exact allBodies_data hN ns (k + 1) l h

/-- The function with statistics from the file. -/
noncomputable def fromFile (t : ScalingType) (Smin Smax : ℝ) (c : StatContainer)
    (sf : SymFncScaling) : SymFncScaling :=
  { sf with
    scalingType := t
    Gmin := N.rounded c.min, Gmax := N.rounded c.max, Gmean := N.rounded (c.mean nan)
    Gsigma := N.rounded (c.sigma nan), Smin := Smin, Smax := Smax
    scalingFactor := match t with
      | .none => 1
      | .scale => (Smax - Smin) / (N.rounded c.max - N.rounded c.min)
      | .center => 1
      | .scaleCenter => (Smax - Smin) / (N.rounded c.max - N.rounded c.min)
      | .scaleSigma => (Smax - Smin) / N.rounded (c.sigma nan) }

theorem setScalingLine_body {N : NumberText} (hN : N.Data) (t : ScalingType) (Smin Smax : ℝ)
    {k i : ℕ} (hk : k + 1 < 2 ^ 31) (hi : i + 1 < 2 ^ 31) (c : StatContainer) {sf : SymFncScaling}
    (h1 : sf.ec = k) : setScalingLine N t Smin Smax (scalingBody N nan k i c) sf =
      some (fromFile N nan t Smin Smax c sf) := by
  unfold setScalingLine
  rw [scalingBody_words hN]
  have : StatisticsLine.ofWords N [natText (k + 1), natText (i + 1), N.print c.min,
      N.print c.max, N.print (c.mean nan), N.print (c.sigma nan)] =
      some ⟨k + 1, i + 1, N.rounded c.min, N.rounded c.max, N.rounded (c.mean nan),
        some (N.rounded (c.sigma nan))⟩ := by
    unfold StatisticsLine.ofWords
    simp [textSize_natText (show k + 1 < 2 ^ 64 by omega),
      textSize_natText (show i + 1 < 2 ^ 64 by omega), NumberText.rounded]
  rw [this]
  simp only [Option.bind_eq_bind, Option.bind_some]
  unfold setScalingType
  rw [if_neg (by rw [h1]; simp)]
  rfl

theorem setElement_eq {N : NumberText} (hN : N.Data) (t : ScalingType) (Smin Smax : ℝ) {k : ℕ}
    (hk : k + 1 < 2 ^ 31) {f : List SymFncScaling} (hn : f.length < 2 ^ 31 - 1)
    (hf : ∀ sf ∈ f, sf.ec = k) (rest : List Str) :
    setScalingElement N t Smin Smax (elementBodies N nan cs k f.length ++ rest) f =
      some (f.mapIdx fun i sf => fromFile N nan t Smin Smax (cs k i) sf) := by
  unfold setScalingElement
  rw [mapM_eq_map _ (fun p : SymFncScaling × ℕ => fromFile N nan t Smin Smax (cs k p.2) p.1),
    List.mapIdx_eq_zipIdx_map]
  rintro ⟨sf, i⟩ hp
  have hp := List.mem_zipIdx hp
  obtain ⟨-, h2, h3⟩ := hp
  simp only [Nat.zero_add, Nat.sub_zero] at h2 h3
  have : (elementBodies N nan cs k f.length ++ rest)[i]? =
      some (scalingBody N nan k i (cs k i)) := by
    rw [List.getElem?_append_left (by simpa [elementBodies] using h2)]
    simp [elementBodies, h2]
  simp only [Option.bind_eq_bind]
  rw [this]
  simp only [Option.bind_some]
  exact setScalingLine_body nan hN t Smin Smax hk (by omega) _
    (hf sf (by rw [h3]; exact List.getElem_mem _))

theorem setElements_eq {N : NumberText} (hN : N.Data) (t : ScalingType) (Smin Smax : ℝ)
    (rest : List Str) :
    ∀ (fs : List (List SymFncScaling)) (k : ℕ), k + fs.length < 2 ^ 31 - 1 →
      (∀ f ∈ fs, f.length < 2 ^ 31 - 1) →
      (∀ (j : ℕ) (f : List SymFncScaling), fs[j]? = some f → ∀ sf ∈ f, sf.ec = k + j) →
      setScalingElements N t Smin Smax fs (allBodies N nan cs k (fs.map List.length) ++ rest) =
        some (fs.mapIdx fun j f => f.mapIdx fun i sf =>
          fromFile N nan t Smin Smax (cs (k + j) i) sf)
  | [], k, _, _, _ => rfl
  | f :: fs, k, hk, hn, hf => by
    have ih := setElements_eq hN t Smin Smax rest fs (k + 1)
      (by rw [List.length_cons] at hk; omega) (fun m hm => hn m (by simp [hm])) (by
        intro j g hj sf hsf
        have := hf (j + 1) g (by simpa using hj) sf hsf
        omega)
    rw [setScalingElements, List.map_cons, allBodies, List.append_assoc,
      setElement_eq nan cs hN t Smin Smax (k := k) (by omega) (hn f (by simp)) (hf 0 f rfl)]
    simp only [Option.bind_eq_bind, Option.bind_some]
    rw [List.drop_left' (by simp [elementBodies]), ih, List.mapIdx_cons]
    simp only [Option.bind_some, Nat.add_zero]
    have e4 : (fun j (f : List SymFncScaling) => f.mapIdx fun i sf =>
          fromFile N nan t Smin Smax (cs (k + 1 + j) i) sf) =
        fun j f => f.mapIdx fun i sf => fromFile N nan t Smin Smax (cs (k + (j + 1)) i) sf := by
      funext j g
      rw [show k + 1 + j = k + (j + 1) by omega]
    rw [e4]

end

/-! ### Settings -/

theorem has_iff (c : Contents) (kw : String) :
    (c.find? kw.toList).isSome = true ↔ c.Has kw := by
  unfold Contents.find? Contents.Has
  rw [List.find?_isSome]
  simp

theorem exists_single {kw : Str} (h : keyGroup kw = some [kw]) (c : Contents) :
    keywordExists c kw = .ok (c.find? kw).isSome := by
  unfold keywordExists
  rw [h]
  rfl

theorem getValue_single {kw : Str} (h : keyGroup kw = some [kw]) {c : Contents} {e : Entry}
    (he : c.find? kw = some e) : getValue c kw = .ok e.value := by
  unfold getValue keywordCheck
  have h1 : keywordExists c kw false = .ok true := by
    rw [exists_single h, he]; rfl
  have h2 : keywordExists c kw true = .ok true := by
    unfold keywordExists; rw [h, he]; rfl
  rw [h1, h2]
  simp only [he]

theorem scalingTypeOf_selects (c : Contents) : ∃ t, scalingTypeOf c = .ok t ∧ Selects c t := by
  have h1 := exists_single (kw := "scale_symmetry_functions".toList) (by decide +kernel) c
  have h2 := exists_single (kw := "center_symmetry_functions".toList) (by decide +kernel) c
  have h3 := exists_single (kw := "scale_symmetry_functions_sigma".toList) (by decide +kernel) c
  have g1 := has_iff c "scale_symmetry_functions"
  have g2 := has_iff c "center_symmetry_functions"
  have g3 := has_iff c "scale_symmetry_functions_sigma"
  unfold scalingTypeOf
  rw [h1, h2, h3]
  generalize (c.find? "scale_symmetry_functions".toList).isSome = a at g1
  generalize (c.find? "center_symmetry_functions".toList).isSome = b at g2
  generalize (c.find? "scale_symmetry_functions_sigma".toList).isSome = d at g3
  cases a <;> cases b
  · cases d
    · exact ⟨_, rfl, .none (fun h => by simpa using g1.2 h) (fun h => by simpa using g2.2 h)
        (fun h => by simpa using g3.2 h)⟩
    · exact ⟨_, rfl, .sigma (fun h => by simpa using g1.2 h) (fun h => by simpa using g2.2 h)
        (g3.1 rfl)⟩
  · exact ⟨_, rfl, .center (fun h => by simpa using g1.2 h) (g2.1 rfl)⟩
  · exact ⟨_, rfl, .scale (g1.1 rfl) (fun h => by simpa using g2.2 h)⟩
  · exact ⟨_, rfl, .both (g1.1 rfl) (g2.1 rfl)⟩

theorem scalingLimit_ok (N : NumberText) (c : Contents) {kw : String}
    (h : keyGroup kw.toList = some [kw.toList]) (d : ℝ) :
    ∃ x, scalingLimit N c kw.toList d = .ok x ∧ Limit N c kw d x := by
  unfold scalingLimit
  rw [exists_single h]
  cases e : c.find? kw.toList with
  | none =>
    refine ⟨d, rfl, Or.inl ⟨fun hh => ?_, rfl⟩⟩
    have := (has_iff c kw).2 hh
    rw [e] at this
    cases this
  | some y =>
    refine ⟨N.atof y.value, ?_, Or.inr ⟨y, List.mem_of_find?_eq_some e, ?_, rfl⟩⟩
    · simp only [Option.isSome_some, bind, Except.bind, if_true]
      rw [getValue_single h e]
      rfl
    · have := List.find?_some e
      simpa using this

theorem scalingLimits_ok (N : NumberText) (c : Contents) (t : ScalingType) :
    ∃ Smin Smax, scalingLimits N c t = .ok (Smin, Smax) ∧ Limits N c t Smin Smax := by
  obtain ⟨a, ha, ha'⟩ := scalingLimit_ok N c (kw := "scale_min_short") (by decide +kernel) 0
  obtain ⟨b, hb, hb'⟩ := scalingLimit_ok N c (kw := "scale_max_short") (by decide +kernel) 1
  unfold scalingLimits
  cases t
  case none => exact ⟨0, 0, rfl, by simp [Limits]⟩
  case center => exact ⟨0, 0, rfl, by simp [Limits]⟩
  all_goals
    refine ⟨a, b, ?_, by unfold Limits; rw [if_neg (by simp)]; exact ⟨ha', hb'⟩⟩
    simp only [ha, hb, bind, Except.bind, pure, Except.pure]

/-! ### Lines missing or left over -/

theorem mapM_same {α β : Type} {f g : α → Option β} {l : List α} (h : ∀ a ∈ l, f a = g a) :
    l.mapM f = l.mapM g := by
  induction l with
  | nil => rfl
  | cons a t ih =>
    rw [List.mapM_cons, List.mapM_cons, h a (by simp), ih fun x hx => h x (by simp [hx])]

theorem setElement_append {N : NumberText} {t : ScalingType} {Smin Smax : ℝ} {lines : List Str}
    {f r : List SymFncScaling} (h : setScalingElement N t Smin Smax lines f = some r)
    (extra : List Str) :
    f.length ≤ lines.length ∧ setScalingElement N t Smin Smax (lines ++ extra) f = some r := by
  have hlen : f.length ≤ lines.length := by
    by_contra hc
    push Not at hc
    unfold setScalingElement at h
    have hx : (f[lines.length], lines.length) ∈ f.zipIdx := by
      rw [List.mk_mem_zipIdx_iff_getElem?]
      simp [hc]
    rw [mapM_none hx (by simp)] at h
    cases h
  refine ⟨hlen, ?_⟩
  rw [← h]
  unfold setScalingElement
  refine mapM_same fun p hp => ?_
  have hp := List.snd_lt_of_mem_zipIdx hp
  rw [List.getElem?_append_left (by omega)]

theorem setElements_append {N : NumberText} {t : ScalingType} {Smin Smax : ℝ} (extra : List Str) :
    ∀ {fs r : List (List SymFncScaling)} {lines : List Str},
      setScalingElements N t Smin Smax fs lines = some r →
      (fs.map List.length).sum ≤ lines.length ∧
        setScalingElements N t Smin Smax fs (lines ++ extra) = some r
  | [], r, lines, h => ⟨Nat.zero_le _, h⟩
  | f :: fs, r, lines, h => by
    rw [setScalingElements] at h
    simp only [Option.bind_eq_bind, Option.bind_eq_some_iff] at h
    obtain ⟨f', h1, fs', h2, e⟩ := h
    obtain ⟨g1, g2⟩ := setElement_append h1 extra
    obtain ⟨k1, k2⟩ := setElements_append extra h2
    refine ⟨?_, ?_⟩
    · rw [List.map_cons, List.sum_cons]
      rw [List.length_drop] at k1
      omega
    · rw [setScalingElements, g2, List.drop_append_of_le_length g1]
      simp only [Option.bind_eq_bind, Option.bind_some]
      rw [k2]
      exact e

theorem statisticsLines_append {a b la lb : List Str} (ha : statisticsLines a = some la)
    (hb : statisticsLines b = some lb) : statisticsLines (a ++ b) = some (la ++ lb) := by
  induction a generalizing la with
  | nil =>
    rw [statisticsLines] at ha
    obtain rfl := Option.some.inj ha
    exact hb
  | cons l a ih =>
    cases l with
    | nil => rw [statisticsLines] at ha; cases ha
    | cons c t =>
      rw [statisticsLines] at ha
      simp only [Option.bind_eq_bind, Option.bind_eq_some_iff] at ha
      obtain ⟨x, hx, e⟩ := ha
      obtain rfl := Option.some.inj e
      rw [List.cons_append, statisticsLines, ih hx]
      simp only [Option.bind_eq_bind, Option.bind_some]
      split_ifs <;> rfl

theorem statisticsLines_blank {ls : List Str} (h : [] ∈ ls) : statisticsLines ls = none := by
  induction ls with
  | nil => cases h
  | cons l ls ih =>
    cases l with
    | nil => rfl
    | cons c t =>
      rw [statisticsLines, ih (by simpa using h)]
      rfl

end N2P2
