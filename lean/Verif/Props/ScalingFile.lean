import Verif.Lemma.ScalingFile
import Verif.Props.StructureFile
import Verif.Props.WeightFile

/-! C88: statistics of symmetry functions are collected, written, read and used for scaling. -/

namespace N2P2

/-! ### Auxiliary facts -/

theorem fromFile_scaled {N : NumberText} {M nan : ℝ} {vs : List ℝ} {c : StatContainer}
    (h : CollectedFor M vs c) (t : ScalingType) (Smin Smax : ℝ) (sf : SymFncScaling) :
    ScaledFor N M vs t Smin Smax sf (fromFile N nan t Smin Smax c sf) where
  ec := rfl
  index := rfl
  type := rfl
  scalingType := rfl
  Smin := rfl
  Smax := rfl
  range := fun hne hb => ⟨c.min, c.max, h.min hne hb, h.max hne hb, rfl, rfl⟩
  mean := fun hne => by
    show N.rounded (c.mean nan) = _
    rw [h.mean nan hne]
  sigma := fun hl => by
    show N.rounded (c.sigma nan) = _
    rw [h.sigma nan hl]
  scale := fun _ v => by
    cases t
    · rfl
    · show _ + _ / _ * (v - _) = _ + _ * (v - _) / _
      rw [div_mul_eq_mul_div]
      rfl
    · rfl
    · show _ + _ / _ * (v - _) = _ + _ * (v - _) / _
      rw [div_mul_eq_mul_div]
      rfl
    · show _ + _ / _ * (v - _) = _ + _ * (v - _) / _
      rw [div_mul_eq_mul_div]
      rfl

theorem listMean_affine {vs : List ℝ} (hne : vs ≠ []) (a b m : ℝ) :
    listMean (vs.map fun v => a + b * (v - m)) = a + b * (listMean vs - m) := by
  have hl : (vs.length : ℝ) ≠ 0 := by
    have : vs.length ≠ 0 := by simpa using hne
    exact_mod_cast this
  have hs : (vs.map fun v => a + b * (v - m)).sum = vs.length * (a - b * m) + b * vs.sum := by
    clear hne hl
    induction vs with
    | nil => simp
    | cons v vs ih =>
      simp only [List.map_cons, List.sum_cons, ih, List.length_cons]
      push_cast
      ring
  unfold listMean
  rw [hs, List.length_map]
  field_simp
  ring

theorem listSigma_affine {vs : List ℝ} (hne : vs ≠ []) (a : ℝ) {b : ℝ} (hb : 0 ≤ b) (m : ℝ) :
    listSigma (vs.map fun v => a + b * (v - m)) = b * listSigma vs := by
  unfold listSigma
  rw [listMean_affine hne, List.map_map, List.length_map]
  have : (vs.map ((fun v => (v - (a + b * (listMean vs - m))) ^ 2) ∘ fun v => a + b * (v - m))) =
      vs.map fun v => b ^ 2 * (v - listMean vs) ^ 2 := by
    refine List.map_congr_left fun v _ => ?_
    simp only [Function.comp]
    ring
  rw [this, List.sum_map_mul_left, mul_div_assoc, Real.sqrt_mul (sq_nonneg b), Real.sqrt_sq hb]

theorem listSigma_pos {vs : List ℝ} {a b : ℝ} (ha : a ∈ vs) (hb : b ∈ vs) (hab : a ≠ b) :
    2 ≤ vs.length ∧ 0 < listSigma vs := by
  have hl : 2 ≤ vs.length := by
    by_contra hc
    push Not at hc
    match vs, hc with
    | [], _ => cases ha
    | [x], _ =>
      rw [List.mem_singleton] at ha hb
      exact hab (ha.trans hb.symm)
  refine ⟨hl, Real.sqrt_pos.2 (div_pos ?_ ?_)⟩
  · have hnn : ∀ x ∈ vs.map fun v => (v - listMean vs) ^ 2, 0 ≤ x := by
      intro x hx
      obtain ⟨v, -, rfl⟩ := List.mem_map.1 hx
      exact sq_nonneg _
    refine lt_of_le_of_ne (List.sum_nonneg hnn) fun h0 => ?_
    have hz := fun v (hv : v ∈ vs) => List.all_zero_of_le_zero_le_of_sum_eq_zero hnn h0.symm
      (List.mem_map.2 ⟨v, hv, rfl⟩)
    have h1 : a - listMean vs = 0 := by simpa using hz a ha
    have h2 : b - listMean vs = 0 := by simpa using hz b hb
    exact hab (by linarith)
  · have : (2 : ℝ) ≤ vs.length := by exact_mod_cast hl
    linarith

theorem least_affine {vs : List ℝ} {lo : ℝ} (h : IsLeast {v | v ∈ vs} lo) (a : ℝ) {b : ℝ}
    (hb : 0 ≤ b) (m : ℝ) :
    IsLeast {v | v ∈ vs.map fun v => a + b * (v - m)} (a + b * (lo - m)) := by
  refine ⟨List.mem_map.2 ⟨lo, h.1, rfl⟩, ?_⟩
  intro x hx
  obtain ⟨v, hv, rfl⟩ := List.mem_map.1 hx
  have := mul_le_mul_of_nonneg_left (h.2 hv) hb
  linarith

theorem greatest_affine {vs : List ℝ} {hi : ℝ} (h : IsGreatest {v | v ∈ vs} hi) (a : ℝ) {b : ℝ}
    (hb : 0 ≤ b) (m : ℝ) :
    IsGreatest {v | v ∈ vs.map fun v => a + b * (v - m)} (a + b * (hi - m)) := by
  refine ⟨List.mem_map.2 ⟨hi, h.1, rfl⟩, ?_⟩
  intro x hx
  obtain ⟨v, hv, rfl⟩ := List.mem_map.1 hx
  have := mul_le_mul_of_nonneg_left (h.2 hv) hb
  linarith

/-! ### C88 -/

/-- C88: for every data set distributed in any way over processes, the tool writes a file, and with
this file a program with the same symmetry functions sets up the scaling selected in its settings, for
every function with the minimum, maximum, mean and standard deviation of its values in the whole data
set. -/
theorem C88_file {N : NumberText} (hN : N.Data) (nan dblMax eps : ℝ)
    {fs fs' : List (List SymFncScaling)} (hfs : InOrder fs) (hfs' : InOrder fs')
    (hsame : fs'.map List.length = fs.map List.length) (hfew : FewFunctions fs)
    {data : List (ℕ → List StatAtom)} (hd : GoodData fs data) (c : Contents) :
    ∃ text t Smin Smax fs'', scalingTool dblMax eps N nan fs data = some text ∧
      Selects c t ∧ Limits N c t Smin Smax ∧ setupScaling N c (some text) fs' = some fs'' ∧
      fs''.map List.length = fs'.map List.length ∧
      ∀ (k i : ℕ) (f' f'' : List SymFncScaling) (sf' sf'' : SymFncScaling),
        fs'[k]? = some f' → fs''[k]? = some f'' → f'[i]? = some sf' → f''[i]? = some sf'' →
        ScaledFor N dblMax (dataValues data k i) t Smin Smax sf' sf'' := by
  classical
  obtain ⟨hne, hd⟩ := hd
  obtain ⟨hf1, hf2⟩ := hfew
  let stat : ℕ → List SymFncScaling → (ℕ → List StatAtom) → StatData := fun k f atoms =>
    statRun dblMax eps ⟨k, [], f, ⟨true, false, false⟩⟩ ((atoms k).map .update)
  let cs : ℕ → ℕ → StatContainer := fun k i =>
    collected dblMax (data.map (stat k (fs.getD k []))) ((data.map (stat k (fs.getD k []))).headD []) i
  let el : ℕ → List SymFncScaling → ScalingElement := fun k f =>
    ⟨k, f.length, StatData.collect dblMax f.length (data.map (stat k f))
      ((data.map (stat k f)).headD [])⟩
  obtain ⟨header, hh, hc⟩ := scalingHeader_comment
  obtain ⟨hs, e, hb⟩ := header_bodies hc
  obtain ⟨ls, e1, e2⟩ := writeElements_eq nan cs hN el (fun _ _ => rfl) (fun _ _ => rfl) fs 0
    (by omega) hf2 (by
      intro j f hj i hi
      rw [Nat.zero_add]
      show CMap.find? (StatData.collect dblMax f.length (data.map (stat j f)) _) i = _
      rw [collect_find _ _ _ _ hi]
      have : fs.getD j [] = f := by rw [List.getD_eq_getElem?_getD, hj]; rfl
      simp only [cs, this])
  have htool : scalingTool dblMax eps N nan fs data = some (header.flatten ++
      (allBodies N nan cs 0 (fs.map List.length)).flatMap (· ++ ['\n'])) := by
    unfold scalingTool writeScaling
    rw [hh]
    simp only [Option.bind_eq_bind, Option.bind_some]
    have e3 : (fs.mapIdx fun k f => (⟨k, f.length, StatData.collect dblMax f.length
        (data.map fun atoms => statRun dblMax eps ⟨k, [], f, ⟨true, false, false⟩⟩
          ((atoms k).map .update))
        ((data.map fun atoms => statRun dblMax eps ⟨k, [], f, ⟨true, false, false⟩⟩
          ((atoms k).map .update)).headD [])⟩ : ScalingElement)) =
        fs.mapIdx fun j f => el (0 + j) f := by
      simp only [Nat.zero_add]
      rfl
    rw [e3, e1]
    simp only [Option.bind_some]
    rw [e2]
  obtain ⟨t, ht, ht'⟩ := scalingTypeOf_selects c
  obtain ⟨Smin, Smax, hS, hS'⟩ := scalingLimits_ok N c t
  have hlen : fs'.length = fs.length := by simpa using congrArg List.length hsame
  have hf2' : ∀ f ∈ fs', f.length < 2 ^ 31 - 1 := by
    intro f hf
    have : f.length ∈ fs.map List.length := by
      rw [← hsame]; exact List.mem_map.2 ⟨f, hf, rfl⟩
    obtain ⟨g, hg, e⟩ := List.mem_map.1 this
    rw [← e]
    exact hf2 g hg
  have hset := setElements_eq nan cs hN t Smin Smax [] fs' 0 (by rw [hlen]; omega) hf2' (by
    intro j f hj sf hsf
    obtain ⟨i, hi⟩ := List.mem_iff_getElem?.1 hsf
    rw [Nat.zero_add]
    exact (hfs' j f hj i sf hi).1)
  rw [List.append_nil, hsame] at hset
  refine ⟨_, t, Smin, Smax, fs'.mapIdx fun j f => f.mapIdx fun i sf =>
    fromFile N nan t Smin Smax (cs (0 + j) i) sf, htool, ht', hS', ?_, ?_, ?_⟩
  · unfold setupScaling
    rw [ht]
    simp only [okOption, Option.bind_eq_bind, Option.bind_some]
    rw [hS]
    simp only [Option.bind_some]
    rw [e, readLines_append hs (fun l h => (hb l h).1),
      readLines_write _ fun l hl => (allBodies_data nan cs hN _ 0 l hl).1,
      statisticsLines_comments fun l h => (hb l h).2,
      statisticsLines_data fun l hl => (allBodies_data nan cs hN _ 0 l hl).2]
    simp only [Option.bind_some]
    exact hset
  · refine List.ext_getElem? fun j => ?_
    rw [List.getElem?_map, List.getElem?_map, List.getElem?_mapIdx]
    cases fs'[j]? <;> simp
  · intro k i f' f'' sf' sf'' h1 h2 h3 h4
    rw [List.getElem?_mapIdx, h1] at h2
    obtain rfl := Option.some.inj h2
    rw [List.getElem?_mapIdx, h3] at h4
    obtain rfl := Option.some.inj h4
    rw [Nat.zero_add]
    refine fromFile_scaled ?_ t Smin Smax sf'
    have hk : k < fs.length := by
      rw [← hlen]; exact (List.getElem?_eq_some_iff.1 h1).1
    have hfk : fs[k]? = some (fs.getD k []) := by
      rw [List.getD_eq_getElem?_getD, List.getElem?_eq_getElem hk]; rfl
    have hi : i < (fs.getD k []).length := by
      have hi' := (List.getElem?_eq_some_iff.1 h3).1
      have e5 : (fs'.map List.length)[k]? = (fs.map List.length)[k]? := by rw [hsame]
      rw [List.getElem?_map, List.getElem?_map, h1, hfk] at e5
      have := Option.some.inj e5
      omega
    refine collected_values hne (stat k (fs.getD k [])) (fun atoms => (atoms k).map fun a =>
      a.G.getD i 0) i fun atoms ha => ?_
    exact process_values dblMax eps (fun j sf hj => (hfs k _ hfk j sf hj).2)
      (fun a h => hd atoms ha k _ hfk a h) hi

/-- C88: as above, and the scaled values of the data set have the range, mean or standard deviation
asked for in the settings. -/
theorem C88_data {N : NumberText} (hN : N.Data) (nan dblMax eps : ℝ)
    {fs fs' : List (List SymFncScaling)} (hfs : InOrder fs) (hfs' : InOrder fs')
    (hsame : fs'.map List.length = fs.map List.length) (hfew : FewFunctions fs)
    {data : List (ℕ → List StatAtom)} (hd : GoodData fs data) (c : Contents) :
    ∃ text t Smin Smax fs'', scalingTool dblMax eps N nan fs data = some text ∧
      Selects c t ∧ Limits N c t Smin Smax ∧ setupScaling N c (some text) fs' = some fs'' ∧
      ∀ (k i : ℕ) (f'' : List SymFncScaling) (sf'' : SymFncScaling),
        fs''[k]? = some f'' → f''[i]? = some sf'' →
        (t ≠ .none ∧ t ≠ .center → Smin < Smax) →
        (∃ a ∈ dataValues data k i, ∃ b ∈ dataValues data k i, a ≠ b) →
        (∀ v ∈ dataValues data k i, |v| ≤ dblMax) → N.ExactFor (dataValues data k i) →
        ScaledAs t Smin Smax (dataValues data k i) ((dataValues data k i).map sf''.scale) := by
  obtain ⟨text, t, Smin, Smax, fs'', h1, h2, h3, h4, h5, h6⟩ :=
    C88_file hN nan dblMax eps hfs hfs' hsame hfew hd c
  refine ⟨text, t, Smin, Smax, fs'', h1, h2, h3, h4, ?_⟩
  intro k i f'' sf'' hk hi hS hab hb hex
  obtain ⟨f', hk', hl⟩ : ∃ f', fs'[k]? = some f' ∧ f''.length = f'.length := by
    have e5 : (fs''.map List.length)[k]? = (fs'.map List.length)[k]? := by rw [h5]
    rw [List.getElem?_map, List.getElem?_map, hk] at e5
    cases e : fs'[k]? with
    | none => rw [e] at e5; cases e5
    | some f' => rw [e] at e5; exact ⟨f', rfl, Option.some.inj e5⟩
  have hi' : i < f'.length := by
    rw [← hl]; exact (List.getElem?_eq_some_iff.1 hi).1
  have hsc := h6 k i f' f'' f'[i] sf'' hk' hk (List.getElem?_eq_getElem hi') hi
  clear h6
  generalize dataValues data k i = vs at *
  obtain ⟨a, ha, b, hb', hab⟩ := hab
  obtain ⟨hlen, hsig⟩ := listSigma_pos ha hb' hab
  have hne : vs ≠ [] := by rintro rfl; cases ha
  obtain ⟨lo, hi, hlo, hhi, e1, e2⟩ := hsc.range hne hb
  have e3 := hsc.mean hne
  have e4 := hsc.sigma hlen
  have hlt : lo < hi := by
    rcases lt_or_gt_of_ne hab with h | h
    · exact lt_of_le_of_lt (hlo.2 ha) (lt_of_lt_of_le h (hhi.2 hb'))
    · exact lt_of_le_of_lt (hlo.2 hb') (lt_of_lt_of_le h (hhi.2 ha))
  have x1 : N.rounded lo = lo := hex.1 lo hlo.1
  have x2 : N.rounded hi = hi := hex.1 hi hhi.1
  have x3 : N.rounded (listMean vs) = listMean vs := hex.2.1
  have x4 : N.rounded (listSigma vs) = listSigma vs := hex.2.2
  rw [x1] at e1
  rw [x2] at e2
  rw [x3] at e3
  rw [x4] at e4
  have hscale := hsc.scale (by
    rw [e1, e2, e4]
    exact ⟨fun _ => hlt.ne, fun _ => hsig.ne'⟩)
  rw [e1, e2, e3, e4, hsc.Smin, hsc.Smax] at hscale
  have hdiff : 0 < hi - lo := by linarith
  cases t with
  | none =>
    show _ = vs
    conv_rhs => rw [← List.map_id vs]
    exact List.map_congr_left fun v _ => hscale v
  | scale =>
    have hS := hS (by simp)
    have hb0 : 0 ≤ (Smax - Smin) / (hi - lo) := (div_pos (by linarith) hdiff).le
    have : vs.map sf''.scale = vs.map fun v => Smin + (Smax - Smin) / (hi - lo) * (v - lo) :=
      List.map_congr_left fun v _ => by rw [hscale v, scaledValue, div_mul_eq_mul_div]
    rw [this]
    refine ⟨?_, ?_⟩
    · have := least_affine hlo Smin hb0 lo
      simpa using this
    · have := greatest_affine hhi Smin hb0 lo
      rw [div_mul_cancel₀ _ hdiff.ne'] at this
      simpa using this
  | center =>
    have : vs.map sf''.scale = vs.map fun v => 0 + 1 * (v - listMean vs) :=
      List.map_congr_left fun v _ => by rw [hscale v, scaledValue]; ring
    rw [this]
    refine ⟨?_, ?_⟩
    · rw [listMean_affine hne]; ring
    · rw [listSigma_affine hne 0 zero_le_one, one_mul]
  | scaleCenter =>
    have hS := hS (by simp)
    have hb0 : 0 ≤ (Smax - Smin) / (hi - lo) := (div_pos (by linarith) hdiff).le
    have : vs.map sf''.scale =
        vs.map fun v => Smin + (Smax - Smin) / (hi - lo) * (v - listMean vs) :=
      List.map_congr_left fun v _ => by rw [hscale v, scaledValue, div_mul_eq_mul_div]
    rw [this]
    refine ⟨?_, _, _, least_affine hlo Smin hb0 (listMean vs),
      greatest_affine hhi Smin hb0 (listMean vs), ?_⟩
    · rw [listMean_affine hne]; ring
    · field_simp
      ring
  | scaleSigma =>
    have hS := hS (by simp)
    have hb0 : 0 ≤ (Smax - Smin) / listSigma vs := (div_pos (by linarith) hsig).le
    have : vs.map sf''.scale =
        vs.map fun v => Smin + (Smax - Smin) / listSigma vs * (v - listMean vs) :=
      List.map_congr_left fun v _ => by rw [hscale v, scaledValue, div_mul_eq_mul_div]
    rw [this]
    refine ⟨?_, ?_⟩
    · rw [listMean_affine hne]; ring
    · rw [listSigma_affine hne Smin hb0, div_mul_cancel₀ _ hsig.ne']

/-- One element with one symmetry function. -/
noncomputable def exScalingFunctions : List (List SymFncScaling) :=
  [[⟨0, 0, 2, .none, 0, 0, 0, 0, 0, 0, 1⟩]]

/-- Two atoms on the first process, one on the second. -/
noncomputable def exScalingData : List (ℕ → List StatAtom) :=
  [fun k => if k = 0 then [⟨0, 1, 0, 1, [0]⟩, ⟨0, 1, 0, 2, [6]⟩] else [],
    fun k => if k = 0 then [⟨0, 1, 1, 1, [3]⟩] else []]

theorem exScaling_inOrder : InOrder exScalingFunctions := by
  intro k f hk i sf hi
  match k, hk with
  | 0, hk =>
    obtain rfl := Option.some.inj hk
    match i, hi with
    | 0, hi =>
      obtain rfl := Option.some.inj hi
      exact ⟨rfl, rfl⟩
    | i + 1, hi => simp at hi
  | k + 1, hk => simp [exScalingFunctions] at hk

theorem exScaling_data : GoodData exScalingFunctions exScalingData := by
  refine ⟨by simp [exScalingData], ?_⟩
  intro atoms ha k f hk a hm
  match k, hk with
  | 0, hk =>
    obtain rfl := Option.some.inj hk
    simp only [exScalingData, List.mem_cons, List.not_mem_nil, or_false] at ha
    rcases ha with rfl | rfl
    · simp only [if_true, List.mem_cons, List.not_mem_nil, or_false] at hm
      rcases hm with rfl | rfl <;> simp
    · simp only [if_true, List.mem_cons, List.not_mem_nil, or_false] at hm
      subst hm
      simp
  | k + 1, hk => simp [exScalingFunctions] at hk

theorem exScaling_values : dataValues exScalingData 0 0 = [0, 6, 3] := by
  simp [dataValues, exScalingData]

example : ∃ text sf, scalingTool 100 0 exText 0 exScalingFunctions exScalingData = some text ∧
    setupScaling exText [⟨"scale_symmetry_functions".toList, [], 0⟩] (some text)
      exScalingFunctions = some [[sf]] ∧
    IsLeast {v | v ∈ [sf.scale 0, sf.scale 6, sf.scale 3]} 0 ∧
    IsGreatest {v | v ∈ [sf.scale 0, sf.scale 6, sf.scale 3]} 1 := by
  obtain ⟨text, t, Smin, Smax, fs'', h1, h2, h3, h4, h5⟩ := C88_data exText_data 0 100 0
    exScaling_inOrder exScaling_inOrder rfl ⟨by decide, by simp [exScalingFunctions]⟩ exScaling_data
    [⟨"scale_symmetry_functions".toList, [], 0⟩]
  obtain ⟨text', t', Smin', Smax', fs3, k1, k2, k3, k4, k5, -⟩ := C88_file exText_data 0 100 0
    exScaling_inOrder exScaling_inOrder rfl ⟨by decide, by simp [exScalingFunctions]⟩ exScaling_data
    [⟨"scale_symmetry_functions".toList, [], 0⟩]
  rw [h1] at k1
  obtain rfl := Option.some.inj k1
  rw [h4] at k4
  obtain rfl := Option.some.inj k4
  obtain ⟨sf, rfl⟩ : ∃ sf, fs'' = [[sf]] := by
    match fs'', k5 with
    | [[sf]], _ => exact ⟨sf, rfl⟩
    | [[]], h => simp [exScalingFunctions] at h
    | [], h => simp [exScalingFunctions] at h
    | [_ :: _ :: _], h => simp [exScalingFunctions] at h
    | _ :: _ :: _, h => simp [exScalingFunctions] at h
  have ht : t = .scale := by
    cases h2 with
    | scale _ _ => rfl
    | center h _ => exact absurd ⟨_, List.mem_singleton.2 rfl, rfl⟩ h
    | both _ h =>
      obtain ⟨e, he, hk⟩ := h
      rw [List.mem_singleton.1 he] at hk
      exact absurd hk (by decide)
    | sigma h _ _ => exact absurd ⟨_, List.mem_singleton.2 rfl, rfl⟩ h
    | none h _ _ => exact absurd ⟨_, List.mem_singleton.2 rfl, rfl⟩ h
  subst ht
  unfold Limits at h3
  rw [if_neg (by simp)] at h3
  have hS : Smin = 0 ∧ Smax = 1 := by
    refine ⟨?_, ?_⟩
    · rcases h3.1 with ⟨-, h⟩ | ⟨e, he, hk, -⟩
      · exact h
      · rw [List.mem_singleton.1 he] at hk
        exact absurd hk (by decide)
    · rcases h3.2 with ⟨-, h⟩ | ⟨e, he, hk, -⟩
      · exact h
      · rw [List.mem_singleton.1 he] at hk
        exact absurd hk (by decide)
  obtain ⟨rfl, rfl⟩ := hS
  have := h5 0 0 [sf] sf rfl rfl (fun _ => zero_lt_one)
    (by rw [exScaling_values]; exact ⟨0, by simp, 6, by simp, by norm_num⟩)
    (by
      rw [exScaling_values]
      intro v hv
      simp only [List.mem_cons, List.not_mem_nil, or_false] at hv
      rcases hv with rfl | rfl | rfl <;> norm_num [abs_le])
    (by
      rw [exScaling_values]
      have r0 := exText_rounded 0 (by norm_num)
      have r3 := exText_rounded 3 (by norm_num)
      have r6 := exText_rounded 6 (by norm_num)
      have hm : listMean [0, 6, 3] = 3 := by norm_num [listMean]
      have hs : listSigma [0, 6, 3] = 3 := by
        unfold listSigma
        rw [hm]
        have : (([0, 6, 3] : List ℝ).map fun v => (v - 3) ^ 2).sum /
            ((([0, 6, 3] : List ℝ).length : ℝ) - 1) = (3 : ℝ) ^ 2 := by norm_num
        rw [this, Real.sqrt_sq (by norm_num)]
      refine ⟨?_, ?_, ?_⟩
      · intro v hv
        simp only [List.mem_cons, List.not_mem_nil, or_false] at hv
        rcases hv with rfl | rfl | rfl
        · simpa [NumberText.Exact] using r0
        · simpa [NumberText.Exact] using r6
        · simpa [NumberText.Exact] using r3
      · rw [hm]; simpa [NumberText.Exact] using r3
      · rw [hs]; simpa [NumberText.Exact] using r3)
  rw [exScaling_values] at this
  exact ⟨text, sf, h1, h4, this⟩

/-- C88: a file with fewer data lines than symmetry functions is refused. -/
theorem C88_lines_needed (N : NumberText) (c : Contents) (text : Str)
    (fs : List (List SymFncScaling))
    (h : ((readLines text).filter fun l => l.head? ≠ some '#').length <
      (fs.map List.length).sum) : setupScaling N c (some text) fs = none := by
  by_contra hc
  obtain ⟨r, hr⟩ := Option.ne_none_iff_exists'.1 hc
  unfold setupScaling at hr
  simp only [Option.bind_eq_bind, Option.bind_some, Option.bind_eq_some_iff] at hr
  obtain ⟨t, -, S, -, lines, hl, hs⟩ := hr
  have h1 := (setElements_append [] hs).1
  have h2 : ∀ (ls r : List Str), statisticsLines ls = some r →
      r = ls.filter fun l => l.head? ≠ some '#' := by
    intro ls
    induction ls with
    | nil =>
      intro r hr
      exact (Option.some.inj hr).symm
    | cons l ls ih =>
      intro r hr
      cases l with
      | nil => cases hr
      | cons a t =>
        rw [statisticsLines] at hr
        simp only [Option.bind_eq_bind, Option.bind_eq_some_iff] at hr
        obtain ⟨x, hx, e⟩ := hr
        obtain rfl := Option.some.inj e
        rw [List.filter_cons, ← ih x hx]
        by_cases ha : a = '#' <;> simp [ha]
  rw [h2 _ _ hl] at h1
  omega

example : setupScaling exText [] (some "# only a comment\n".toList) exScalingFunctions = none :=
  C88_lines_needed _ _ _ _ (by decide +kernel)

/-- C88 (disagreement): the number of the element in a line is not checked. Statistics of any other
element are accepted. -/
theorem C88_element_not_checked (N : NumberText) (t : ScalingType) (Smin Smax : ℝ)
    (sf : SymFncScaling) (h : sf.index + 1 < 2 ^ 31) (e lo hi mean sigma : Str) (line : Str)
    (hw : split (reduce line) = [e, natText (sf.index + 1), lo, hi, mean, sigma]) :
    ∃ sf', setScalingLine N t Smin Smax line sf = some sf' ∧ sf'.Gmin = N.atof lo ∧
      sf'.Gmax = N.atof hi ∧ sf'.Gmean = N.atof mean ∧ sf'.Gsigma = N.atof sigma := by
  unfold setScalingLine
  rw [hw]
  simp only [StatisticsLine.ofWords, List.getElem?_cons_zero, List.getElem?_cons_succ,
    Option.bind_eq_bind, Option.bind_some, Option.map_some]
  unfold setScalingType
  rw [if_neg (by rw [textSize_natText (by omega)]; simp)]
  exact ⟨_, rfl, rfl, rfl, rfl, rfl⟩

/-- C88 (disagreement): if the number of the element is right, the number of the function is not
checked. -/
theorem C88_function_not_checked (N : NumberText) (t : ScalingType) (Smin Smax : ℝ)
    (sf : SymFncScaling) (h : sf.ec + 1 < 2 ^ 31) (i lo hi mean sigma : Str) (line : Str)
    (hw : split (reduce line) = [natText (sf.ec + 1), i, lo, hi, mean, sigma]) :
    ∃ sf', setScalingLine N t Smin Smax line sf = some sf' ∧ sf'.Gmin = N.atof lo ∧
      sf'.Gmax = N.atof hi ∧ sf'.Gmean = N.atof mean ∧ sf'.Gsigma = N.atof sigma := by
  unfold setScalingLine
  rw [hw]
  simp only [StatisticsLine.ofWords, List.getElem?_cons_zero, List.getElem?_cons_succ,
    Option.bind_eq_bind, Option.bind_some, Option.map_some]
  unfold setScalingType
  rw [if_neg (by rw [textSize_natText (by omega)]; simp)]
  exact ⟨_, rfl, rfl, rfl, rfl, rfl⟩

example : ∃ sf', setScalingLine exText .scale 0 1 "   7   1  2 5 3 1".toList
    ⟨0, 0, 2, .none, 0, 0, 0, 0, 0, 0, 1⟩ = some sf' ∧ sf'.Gmin = exText.atof "2".toList := by
  obtain ⟨sf', h, h1, -⟩ := C88_element_not_checked exText .scale 0 1
    ⟨0, 0, 2, .none, 0, 0, 0, 0, 0, 0, 1⟩ (by norm_num) "7".toList "2".toList "5".toList "3".toList
    "1".toList "   7   1  2 5 3 1".toList (by decide +kernel)
  exact ⟨sf', h, h1⟩

/-- C88: a line whose numbers are both wrong is refused. -/
theorem C88_both_wrong (N : NumberText) (t : ScalingType) (Smin Smax : ℝ)
    (sf : SymFncScaling) (k i : ℕ) (hk : k < 2 ^ 31) (hi : i < 2 ^ 31) (h1 : k ≠ sf.ec + 1)
    (h2 : i ≠ sf.index + 1) (rest : List Str) (line : Str)
    (hw : split (reduce line) = natText k :: natText i :: rest) :
    setScalingLine N t Smin Smax line sf = none := by
  by_contra hc
  obtain ⟨r, hr⟩ := Option.ne_none_iff_exists'.1 hc
  unfold setScalingLine at hr
  rw [hw] at hr
  simp only [StatisticsLine.ofWords, List.getElem?_cons_zero, List.getElem?_cons_succ,
    Option.bind_eq_bind, Option.bind_some, Option.bind_eq_some_iff] at hr
  obtain ⟨l, ⟨w2, -, w3, -, w4, -, e⟩, hs⟩ := hr
  obtain rfl := Option.some.inj e
  unfold setScalingType at hs
  rw [if_pos (by
    simp only
    rw [textSize_natText (by omega), textSize_natText (by omega)]
    exact ⟨h1, h2⟩)] at hs
  cases hs

example : setScalingLine exText .scale 0 1 "   7   3  2 5 3 1".toList
    ⟨0, 0, 2, .none, 0, 0, 0, 0, 0, 0, 1⟩ = none :=
  C88_both_wrong exText .scale 0 1 ⟨0, 0, 2, .none, 0, 0, 0, 0, 0, 0, 1⟩ 7 3 (by norm_num)
    (by norm_num) (by decide) (by decide) ["2".toList, "5".toList, "3".toList, "1".toList] _
    (by decide +kernel)

/-- C88 (disagreement): an empty line anywhere in the file, also at its end, makes the setup fail. -/
theorem C88_empty_line (N : NumberText) (c : Contents) (text : Str) (fs : List (List SymFncScaling))
    (h : [] ∈ readLines text) : setupScaling N c (some text) fs = none := by
  unfold setupScaling
  simp only [Option.bind_eq_bind, Option.bind_some]
  rw [statisticsLines_blank h]
  cases okOption (scalingTypeOf c) with
  | none => rfl
  | some t =>
    simp only [Option.bind_some]
    cases okOption (scalingLimits N c t) <;> rfl

example : setupScaling exText [] (some " 1 1 2 5 3 1\n\n".toList) exScalingFunctions = none :=
  C88_empty_line _ _ _ _ (by decide +kernel)

/-- C88 (disagreement): lines after those needed are ignored, whatever they contain. -/
theorem C88_surplus_ignored (N : NumberText) (c : Contents) (ls ms : List Str)
    (hl : ∀ l ∈ ls, '\n' ∉ l) (hm : ∀ l ∈ ms, '\n' ∉ l ∧ l ≠ [])
    (fs r : List (List SymFncScaling))
    (h : setupScaling N c (some (ls.flatMap (· ++ ['\n']))) fs = some r) :
    setupScaling N c (some (ls.flatMap (· ++ ['\n']) ++ ms.flatMap (· ++ ['\n']))) fs = some r := by
  unfold setupScaling at h ⊢
  simp only [Option.bind_eq_bind, Option.bind_some, Option.bind_eq_some_iff] at h ⊢
  obtain ⟨t, ht, S, hS, lines, h1, h2⟩ := h
  rw [readLines_write ls hl] at h1
  have h3 : ∃ extra, statisticsLines ms = some extra := by
    clear h1 h2 hl
    induction ms with
    | nil => exact ⟨[], rfl⟩
    | cons l ms ih =>
      obtain ⟨x, hx⟩ := ih fun y hy => hm y (by simp [hy])
      cases l with
      | nil => exact absurd rfl (hm [] (by simp)).2
      | cons a t =>
        rw [statisticsLines, hx]
        exact ⟨_, rfl⟩
  obtain ⟨extra, h3⟩ := h3
  refine ⟨t, ht, S, hS, lines ++ extra, ?_, (setElements_append extra h2).2⟩
  rw [readLines_append ls hl, readLines_write ms fun l h => (hm l h).1]
  exact statisticsLines_append h1 h3

example : ∃ r, setupScaling exText [] (some " 1 1 2 5 3 1\n".toList) exScalingFunctions = some r ∧
    setupScaling exText [] (some " 1 1 2 5 3 1\n 9 9 junk\n".toList) exScalingFunctions = some r := by
  obtain ⟨sf', h, -⟩ := C88_element_not_checked exText .none 0 0
    ⟨0, 0, 2, .none, 0, 0, 0, 0, 0, 0, 1⟩ (by norm_num) "1".toList "2".toList "5".toList "3".toList
    "1".toList " 1 1 2 5 3 1".toList (by decide +kernel)
  have h0 : setupScaling exText [] (some ([" 1 1 2 5 3 1".toList].flatMap (· ++ ['\n'])))
      exScalingFunctions = some [[sf']] := by
    unfold setupScaling
    have e1 : scalingTypeOf [] = .ok .none := by rfl
    rw [e1]
    simp only [okOption, Option.bind_eq_bind, Option.bind_some]
    rw [readLines_write [" 1 1 2 5 3 1".toList] (by decide)]
    have e2 : statisticsLines [" 1 1 2 5 3 1".toList] = some [" 1 1 2 5 3 1".toList] := by
      decide +kernel
    have e3 : scalingLimits exText [] .none = .ok (0, 0) := rfl
    rw [e2, e3]
    simp only [Option.bind_some, exScalingFunctions, setScalingElements, setScalingElement,
      List.zipIdx_cons, List.zipIdx_nil, List.mapM_cons, List.mapM_nil, List.getElem?_cons_zero,
      Option.bind_eq_bind, h, Option.pure_def]
  refine ⟨_, h0, ?_⟩
  exact C88_surplus_ignored exText [] [" 1 1 2 5 3 1".toList] [" 9 9 junk".toList] (by decide)
    (by decide) _ _ h0

end N2P2
