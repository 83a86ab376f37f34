import Verif.Spec.Sensitivity
import Verif.Lemma.Histogram
import Verif.Lemma.Dataset
import Verif.Lemma.Settings
import Verif.Lemma.CurveFile
import Verif.Lemma.ScalingFile

namespace N2P2

/-- Derivatives of the atoms of element `k`. -/
def listSens (as : List Atom) (k j : ℕ) : List ℝ :=
  (as.filter fun a => a.element = k).map fun a => a.dEdG.getD j 0

theorem sensAtoms_eq (ns : List ℕ) (as : List Atom) : ∀ st : ℕ → Sens,
    (∀ a ∈ as, ∃ n, ns[a.element]? = some n ∧ n ≤ a.dEdG.length) →
    ∃ st', as.foldlM (sensAtom ns) st = some st' ∧
      ∀ k n, ns[k]? = some n → (st' k).count = (st k).count + (as.filter fun a => a.element = k).length ∧
        ∀ j < n, (st' k).mean j = (st k).mean j + ((listSens as k j).map fun v => v ^ 2).sum ∧
          (st' k).max j = ((listSens as k j).map fun v => |v|).foldl max ((st k).max j) := by
  induction as with
  | nil =>
    intro st _
    exact ⟨st, rfl, fun k n _ => ⟨by simp, fun j _ => by simp [listSens]⟩⟩
  | cons a as ih =>
    intro st h
    obtain ⟨n, hn, hl⟩ := h a (by simp)
    have e1 : sensAtom ns st a = some (Function.update st a.element
        ⟨(st a.element).count + 1, fun i => if i < n then (st a.element).mean i +
            a.dEdG.getD i 0 * a.dEdG.getD i 0 else (st a.element).mean i,
          fun i => if i < n then Max.max ((st a.element).max i) |a.dEdG.getD i 0| else (st a.element).max i⟩) := by
      unfold sensAtom
      rw [hn]
      exact if_pos hl
    obtain ⟨st', e2, h2⟩ := ih (Function.update st a.element
        ⟨(st a.element).count + 1, fun i => if i < n then (st a.element).mean i +
            a.dEdG.getD i 0 * a.dEdG.getD i 0 else (st a.element).mean i,
          fun i => if i < n then Max.max ((st a.element).max i) |a.dEdG.getD i 0| else (st a.element).max i⟩)
      fun b hb => h b (by simp [hb])
    refine ⟨st', by rw [List.foldlM_cons, e1]; exact e2, fun k m hk => ?_⟩
    obtain ⟨h3, h4⟩ := h2 k m hk
    by_cases hak : a.element = k
    · subst hak
      rw [hn] at hk
      obtain rfl := Option.some.inj hk
      rw [Function.update_self] at h3
      refine ⟨by rw [h3, List.filter_cons_of_pos (by simp)]; simp; omega, fun j hj => ?_⟩
      obtain ⟨h5, h6⟩ := h4 j hj
      rw [Function.update_self] at h5 h6
      simp only [if_pos hj] at h5 h6
      unfold listSens at h5 h6 ⊢
      rw [List.filter_cons_of_pos (by simp)]
      refine ⟨by rw [h5]; simp only [List.map_cons, List.sum_cons]; ring, by rw [h6]; rfl⟩
    · rw [Function.update_of_ne (Ne.symm hak)] at h3
      refine ⟨by rw [h3, List.filter_cons_of_neg (by simpa using hak)], fun j hj => ?_⟩
      obtain ⟨h5, h6⟩ := h4 j hj
      rw [Function.update_of_ne (Ne.symm hak)] at h5 h6
      unfold listSens at h5 h6 ⊢
      rw [List.filter_cons_of_neg (by simpa using hak)]
      exact ⟨h5, h6⟩

theorem sensValues_parts (structures : List (List Structure)) (k j : ℕ) :
    sensValues structures k j =
      (structures.map fun ss => listSens (ss.flatMap Structure.atoms) k j).flatten := by
  unfold sensValues allAtoms listSens
  induction structures with
  | nil => rfl
  | cons ss l ih =>
    rw [List.flatten_cons, List.flatMap_append, List.filter_append, List.map_append, ih]
    rfl

theorem sensCount_parts (structures : List (List Structure)) (k j : ℕ) :
    (sensValues structures k j).length =
      (structures.map fun ss => ((ss.flatMap Structure.atoms).filter fun a => a.element = k).length).sum := by
  rw [sensValues_parts, List.length_flatten, List.map_map]
  congr 1
  refine List.map_congr_left fun ss _ => ?_
  simp [listSens]

/-- What process 0 gets. -/
theorem sensReduce_eq {ns : List ℕ} {structures : List (List Structure)} (hne : structures ≠ [])
    (h : ∀ a ∈ allAtoms structures, ∃ n, ns[a.element]? = some n ∧ n ≤ a.dEdG.length) :
    ∃ procs, structures.mapM (sensProc ns) = some procs ∧
      ∀ k n, ns[k]? = some n → 0 < n →
        (∀ j, (sensReduce (procs.map fun p => p k)).count = (sensValues structures k j).length) ∧
        ∀ j < n, (sensReduce (procs.map fun p => p k)).mean j =
            ((sensValues structures k j).map fun v => v ^ 2).sum ∧
          (sensReduce (procs.map fun p => p k)).max j = largestAbs (sensValues structures k j) := by
  have h1 : ∀ ss ∈ structures, ∃ st', sensProc ns ss = some st' ∧
      ∀ k n, ns[k]? = some n → (st' k).count =
          ((ss.flatMap Structure.atoms).filter fun a => a.element = k).length ∧
        ∀ j < n, (st' k).mean j = ((listSens (ss.flatMap Structure.atoms) k j).map fun v => v ^ 2).sum ∧
          (st' k).max j = ((listSens (ss.flatMap Structure.atoms) k j).map fun v => |v|).foldl max 0 := by
    intro ss hss
    obtain ⟨st', e, h2⟩ := sensAtoms_eq ns (ss.flatMap Structure.atoms) (fun _ => Sens.zero) fun a ha => by
      refine h a ?_
      obtain ⟨s, hs, ha⟩ := List.mem_flatMap.1 ha
      exact List.mem_flatMap.2 ⟨s, List.mem_flatten.2 ⟨ss, hss, hs⟩, ha⟩
    refine ⟨st', e, fun k n hk => ?_⟩
    obtain ⟨h3, h4⟩ := h2 k n hk
    refine ⟨by rw [h3]; simp [Sens.zero], fun j hj => ?_⟩
    obtain ⟨h5, h6⟩ := h4 j hj
    exact ⟨by rw [h5]; simp [Sens.zero], h6⟩
  have : Inhabited Sens := ⟨Sens.zero⟩
  choose! f hf1 hf2 using h1
  refine ⟨structures.map f, mapM_pure_some structures hf1, fun k n hk hn => ?_⟩
  rw [List.map_map]
  refine ⟨fun j => ?_, fun j hj => ⟨?_, ?_⟩⟩
  · rw [sensCount_parts]
    unfold sensReduce
    rw [List.map_map]
    exact congrArg List.sum (List.map_congr_left fun ss hss => (hf2 ss hss k n hk).1)
  · rw [sensValues_parts, ← sum_map_flatten, List.map_map]
    unfold sensReduce
    dsimp only
    rw [List.map_map]
    exact congrArg List.sum (List.map_congr_left fun ss hss => ((hf2 ss hss k n hk).2 j hj).1)
  · unfold largestAbs sensReduce
    dsimp only
    rw [sensValues_parts, List.map_flatten, List.map_map, List.map_map, ← allMax_parts 0 _ (by simpa using hne),
      List.map_map]
    exact congrArg allMax (List.map_congr_left fun ss hss => ((hf2 ss hss k n hk).2 j hj).2)

/-! ### Table -/

/-- `s` are the data of the values `v j`. -/
structure SensFor (s : Sens) (v : ℕ → List ℝ) (n : ℕ) : Prop where
  count : ∀ j, s.count = (v j).length
  mean : ∀ j < n, s.mean j = ((v j).map fun x => x ^ 2).sum
  max : ∀ j < n, s.max j = largestAbs (v j)

theorem SensFor.msa_eq {s : Sens} {v : ℕ → List ℝ} {n : ℕ} (h : SensFor s v n) {j : ℕ} (hj : j < n) :
    s.msa j = msaOf (v j) := by
  unfold Sens.msa msaOf rmsOf
  rw [h.mean j hj, h.count j]
  simp only [List.length_eq_zero_iff]

theorem SensFor.msaSum_eq {s : Sens} {v : ℕ → List ℝ} {n : ℕ} (h : SensFor s v n) (hc : s.count ≠ 0) :
    s.msaSum n = some (∑ i ∈ Finset.range n, rmsOf (v i)) := by
  unfold Sens.msaSum
  suffices ∀ m ≤ n, (List.range m).foldlM (fun sum j => (s.msa j).map (sum + ·)) (0 : ℝ) =
      some (∑ i ∈ Finset.range m, rmsOf (v i)) from this n le_rfl
  intro m
  induction m with
  | zero => intro _; simp
  | succ m ih =>
    intro hm
    rw [List.range_succ, List.foldlM_append, ih (by omega), Finset.sum_range_succ]
    have h1 : s.msa m = some (rmsOf (v m)) := by
      rw [h.msa_eq (by omega)]
      exact if_neg fun h0 => hc (by rw [h.count m, h0]; rfl)
    simp [h1]

theorem SensFor.maxSum_eq {s : Sens} {v : ℕ → List ℝ} {n : ℕ} (h : SensFor s v n) :
    s.maxSum n = ∑ i ∈ Finset.range n, largestAbs (v i) := by
  unfold Sens.maxSum
  suffices ∀ m ≤ n, (List.range m).foldl (fun sum j => sum + s.max j) (0 : ℝ) =
      ∑ i ∈ Finset.range m, largestAbs (v i) from this n le_rfl
  intro m
  induction m with
  | zero => intro _; simp
  | succ m ih =>
    intro hm
    rw [List.range_succ, List.foldl_append, ih (by omega), Finset.sum_range_succ, List.foldl_cons,
      List.foldl_nil, h.max m (by omega)]

theorem SensFor.msaPercent {s : Sens} {v : ℕ → List ℝ} {n : ℕ} (h : SensFor s v n) {j : ℕ} (hj : j < n) :
    ((s.msa j).bind fun x => (s.msaSum n).bind (percentOf x)) = share (fun i => rmsOf (v i)) n j := by
  by_cases hc : s.count = 0
  · have hv : ∀ i, v i = [] := fun i => List.length_eq_zero_iff.1 (by rw [← h.count i, hc])
    have e1 : s.msa j = none := if_pos hc
    have e2 : ∑ i ∈ Finset.range n, rmsOf (v i) = 0 :=
      Finset.sum_eq_zero fun i _ => by rw [hv i]; simp [rmsOf]
    rw [e1]
    unfold share
    rw [if_pos e2]
    rfl
  · have e1 : s.msa j = some (rmsOf (v j)) := by
      rw [h.msa_eq hj]
      exact if_neg fun h0 => hc (by rw [h.count j, h0]; rfl)
    rw [e1, h.msaSum_eq hc]
    rfl

theorem natText_no_hash (n : ℕ) : (natText n).head? ≠ some '#' := fun h =>
  absurd (natText_digit (List.mem_of_mem_head? h)) (by decide)

/-- Units of the columns. -/
noncomputable def sensUnits (U : ModeUnits) (normalize : Bool) : List ℝ :=
  if normalize then [U.convEnergy, 1] else [1]

theorem sensLine_rows {F : FloatText} (hF : F.Data) (U : ModeUnits) (normalize : Bool) {s : Sens}
    {v : ℕ → List ℝ} {n : ℕ} (h : SensFor s v n) (hn : n < 2 ^ 31) {j : ℕ} (hj : j < n) :
    ∃ t, sensLine F U normalize s n j = some t ∧ Rows t [natText (j + 1) ::
      ([share (fun i => rmsOf (v i)) n j, share (fun i => largestAbs (v i)) n j] ++
        (sensUnits U normalize).flatMap fun u =>
          [(msaOf (v j)).map (· / u), some (largestAbs (v j) / u)]).map F.print] := by
  have e3 : percentOf (s.max j) (s.maxSum n) = share (fun i => largestAbs (v i)) n j := by
    rw [h.max j hj, h.maxSum_eq]; rfl
  have e4 : ∀ x, U.physical "energy" x = some (x / U.convEnergy) := fun x => if_pos rfl
  refine ⟨_, if_pos (by omega), ?_⟩
  have hd := row_line' 10 (w := natText (j + 1)) (natText_word _) (natText_newline _) (natText_no_hash _)
    (([share (fun i => rmsOf (v i)) n j, share (fun i => largestAbs (v i)) n j] ++
        (sensUnits U normalize).flatMap fun u =>
          [(msaOf (v j)).map (· / u), some (largestAbs (v j) / u)]).map fun x => (16, F.print x)) (by
      intro f hf
      obtain ⟨x, -, rfl⟩ := List.mem_map.1 hf
      exact ⟨(hF.word x).1, (hF.word x).2.1⟩)
  rw [List.map_map, List.map_map] at hd
  suffices e5 : [(s.msa j).bind fun x => (s.msaSum n).bind (percentOf x), percentOf (s.max j) (s.maxSum n)] ++
      (if normalize then [(s.msa j).bind (U.physical "energy"), U.physical "energy" (s.max j)] else []) ++
      [s.msa j, some (s.max j)] =
      [share (fun i => rmsOf (v i)) n j, share (fun i => largestAbs (v i)) n j] ++
        (sensUnits U normalize).flatMap fun u =>
          [(msaOf (v j)).map (· / u), some (largestAbs (v j) / u)] by
    rw [e5]
    exact hd
  rw [h.msaPercent hj, e3, h.msa_eq hj, h.max j hj]
  cases normalize with
  | false =>
    simp only [sensUnits, Bool.false_eq_true, if_false, List.flatMap_cons, List.flatMap_nil, div_one,
      List.append_nil]
    cases msaOf (v j) <;> rfl
  | true =>
    simp only [sensUnits, if_true, List.flatMap_cons, List.flatMap_nil, div_one, List.append_nil, e4]
    cases msaOf (v j) <;> rfl

/-! ### Files -/

theorem sensName_eq {Z : ℕ} (hZ : Z < 2 ^ 31) : sensName Z = some (sensitivityFile Z) := by
  have h1 := zeroPadded_length (w := 3) (n := Z) (by omega) (by omega)
  have e1 : ("sensitivity.".toList).length = 12 := by decide
  have e2 : (".out".toList).length = 4 := by decide
  unfold sensName strpr sensitivityFile
  refine if_pos ?_
  simp only [List.length_append, e1, e2]
  omega

theorem sensitivityFile_inj {Z Z' : ℕ} (h : sensitivityFile Z = sensitivityFile Z') : Z = Z' := by
  unfold sensitivityFile at h
  have h1 := List.append_cancel_right h
  exact zeroPad_inj (List.append_cancel_left h1)

/-- A text with comments and then these rows. -/
def Tabled (text : Str) (words : List (List Str)) : Prop :=
  ∃ (hs : List Str) (t : Str), text = hs.flatMap (· ++ ['\n']) ++ t ∧
    (∀ l ∈ hs, '\n' ∉ l ∧ ∃ u, l = '#' :: u) ∧ Rows t words

theorem Tabled.table {text : Str} {words : List (List Str)} (h : Tabled text words) :
    fileTable text = words := by
  obtain ⟨hs, t, rfl, hh, hr⟩ := h
  exact fileTable_eq hh hr

theorem Tabled.lines {text : Str} {words : List (List Str)} (h : Tabled text words) :
    ∃ ls, statisticsLines (readLines text) = some ls ∧ ls.map (fun l => split (reduce l)) = words := by
  obtain ⟨hs, t, rfl, hh, ls, rfl, h1, h2⟩ := h
  refine ⟨ls, ?_, h2⟩
  rw [readLines_append hs (fun l h => (hh l h).1), readLines_write ls fun l hl => (h1 l hl).1,
    statisticsLines_comments fun l hl => (hh l hl).2]
  refine statisticsLines_data fun l hl => ?_
  obtain ⟨-, h3, h4⟩ := h1 l hl
  cases l with
  | nil => exact absurd rfl h3
  | cons a t => exact ⟨a, t, rfl, fun h => h4 (by rw [h]; rfl)⟩

theorem sensHeader_comment (normalize : Bool) {symbol : Str} (h2 : symbol.length ≤ 2) (hn : '\n' ∉ symbol) :
    ∃ h, sensHeader normalize symbol = some h ∧ ∀ l ∈ h, IsCommentLine '#' l := by
  have e0 : ("Sensitivity analysis for element ".toList).length = 33 := by decide
  have e1 : strpr ("Sensitivity analysis for element ".toList ++ padLeft 2 symbol ++ ['.']) =
      some ("Sensitivity analysis for element ".toList ++ padLeft 2 symbol ++ ['.']) := by
    refine if_pos ?_
    simp only [padLeft, List.length_append, e0, List.length_replicate, List.length_cons, List.length_nil]
    omega
  have ht : ∀ s ∈ ["Sensitivity analysis for element ".toList ++ padLeft 2 symbol ++ ['.']], '\n' ∉ s := by
    intro s hs
    rw [List.mem_singleton.1 hs]
    simp only [padLeft, List.mem_append, List.mem_replicate, List.mem_singleton]
    rintro ((h | ⟨-, h⟩ | h) | h)
    · exact absurd h (by decide)
    · exact absurd h (by decide)
    · exact hn h
    · exact absurd h (by decide)
  cases normalize with
  | false =>
    obtain ⟨h, hh⟩ : ∃ h, sensHeader false symbol = some h := by
      unfold sensHeader
      rw [e1]
      exact ⟨_, rfl⟩
    refine ⟨h, hh, ?_⟩
    unfold sensHeader at hh
    rw [e1, Option.bind_eq_bind, Option.bind_some] at hh
    exact header_comment (by decide) ht (by decide) (by decide) ⟨16, by decide, by decide⟩ hh
  | true =>
    obtain ⟨h, hh⟩ : ∃ h, sensHeader true symbol = some h := by
      unfold sensHeader
      rw [e1]
      exact ⟨_, rfl⟩
    refine ⟨h, hh, ?_⟩
    unfold sensHeader at hh
    rw [e1, Option.bind_eq_bind, Option.bind_some] at hh
    exact header_comment (by decide) ht (by decide) (by decide) ⟨16, by decide, by decide⟩ hh

theorem writeSensitivity_eq {F : FloatText} (hF : F.Data) (U : ModeUnits) (normalize : Bool)
    {procs : List (ℕ → Sens)} {e : SensElement} {k : ℕ} {v : ℕ → List ℝ}
    (hs : SensFor (sensReduce (procs.map fun p => p k)) v e.n) (h0 : 0 < e.n) (hn : e.n < 2 ^ 31)
    (hZ : e.Z < 2 ^ 31) (hsym : e.symbol.length ≤ 2 ∧ '\n' ∉ e.symbol) :
    ∃ text, (∀ fs, writeSensitivity F U normalize procs fs (e, k) =
        some (fs.write (sensitivityFile e.Z) text)) ∧
      Tabled text (sensTable F (sensUnits U normalize) v e.n) := by
  obtain ⟨header, e2, hh⟩ := sensHeader_comment normalize hsym.1 hsym.2
  obtain ⟨hs', e3, hb⟩ := header_bodies hh
  have h1 : ∀ j ∈ List.range e.n, ∃ t, sensLine F U normalize (sensReduce (procs.map fun p => p k)) e.n j =
      some t ∧ Rows t [natText (j + 1) ::
      ([share (fun i => rmsOf (v i)) e.n j, share (fun i => largestAbs (v i)) e.n j] ++
        (sensUnits U normalize).flatMap fun u =>
          [(msaOf (v j)).map (· / u), some (largestAbs (v j) / u)]).map F.print] :=
    fun j hj => sensLine_rows hF U normalize hs hn (List.mem_range.1 hj)
  choose! t ht1 ht2 using h1
  refine ⟨header.flatten ++ ((List.range e.n).map t).flatten, fun fs => ?_, hs', _, by rw [e3], hb, ?_⟩
  · unfold writeSensitivity
    rw [if_neg (by simpa using h0.ne')]
    dsimp only
    rw [sensName_eq hZ, e2, mapM_pure_some _ ht1]
    rfl
  · exact rows_flatten t _ _ ht2

theorem sensitivity_files {F : FloatText} (hF : F.Data) (U : ModeUnits) (normalize : Bool)
    {els : List SensElement} (he : SensElements els) {structures : List (List Structure)}
    (hd : SensData els structures) (fs : Files) :
    ∃ fs', sensitivityAnalysis F U normalize els structures fs = some fs' ∧
      (∀ k e, els[k]? = some e → ∃ text, fs' (sensitivityFile e.Z) = some text ∧
        Tabled text (sensTable F (sensUnits U normalize) (sensValues structures k) e.n)) ∧
      ∀ x, (∀ e ∈ els, x ≠ sensitivityFile e.Z) → fs' x = fs x := by
  obtain ⟨procs, e1, h1⟩ := sensReduce_eq (ns := els.map SensElement.n) hd.1 fun a ha => by
    obtain ⟨e, h2, h3⟩ := hd.2 a ha
    exact ⟨e.n, by rw [List.getElem?_map, h2]; rfl, h3⟩
  have h2 : ∀ p ∈ els.zipIdx, ∃ text, (∀ fs, writeSensitivity F U normalize procs fs p =
        some (fs.write (sensitivityFile p.1.Z) text)) ∧
      Tabled text (sensTable F (sensUnits U normalize) (sensValues structures p.2) p.1.n) := by
    rintro ⟨e, k⟩ hp
    have hk := List.mem_zipIdx_iff_getElem?.1 hp
    have hm := List.mem_of_getElem? hk
    obtain ⟨h3, h4⟩ := h1 k e.n (by rw [List.getElem?_map, hk]; rfl) (he.functions e hm).1
    exact writeSensitivity_eq hF U normalize ⟨h3, fun j hj => (h4 j hj).1, fun j hj => (h4 j hj).2⟩
      (he.functions e hm).1 (he.functions e hm).2 (he.number e hm) (he.symbol e hm)
  choose! text ht1 ht2 using h2
  obtain ⟨fs', e2, h5, h6⟩ := fold_writes (writeSensitivity F U normalize procs)
    (fun p => sensitivityFile p.1.Z) (fun p => some (text p)) els.zipIdx fs ht1 (by
      have : (els.zipIdx.map Prod.fst).Pairwise fun e e' => e.Z ≠ e'.Z := by
        rw [List.zipIdx_map_fst]; exact he.distinct
      rw [List.pairwise_map] at this
      exact this.imp fun h hc => h (sensitivityFile_inj hc))
  refine ⟨fs', ?_, fun k e hk => ?_, fun x hx => h6 x fun p hp _ => hx p.1 ?_⟩
  · unfold sensitivityAnalysis
    rw [e1]
    exact e2
  · have hp : (e, k) ∈ els.zipIdx := List.mem_zipIdx_iff_getElem?.2 hk
    exact ⟨text (e, k), h5 _ hp _ rfl, ht2 _ hp⟩
  · have := List.mem_map_of_mem (f := Prod.fst) hp
    rwa [List.zipIdx_map_fst] at this

/-! ### Pruning -/

theorem mem_prunedOf {threshold : ℝ} {lines : List ℕ} {values : List (Option ℝ)} {l : ℕ} :
    l ∈ prunedOf threshold lines values ↔
      ∃ (j : ℕ) (x : ℝ), lines[j]? = some l ∧ values[j]? = some (some x) ∧ x < threshold := by
  classical
  unfold prunedOf
  rw [List.mem_filterMap]
  constructor
  · rintro ⟨⟨a, b⟩, hp, h⟩
    obtain ⟨j, hj⟩ := List.mem_iff_getElem?.1 hp
    rw [List.getElem?_zip_eq_some] at hj
    by_cases hb : below threshold b
    · rw [if_pos hb] at h
      obtain rfl := Option.some.inj h
      cases b with
      | none => exact absurd hb not_false
      | some x => exact ⟨j, x, hj.1, hj.2, hb⟩
    · rw [if_neg hb] at h; cases h
  · rintro ⟨j, x, h1, h2, h3⟩
    refine ⟨(l, some x), List.mem_iff_getElem?.2 ⟨j, List.getElem?_zip_eq_some.2 ⟨h1, h2⟩⟩, ?_⟩
    exact if_pos h3

theorem mapM_column {F : FloatText} {column : ℕ} {ls : List Str} {words : List (List Str)}
    (h : ls.map (fun l => split (reduce l)) = words) {n : ℕ} {g : ℕ → Str} (hn : words.length = n)
    (hg : ∀ j < n, (words.getD j [])[column]? = some (g j)) :
    (ls.mapM fun l => do
      let w ← (split (reduce l))[column]?
      some (F.atof w)) = some ((List.range n).map fun j => F.atof (g j)) := by
  subst h
  have hl : ls.length = n := by simpa using hn
  have h1 : ∀ l ∈ ls, ∃ w, (split (reduce l))[column]? = some w := by
    intro l hl'
    obtain ⟨j, hj, rfl⟩ := List.getElem_of_mem hl'
    have := hg j (by omega)
    rw [List.getD_eq_getElem _ _ (by simpa using hj), List.getElem_map] at this
    exact ⟨_, this⟩
  choose! w hw using h1
  have e1 : (ls.mapM fun l => do
      let w ← (split (reduce l))[column]?
      some (F.atof w)) = some (ls.map fun l => F.atof (w l)) :=
    mapM_pure_some ls fun l hl' => by rw [hw l hl']; rfl
  rw [e1]
  congr 1
  refine List.ext_getElem (by simpa using hl) fun j h2 h3 => ?_
  have hj : j < ls.length := by simpa using h2
  have := hg j (by omega)
  rw [List.getD_eq_getElem _ _ (by simpa using hj), List.getElem_map, hw _ (List.getElem_mem hj)] at this
  simp only [List.getElem_map, List.getElem_range]
  rw [Option.some.inj this]

theorem readSensitivity_eq {F : FloatText} {fs : Files} {e : PruneElement} {text : Str} {units : List ℝ}
    {v : ℕ → List ℝ} {n column : ℕ} {g : ℕ → Str} (hZ : e.Z < 2 ^ 31)
    (hf : fs (sensitivityFile e.Z) = some text) (ht : Tabled text (sensTable F units v n))
    (hl : e.lines.length = n)
    (hg : ∀ j < n, ((sensTable F units v n).getD j [])[column]? = some (g j)) :
    readSensitivity F column fs e = some ((List.range n).map fun j => F.atof (g j)) := by
  obtain ⟨ls, e1, e2⟩ := ht.lines
  have hlen : ls.length = n := by
    have := congrArg List.length e2
    simpa [sensTable] using this
  unfold readSensitivity
  rw [sensName_eq hZ]
  simp only [Option.bind_eq_bind, Option.bind_some, hf, Option.getD_some, e1]
  rw [if_neg (by omega)]
  exact mapM_column e2 (by simp [sensTable]) hg

end N2P2
