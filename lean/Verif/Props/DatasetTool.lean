import Verif.Lemma.DatasetToolRun
import Verif.Props.WeightFile

/-! Property C109: the program nnp-dataset compares and writes the predictions for the whole data set. -/

namespace N2P2

open Training (Key)

open DatasetTool

variable {D : DatasetTool}

private theorem heads_differ {a b : Str} (h : a.head? ≠ b.head?) : a ≠ b := fun e => h (by rw [e])

private theorem partName_first {file : Str} (hf : file ≠ []) (i : ℕ) : (partName file i).head? = file.head? := by
  unfold partName
  cases file with
  | nil => exact absurd rfl hf
  | cons c cs => rfl

/-- C109: every structure of the data set is evaluated, in the units of the potential and without the energies of free atoms.
The file energy.comp has one line for each structure with reference and predicted energy in physical units, followed by both
in units of the potential. The file forces.comp has three lines for each atom. Read from output.data are the structures with
predicted energy and forces. The table of errors contains the errors over the whole data set, in both units. Other files
are unchanged. -/
theorem C109_dataset (h : D.Ready) (procs : List (List Structure)) (hne : procs ≠ []) (hlen : procs.length < 2 ^ 64)
    (hr : ∀ ss ∈ procs, ∀ r ∈ ss, D.Input r ∧
      ∀ v, D.Evaluation r v → (D.predicted r v).Filable D.N D.m false) (fs : Files) :
    ∃ (fs' : Files) (table : List (List (Option ℝ))) (res : List (List (Structure × Structure))) (text out : Str), D.run procs fs = some (fs', table) ∧
      res.map (fun qs => qs.map Prod.fst) = procs ∧
      (∀ q ∈ res.flatten, D.Evaluation q.1 q.2) ∧
      fs' "energy.comp".toList = some text ∧
      (dataLines text).map (fun l => split (reduce l)) =
        res.flatten.map (fun q => D.energyWords (D.predicted q.1 q.2) q.2) ∧
      (D.useForces = true → ∃ text, fs' "forces.comp".toList = some text ∧
        (dataLines text).map (fun l => split (reduce l)) =
          res.flatten.flatMap (fun q => D.allForceWords (D.predicted q.1 q.2) q.2)) ∧
      fs' "output.data".toList = some out ∧
      ReadsAs D.N D.m 0 (readLines out) (res.flatten.map fun q => D.predicted q.1 q.2) ∧
      table = (Key.energy :: if D.useForces then [Key.force] else []).map (fun k =>
        (k.metrics.map fun m => errorOf k m (res.flatten.map fun q => D.predicted q.1 q.2)) ++
          if D.normalize then k.metrics.map fun m => errorOf k m (res.flatten.map Prod.snd) else []) ∧
      (∀ i < procs.length, fs' (partName "energy.comp".toList i) = none ∧
        (D.useForces = true → fs' (partName "forces.comp".toList i) = none) ∧
        fs' (partName "output.data".toList i) = none) ∧
      ∀ x : Str, (∀ file ∈ ["energy.comp", "output.data"] ++ if D.useForces then ["forces.comp"] else [],
        x ≠ file.toList ∧ ∀ i < procs.length, x ≠ partName file.toList i) → fs' x = fs x := by
  obtain ⟨he, e1, c1⟩ := energyHeader_ok D.normalize
  obtain ⟨hf, e2, c2⟩ := forceHeader_ok D.normalize
  have hw : ∀ ss ∈ procs, ∀ r ∈ ss, D.Input r ∧ ∀ v, D.Evaluation r v →
      ∃ x, (D.predicted r v).writeToFile D.N D.m false = some x := by
    intro ss hss r hrs
    obtain ⟨h1, h2⟩ := hr ss hss r hrs
    refine ⟨h1, fun v hv => ?_⟩
    obtain ⟨x, hx, -⟩ := C58_roundtrip_partial h.numbers.1 h.elements _ false (h2 v hv) 0
    exact ⟨x, hx⟩
  obtain ⟨ts, e3, l1, hts⟩ := mapM_zipIdx (f := fun p : List Structure × ℕ => D.process p.2 p.1)
    (R := fun i raw t => ∃ qs, D.Results raw qs ∧
      D.Done (if i = 0 then he.flatten else []) (if i = 0 then hf.flatten else []) t qs) procs 0
    (fun raw hraw i => by
      obtain ⟨t, qs, e, h1, h2⟩ := process_done h e1 e2 i (hw raw hraw)
      exact ⟨t, e, qs, h1, h2⟩)
  simp only [Nat.zero_add] at hts
  -- results of all processes
  have hex : ∀ i, ∃ qs, ∀ (raw : List Structure) (t : ToolState), procs[i]? = some raw → ts[i]? = some t →
      D.Results raw qs ∧ D.Done (if i = 0 then he.flatten else []) (if i = 0 then hf.flatten else []) t qs := by
    intro i
    by_cases hi : i < procs.length
    · obtain ⟨qs, hq⟩ := hts i _ _ (List.getElem?_eq_getElem hi) (List.getElem?_eq_getElem (by omega))
      refine ⟨qs, fun raw t h1 h2 => ?_⟩
      rw [List.getElem?_eq_getElem hi] at h1
      rw [List.getElem?_eq_getElem (by omega)] at h2
      cases h1
      cases h2
      exact hq
    · exact ⟨[], fun raw t h1 _ => by rw [List.getElem?_eq_none (by omega)] at h1; cases h1⟩
  choose Q hQ using hex
  set res := (List.range procs.length).map Q with hres
  have lres : res.length = procs.length := by simp [hres]
  have gres : ∀ i, i < procs.length → res[i]? = some (Q i) := by
    intro i hi
    rw [hres, List.getElem?_map, List.getElem?_range hi]
    rfl
  have both : ∀ (i : ℕ) (qs : List (Structure × Structure)) (t : ToolState), res[i]? = some qs → ts[i]? = some t →
      ∃ raw, procs[i]? = some raw ∧ D.Results raw qs ∧
        D.Done (if i = 0 then he.flatten else []) (if i = 0 then hf.flatten else []) t qs := by
    intro i qs t h1 h2
    have hi : i < procs.length := by
      rw [← lres]
      exact (List.getElem?_eq_some_iff.1 h1).1
    rw [gres i hi] at h1
    cases h1
    exact ⟨_, List.getElem?_eq_getElem hi, hQ i _ _ (List.getElem?_eq_getElem hi) h2⟩
  have hfst : res.map (fun qs => qs.map Prod.fst) = procs := by
    refine List.ext_getElem? fun i => ?_
    rw [List.getElem?_map]
    by_cases hi : i < procs.length
    · rw [gres i hi, List.getElem?_eq_getElem hi]
      exact congrArg some (hQ i _ _ (List.getElem?_eq_getElem hi) (List.getElem?_eq_getElem (by omega))).1.raw
    · rw [List.getElem?_eq_none (by omega), List.getElem?_eq_none (by omega)]
      rfl
  have hmem : ∀ q ∈ res.flatten, D.Evaluation q.1 q.2 ∧ D.Input q.1 ∧ D.Pair q.1 q.2 := by
    intro q hq
    obtain ⟨qs, h1, h2⟩ := List.mem_flatten.1 hq
    obtain ⟨i, hi⟩ := List.mem_iff_getElem?.1 h1
    have hlt : i < ts.length := by
      rw [l1, ← lres]
      exact (List.getElem?_eq_some_iff.1 hi).1
    obtain ⟨raw, -, g1, -⟩ := both i qs _ hi (List.getElem?_eq_getElem hlt)
    exact ⟨g1.evaluation q h2, g1.input q h2⟩
  have hfil : ∀ q ∈ res.flatten, (D.predicted q.1 q.2).Filable D.N D.m false := by
    intro q hq
    have h1 : q.1 ∈ procs.flatten := by
      rw [← hfst, ← List.map_flatten]
      exact List.mem_map.2 ⟨q, hq, rfl⟩
    obtain ⟨ss, h2, h3⟩ := List.mem_flatten.1 h1
    exact (hr ss h2 q.1 h3).2 q.2 (hmem q hq).1
  have hne' : res ≠ [] := by
    intro h0
    rw [h0] at lres
    exact hne (List.eq_nil_of_length_eq_zero lres.symm)
  -- texts
  obtain ⟨te, t1, r1⟩ := rows_of_ranks (g := fun qs : List (Structure × Structure) =>
    qs.map fun q => D.energyWords (D.predicted q.1 q.2) q.2) res (ts.map ToolState.energy) he.flatten
    (by simp [lres, l1]) hne' (fun i qs t h1 h2 => by
      rw [List.getElem?_map] at h2
      obtain ⟨t', h3, rfl⟩ := Option.map_eq_some_iff.1 h2
      obtain ⟨-, -, -, d⟩ := both i qs t' h1 h3
      exact d.energy)
  have hforce : D.useForces = true → ∃ tf, (ts.map ToolState.forces).flatten = hf.flatten ++ tf ∧
      Rows tf (res.flatMap fun qs => qs.flatMap fun q => D.allForceWords (D.predicted q.1 q.2) q.2) := by
    intro hu
    exact rows_of_ranks (g := fun qs : List (Structure × Structure) =>
      qs.flatMap fun q => D.allForceWords (D.predicted q.1 q.2) q.2) res (ts.map ToolState.forces) hf.flatten
      (by simp [lres, l1]) hne' (fun i qs t h1 h2 => by
        rw [List.getElem?_map] at h2
        obtain ⟨t', h3, rfl⟩ := Option.map_eq_some_iff.1 h2
        obtain ⟨-, -, -, d⟩ := both i qs t' h1 h3
        exact d.forces hu)
  have hout : ∃ T, (ts.map ToolState.output).flatten = T.flatten ∧
      List.Forall₂ (fun q x => (D.predicted q.1 q.2).writeToFile D.N D.m false = some x) res.flatten T := by
    have h1 : List.Forall₂ (fun qs (t : ToolState) => ∃ T, t.output = T.flatten ∧
        List.Forall₂ (fun q x => (D.predicted q.1 q.2).writeToFile D.N D.m false = some x) qs T) res ts :=
      forall₂_of_index res ts (by omega) fun i qs t h1 h2 => by
        obtain ⟨-, -, -, d⟩ := both i qs t h1 h2
        exact d.output
    clear_value res
    clear hres hts hQ e3 both t1 r1 hforce lres gres hfst hmem hfil hne' l1
    induction h1 with
    | nil => exact ⟨[], rfl, .nil⟩
    | @cons qs t l l' h1 _ ih =>
      obtain ⟨T, g1, g2⟩ := h1
      obtain ⟨T', g3, g4⟩ := ih
      refine ⟨T ++ T', ?_, ?_⟩
      · rw [List.map_cons, List.flatten_cons, g1, g3, List.flatten_append]
      · rw [List.flatten_cons]
        exact List.rel_append g2 g4
  -- errors
  have hsum : ∀ k : Key, k ≠ .charge → (k = .force → D.useForces = true) →
      List.Forall₂ (Sums k) (res.map fun qs => qs.map Prod.snd)
        (ts.map fun t => match k with | .energy => t.errorEnergy | _ => t.errorForce) := by
    intro k hk hku
    rw [List.forall₂_map_left_iff, List.forall₂_map_right_iff]
    refine forall₂_of_index res ts (by omega) fun i qs t h1 h2 => ?_
    obtain ⟨-, -, -, d⟩ := both i qs t h1 h2
    refine sums_cleared k _ _ ?_
    rw [List.map_map]
    cases k with
    | energy => exact d.sumE
    | force => exact d.sumF (hku rfl)
    | charge => exact absurd rfl hk
  have hflat : (res.map fun qs => qs.map Prod.snd).flatten = res.flatten.map Prod.snd := by
    rw [List.map_flatten]
  have hrow : ∀ k : Key, k ≠ .charge → (k = .force → D.useForces = true) →
      D.logRow k (collectError (ts.map fun t => match k with | .energy => t.errorEnergy | _ => t.errorForce)) =
        some ((k.metrics.map fun m => errorOf k m (res.flatten.map fun q => D.predicted q.1 q.2)) ++
          if D.normalize then k.metrics.map fun m => errorOf k m (res.flatten.map Prod.snd) else []) := by
    intro k hk hku
    refine logRow_eq h (fun q hq => (hmem q hq).2) hk fun m hm => ?_
    rw [collect_errors (hsum k hk hku) hm, hflat]
  -- files
  have n1 : ("energy.comp".toList).head? = some 'e' := by decide
  have n2 : ("forces.comp".toList).head? = some 'f' := by decide
  have n3 : ("output.data".toList).head? = some 'o' := by decide
  have p1 : ∀ i, (partName "energy.comp".toList i).head? = some 'e' := fun i =>
    (partName_first (by decide) i).trans n1
  have p2 : ∀ i, (partName "forces.comp".toList i).head? = some 'f' := fun i =>
    (partName_first (by decide) i).trans n2
  have p3 : ∀ i, (partName "output.data".toList i).head? = some 'o' := fun i =>
    (partName_first (by decide) i).trans n3
  obtain ⟨f1, w1, a1, a2, a3⟩ := comparisonFile_ok "energy.comp".toList (by decide) (ts.map ToolState.energy) fs
    (by simpa [l1] using hlen)
  have hmid : ∃ f2, (if D.useForces = true then comparisonFile "forces.comp".toList (ts.map ToolState.forces) f1
      else some f1) = some f2 ∧
      (D.useForces = true → f2 "forces.comp".toList = some (ts.map ToolState.forces).flatten ∧
        ∀ i < ts.length, f2 (partName "forces.comp".toList i) = none) ∧
      ∀ x : Str, (D.useForces = true → x ≠ "forces.comp".toList ∧
        ∀ i < procs.length, x ≠ partName "forces.comp".toList i) → f2 x = f1 x := by
    by_cases hu : D.useForces = true
    · rw [if_pos hu]
      obtain ⟨f2, w2, b1, b2, b3⟩ := comparisonFile_ok "forces.comp".toList (by decide) (ts.map ToolState.forces) f1
        (by simpa [l1] using hlen)
      exact ⟨f2, w2, fun _ => ⟨b1, fun i hi => b2 i (by simpa using hi)⟩, fun x hx =>
        b3 x (hx hu).1 fun i hi => (hx hu).2 i (by simpa [l1] using hi)⟩
    · rw [if_neg hu]
      exact ⟨f1, rfl, fun h' => absurd h' hu, fun _ _ => rfl⟩
  obtain ⟨f2, w2, b1, b3⟩ := hmid
  have b3' : ∀ x : Str, x.head? ≠ some 'f' → f2 x = f1 x := fun x hx =>
    b3 x fun _ => ⟨heads_differ (by rw [n2]; exact hx), fun i _ => heads_differ (by rw [p2]; exact hx)⟩
  obtain ⟨f3, w3, d1, d2, d3⟩ := comparisonFile_ok "output.data".toList (by decide) (ts.map ToolState.output) f2
    (by simpa [l1] using hlen)
  have d3' : ∀ x : Str, x.head? ≠ some 'o' → f3 x = f2 x := fun x hx =>
    d3 x (heads_differ (by rw [n3]; exact hx)) fun i _ => heads_differ (by rw [p3]; exact hx)
  have hlog2 : ∃ row, D.logRow .force (collectError (ts.map ToolState.errorForce)) = some row := by
    unfold DatasetTool.logRow
    by_cases hn : D.normalize = true
    · rw [if_pos hn]
      have hv : ∀ v : Option ℝ, ∃ y, physicalValue D.units .force v = some y := by
        intro v
        cases v with
        | none => exact ⟨none, rfl⟩
        | some x => exact ⟨_, congrArg (Option.map some) (physical_factor (h.units hn) .force x)⟩
      choose y hy using hv
      rw [mapM_pure_some (g := fun m => y ((collectError (ts.map ToolState.errorForce)).value m)) _ fun m _ => hy _]
      exact ⟨_, rfl⟩
    · rw [if_neg hn]
      exact ⟨_, rfl⟩
  obtain ⟨row2, hrow2⟩ := hlog2
  obtain ⟨row1, hrow1, erow1⟩ : ∃ row1, D.logRow .energy (collectError (ts.map ToolState.errorEnergy)) = some row1 ∧
      row1 = _ := ⟨_, hrow .energy (by decide) (by intro h'; cases h'), rfl⟩
  obtain ⟨T, o1, o2⟩ := hout
  refine ⟨f3, if D.useForces = true then [row1, row2] else [row1], res, (ts.map ToolState.energy).flatten,
    (ts.map ToolState.output).flatten, ?_, hfst, fun q hq => (hmem q hq).1, ?_, ?_, ?_, d1, ?_, ?_, ?_, ?_⟩
  · unfold DatasetTool.run
    rw [e3]
    by_cases hu : D.useForces = true
    · rw [if_pos hu] at w2
      simp only [Option.bind_eq_bind, Option.bind_some, w1, w2, w3, hrow1, hrow2, hu, if_true]
    · rw [if_neg hu] at w2
      cases w2
      simp only [Option.bind_eq_bind, Option.bind_some, w1, w3, hrow1, hrow2, hu, Bool.false_eq_true, if_false]
  · rw [d3' _ (by rw [n1]; decide), b3' _ (by rw [n1]; decide)]
    exact a1
  · rw [t1, (read_rows c1 r1).1, List.map_flatten, ← List.flatMap_def]
  · intro hu
    obtain ⟨tf, g1, g2⟩ := hforce hu
    refine ⟨(ts.map ToolState.forces).flatten, ?_, ?_⟩
    · rw [d3' _ (by rw [n2]; decide)]
      exact (b1 hu).1
    · rw [g1, (read_rows c2 g2).1]
      clear_value res
      clear * -
      induction res with
      | nil => rfl
      | cons a l ih => rw [List.flatMap_cons, List.flatten_cons, List.flatMap_append, ih]
  · rw [o1]
    refine readsAs_of h.numbers.1 h.elements _ T 0 ?_ ?_
    · intro s hs
      obtain ⟨q, hq, rfl⟩ := List.mem_map.1 hs
      exact hfil q hq
    · rw [List.forall₂_map_left_iff]
      exact o2
  · by_cases hu : D.useForces = true
    · have := hrow .force (by decide) (fun _ => hu)
      rw [show (ts.map fun t => match Key.force with | .energy => t.errorEnergy | _ => t.errorForce) =
        ts.map ToolState.errorForce from rfl, hrow2] at this
      rw [Option.some.inj this, erow1, if_pos hu, if_pos hu]
      rfl
    · rw [erow1, if_neg hu, if_neg hu]
      rfl
  · intro i hi
    refine ⟨?_, fun hu => ?_, d2 i (by simpa [l1] using hi)⟩
    · rw [d3' _ (by rw [p1]; decide), b3' _ (by rw [p1]; decide)]
      exact a2 i (by simpa [l1] using hi)
    · rw [d3' _ (by rw [p2]; decide)]
      exact (b1 hu).2 i (by omega)
  · intro x hx
    have x1 := hx "energy.comp" (by simp)
    have x2 := hx "output.data" (by simp)
    rw [d3 x x2.1 fun i hi => x2.2 i (by simpa [l1] using hi), b3 x fun hu => hx "forces.comp" (by simp [hu]),
      a3 x x1.1 fun i hi => x1.2 i (by simpa [l1] using hi)]

/-- Two processes with water, of which the potential knows nothing but an energy; with normalization and forces. -/
example (fs : Files) : ∃ (D : DatasetTool) (r : Structure) (fs' : Files) (table : List (List (Option ℝ)))
    (text out : Str), D.normalize = true ∧ D.useForces = true ∧ r.atoms.length = 3 ∧
    (∀ s, D.Normalized r s → s.energyRef = 4) ∧
    D.run [[r, r], [r]] fs = some (fs', table) ∧ table.length = 2 ∧
    fs' "energy.comp".toList = some text ∧ (dataLines text).length = 3 ∧
    fs' "output.data".toList = some out ∧ fs' "input.data".toList = fs "input.data".toList := by
  obtain ⟨m, -, h2, h3⟩ := emap_sane "O\t H".toList ["O".toList, "H".toList]
    ((C01_tokens_are_words _ _).1 (by decide)) (by decide +kernel) (by decide)
  have hm : m.size = 2 := h2
  set D : DatasetTool := ⟨exText, m, [1, 0], true, ⟨1, 2, 3, 1⟩, true, fun s => some { s with energy := 1 }⟩ with hD
  set r : Structure := { exFiled false 0 with numAtoms := 3, numAtomsPerElement := [2, 1] } with hrd
  have hel : ∀ a ∈ r.atoms, a.element < m.size := by
    intro a ha
    rw [hm]
    simp only [hrd, exFiled, List.mem_cons, List.not_mem_nil, or_false] at ha
    rcases ha with rfl | rfl | rfl <;> decide
  have hready : D.Ready := ⟨exText_data, h3, by rw [hD]; exact hm.symm, fun _ => by
    rw [hD]; exact ⟨by norm_num, by norm_num, by norm_num⟩⟩
  have hin : D.Input r := by
    refine ⟨by simp [hrd, exFiled], rfl, ⟨by simp [hrd, exFiled, Structure.init], by simp [hrd], ?_⟩, ?_, hel, ?_, ?_⟩
    · intro a ha
      simp only [hrd, exFiled, List.mem_cons, List.not_mem_nil, or_false] at ha
      rcases ha with rfl | rfl | rfl <;> simp [Atom.init]
    · rw [show D.m.size = 2 from hm]
      simp [hrd, exFiled, List.range_succ]
    · intro a ha
      simp only [hrd, exFiled, List.mem_cons, List.not_mem_nil, or_false] at ha
      rcases ha with rfl | rfl | rfl <;> rfl
    · intro s _
      exact ⟨_, rfl, rfl, rfl, rfl, rfl, rfl, rfl, rfl, List.forall₂_same.2 fun a _ => ⟨rfl, rfl, rfl, rfl, rfl⟩⟩
  have hfil : ∀ v, D.Evaluation r v → (D.predicted r v).Filable D.N D.m false := by
    intro v _
    refine ⟨exFiled_comment false 0, ?_, fun h => absurd (show false = true from h) (by decide),
      fun h => absurd (show false = true from h) (by decide), fun h => absurd (show false = true from h) (by decide)⟩
    intro a ha
    obtain ⟨i, hi⟩ := List.mem_iff_getElem?.1 ha
    rw [predicted, List.getElem?_zipWith_eq_some] at hi
    obtain ⟨x, y, hx, -, rfl⟩ := hi
    exact hel x (List.mem_of_getElem? hx)
  obtain ⟨fs', table, res, text, out, e, e1, -, e2, e3, -, e4, -, e5, -, e6⟩ := C109_dataset hready [[r, r], [r]]
    (by simp) (by simp) (by
      intro ss hss x hx
      have : x = r := by
        simp only [List.mem_cons, List.not_mem_nil, or_false] at hss
        rcases hss with rfl | rfl <;> simpa using hx
      rw [this]
      exact ⟨hin, hfil⟩) fs
  refine ⟨D, r, fs', table, text, out, rfl, rfl, rfl, ?_, e, ?_, e2, ?_, e4, e6 _ ?_⟩
  · intro s hs
    rw [hs.energyRef]
    simp [baseEnergy, energyUnit, hD, hrd, exFiled]
    norm_num
  · rw [e5, List.length_map]
    simp [hD]
  · have h0 := congrArg List.length e3
    have h1 := congrArg (fun l => l.flatten.length) e1
    simp only [List.length_map] at h0
    rw [h0]
    simp only [← List.map_flatten, List.length_map] at h1
    rw [h1]
    rfl
  · intro file hf
    have hc : ∀ i, (partName file.toList i).head? = file.toList.head? := fun i => partName_first (by
      simp only [hD, if_true, List.cons_append, List.nil_append, List.mem_cons, List.not_mem_nil, or_false] at hf
      rcases hf with rfl | rfl | rfl <;> decide) i
    have hn : "input.data".toList.head? ≠ file.toList.head? := by
      simp only [hD, if_true, List.cons_append, List.nil_append, List.mem_cons, List.not_mem_nil, or_false] at hf
      rcases hf with rfl | rfl | rfl <;> decide
    exact ⟨heads_differ hn, fun i _ => heads_differ (by rw [hc]; exact hn)⟩

end N2P2
