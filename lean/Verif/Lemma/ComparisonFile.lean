import Verif.Lemma.LearningCurve

/-! Comparison files of all processes. -/

namespace N2P2

open Training (Key SampleType)

/-! ### Names -/

/-- Name of the file of one process. -/
def partName (file : Str) (rank : ℕ) : Str :=
  file ++ ['.'] ++ (List.replicate (4 - (natText rank).length) '0' ++ natText rank)

theorem procFileName_some {file : Str} {rank : ℕ} {x : Str} (h : procFileName file rank = some x) :
    x = partName file rank := by
  unfold procFileName strpr at h
  split_ifs at h
  exact (Option.some.inj h).symm

theorem procFileName_short {file : Str} (hf : file.length ≤ 900) {rank : ℕ} (hr : rank < 2 ^ 64) :
    procFileName file rank = some (partName file rank) := by
  have := natText_size hr
  unfold procFileName strpr partName
  refine if_pos ?_
  simp only [List.length_append, List.length_cons, List.length_nil, List.length_replicate]
  omega

theorem partName_inj {file : Str} {r r' : ℕ} (h : partName file r = partName file r') : r = r' := by
  unfold partName at h
  exact zeroPad_inj (List.append_cancel_left h)

theorem natText_last (n : ℕ) : ∃ c, (natText n).getLast? = some c ∧ c.isDigit = true := by
  have h := (natText_word n).1
  exact ⟨(natText n).getLast h, List.getLast?_eq_getLast_of_ne_nil h, natText_digit (List.getLast_mem h)⟩

theorem partName_last (file : Str) (r : ℕ) : ∃ c, (partName file r).getLast? = some c ∧
    c.isDigit = true := by
  obtain ⟨c, h, hc⟩ := natText_last r
  refine ⟨c, ?_, hc⟩
  unfold partName
  rw [List.getLast?_append, List.getLast?_append, h]
  rfl

theorem partName_ne (file : Str) (r : ℕ) : partName file r ≠ file := by
  intro h
  have := congrArg List.length h
  simp [partName] at this

theorem comparisonName_last (set : Str) (k : Key) (e : ℕ) :
    (comparisonName set k e).getLast? = some 't' := by
  unfold comparisonName
  rw [List.getLast?_append]
  rfl

theorem partName_ne_comparison (file set : Str) (k : Key) (e r : ℕ) :
    partName file r ≠ comparisonName set k e := by
  intro h
  obtain ⟨c, hc, hd⟩ := partName_last file r
  rw [h, comparisonName_last] at hc
  cases hc
  exact absurd hd (by decide)

theorem comparisonName_short (part : Part) (k : Key) {e : ℕ} (he : e < 2 ^ 64) :
    (comparisonName part.text k e).length ≤ 900 := by
  have := natText_size he
  have h1 : part.text.length ≤ 5 := by cases part <;> decide
  have h2 : k.middle.length ≤ 7 := by cases k <;> decide
  have h3 : (".out".toList).length = 4 := rfl
  unfold comparisonName
  simp only [List.length_append, List.length_cons, List.length_nil, List.length_replicate, h3]
  omega

theorem comparisonName_ne_nil (set : Str) (k : Key) (e : ℕ) : comparisonName set k e ≠ [] := by
  intro h
  have := comparisonName_last set k e
  rw [h] at this
  cases this

theorem comparisonName_inj {p p' : Part} {k k' : Key} {e : ℕ}
    (h : comparisonName p.text k e = comparisonName p'.text k' e) : p = p' ∧ k = k' := by
  unfold comparisonName at h
  have h1 := List.append_cancel_right h
  have h2 : p.text ++ k.middle = p'.text ++ k'.middle :=
    List.append_cancel_right (List.append_cancel_right h1)
  revert h2
  cases p <;> cases p' <;> cases k <;> cases k' <;> decide

/-! ### Files -/

theorem writeProcFiles_ok (file : Str) (hf : file.length ≤ 900) : ∀ (texts : List Str) (r : ℕ)
    (fs : Files), r + texts.length < 2 ^ 64 →
    ∃ fs', writeProcFiles file r texts fs = some fs' ∧
      (∀ i t, texts[i]? = some t → fs' (partName file (r + i)) = some t) ∧
      ∀ x, (∀ i, i < texts.length → x ≠ partName file (r + i)) → fs' x = fs x := by
  intro texts
  induction texts with
  | nil => intro r fs _; exact ⟨fs, rfl, by simp, fun _ _ => rfl⟩
  | cons t texts ih =>
    intro r fs hr
    rw [List.length_cons] at hr
    obtain ⟨fs', e, h1, h2⟩ := ih (r + 1) (fs.write (partName file r) t) (by omega)
    refine ⟨fs', ?_, ?_, ?_⟩
    · unfold writeProcFiles
      rw [procFileName_short hf (by omega)]
      exact e
    · intro i t' hi
      cases i with
      | zero =>
        cases hi
        rw [h2 _ (by
          intro i _ h
          have := partName_inj h
          omega)]
        exact Function.update_self ..
      | succ i =>
        have := h1 i t' (by simpa using hi)
        rw [← this]
        congr 2
        omega
    · intro x hx
      rw [h2 x (by
        intro i hi
        have := hx (i + 1) (by rw [List.length_cons]; omega)
        rwa [show r + (i + 1) = r + 1 + i by omega] at this)]
      exact Function.update_of_ne (hx 0 (by simp)) ..

theorem combineFiles_ok (file : Str) (hf : file.length ≤ 900) (texts : List Str) (fs : Files)
    (hn : texts.length < 2 ^ 64)
    (h : ∀ i t, texts[i]? = some t → fs (partName file i) = some t) :
    ∃ fs', combineFiles texts.length file fs = some fs' ∧ fs' file = some texts.flatten ∧
      (∀ i, i < texts.length → fs' (partName file i) = none) ∧
      ∀ x, x ≠ file → (∀ i, i < texts.length → x ≠ partName file i) → fs' x = fs x := by
  have key : ∀ j, j ≤ texts.length →
      ∃ fs', (List.range j).foldlM (combineFile file) (fs.write file []) = some fs' ∧
        fs' file = some (texts.take j).flatten ∧
        (∀ i, i < j → fs' (partName file i) = none) ∧
        (∀ i t, j ≤ i → texts[i]? = some t → fs' (partName file i) = some t) ∧
        ∀ x, x ≠ file → (∀ i, i < j → x ≠ partName file i) → fs' x = fs x := by
    intro j
    induction j with
    | zero =>
      intro _
      refine ⟨_, rfl, Function.update_self .., fun i hi => absurd hi (by omega), ?_, ?_⟩
      · intro i t _ hi
        rw [← h i t hi]
        exact Function.update_of_ne (partName_ne file i) ..
      · intro x hx _
        exact Function.update_of_ne hx ..
    | succ j ih =>
      intro hj
      obtain ⟨fs', e, h1, h2, h3, h4⟩ := ih (by omega)
      have ht := h3 j _ le_rfl (List.getElem?_eq_getElem (by omega : j < texts.length))
      refine ⟨((fs'.write file ((texts.take j).flatten ++ texts[j])).remove (partName file j)), ?_, ?_,
        ?_, ?_, ?_⟩
      · rw [List.range_succ, List.foldlM_append, e]
        show (List.foldlM (combineFile file) fs' [j]) = _
        rw [List.foldlM_cons]
        unfold combineFile
        rw [procFileName_short hf (by omega)]
        simp only [Option.bind_eq_bind, Option.bind_some, ht, h1, List.foldlM_nil]
        rfl
      · unfold Files.remove
        rw [Function.update_of_ne (partName_ne file j).symm]
        unfold Files.write
        rw [Function.update_self, List.take_succ_eq_append_getElem (by omega : j < texts.length)]
        simp only [List.flatten_append, List.flatten_cons, List.flatten_nil, List.append_nil]
      · intro i hi
        by_cases hij : i = j
        · subst hij; exact Function.update_self ..
        · unfold Files.remove Files.write
          rw [Function.update_of_ne fun h => hij (partName_inj h),
            Function.update_of_ne (partName_ne file i)]
          exact h2 i (by omega)
      · intro i t hi hit
        unfold Files.remove Files.write
        rw [Function.update_of_ne fun h => absurd (partName_inj h) (by omega),
          Function.update_of_ne (partName_ne file i)]
        exact h3 i t (by omega) hit
      · intro x hx hp
        unfold Files.remove Files.write
        rw [Function.update_of_ne (hp j (by omega)), Function.update_of_ne hx]
        exact h4 x hx fun i hi => hp i (by omega)
  obtain ⟨fs', e, h1, h2, -, h4⟩ := key texts.length le_rfl
  exact ⟨fs', e, by rwa [List.take_length] at h1, h2, h4⟩

theorem comparisonFile_ok (file : Str) (hf : file.length ≤ 900) (texts : List Str) (fs : Files)
    (hn : texts.length < 2 ^ 64) :
    ∃ fs', comparisonFile file texts fs = some fs' ∧ fs' file = some texts.flatten ∧
      (∀ i, i < texts.length → fs' (partName file i) = none) ∧
      ∀ x, x ≠ file → (∀ i, i < texts.length → x ≠ partName file i) → fs' x = fs x := by
  obtain ⟨fs1, e1, h1, h2⟩ := writeProcFiles_ok file hf texts 0 fs (by omega)
  obtain ⟨fs2, e2, h3, h4, h5⟩ := combineFiles_ok file hf texts fs1 hn (by simpa using h1)
  refine ⟨fs2, ?_, h3, h4, ?_⟩
  · unfold comparisonFile
    rw [e1]
    exact e2
  · intro x hx hp
    rw [h5 x hx hp]
    exact h2 x (by simpa using hp)

/-! ### One property -/

theorem mapM_zipIdx {α β : Type} {f : α × ℕ → Option β} {R : ℕ → α → β → Prop} : ∀ (l : List α) (n : ℕ),
    (∀ a ∈ l, ∀ i, ∃ b, f (a, i) = some b ∧ R i a b) →
    ∃ bs, (l.zipIdx n).mapM f = some bs ∧ bs.length = l.length ∧
      ∀ (i : ℕ) (a : α) (b : β), l[i]? = some a → bs[i]? = some b → R (n + i) a b := by
  intro l
  induction l with
  | nil => intro n _; exact ⟨[], rfl, rfl, by simp⟩
  | cons a l ih =>
    intro n h
    obtain ⟨b, e, hb⟩ := h a (by simp) n
    obtain ⟨bs, e', hl, hbs⟩ := ih (n + 1) fun x hx => h x (by simp [hx])
    refine ⟨b :: bs, by simp [List.zipIdx_cons, e, e'], by simp [hl], ?_⟩
    intro i x y hx hy
    cases i with
    | zero => cases hx; cases hy; exact hb
    | succ i =>
      have := hbs i x y (by simpa using hx) (by simpa using hy)
      rwa [show n + (i + 1) = n + 1 + i by omega]

theorem flatten_filter {α : Type} (p : α → Bool) (l : List (List α)) :
    (l.map fun x => x.filter p).flatten = l.flatten.filter p := by
  rw [List.filter_flatten]

theorem flatMap_parts {α β : Type} (f : List α → List α) (g : α → List β) (l : List (List α)) :
    (l.map f).flatten.flatMap g = l.flatMap fun x => (f x).flatMap g := by
  induction l with
  | nil => rfl
  | cons a l ih => rw [List.map_cons, List.flatten_cons, List.flatMap_append, ih, List.flatMap_cons]

/-- Result for one property. -/
structure ErrorsOf (N : NumberText) (k : Key) (procs : List (List Structure)) (e : PropErrors) : Prop where
  value : ∀ m ∈ k.metrics, ∀ part : Part, (e.of part).value m = errorOf k m (partOf part procs)

/-- A comparison file. -/
def IsComparison (N : NumberText) (k : Key) (part : Part) (procs : List (List Structure)) (text : Str) :
    Prop := ∃ h t, comparisonHeader k = some h ∧ text = h.flatten ++ t ∧
      Rows t ((partOf part procs).flatMap (comparisonWords N k))

theorem rows_of_ranks {α : Type} {g : α → List (List Str)} : ∀ (ls : List α) (texts : List Str) (h : Str),
    ls.length = texts.length → ls ≠ [] →
    (∀ (i : ℕ) (a : α) (t : Str), ls[i]? = some a → texts[i]? = some t →
      ∃ t', t = (if i = 0 then h else []) ++ t' ∧ Rows t' (g a)) →
    ∃ t, texts.flatten = h ++ t ∧ Rows t (ls.flatMap g) := by
  have tail : ∀ (ls : List α) (texts : List Str), ls.length = texts.length →
      (∀ (i : ℕ) (a : α) (t : Str), ls[i]? = some a → texts[i]? = some t → Rows t (g a)) →
      Rows texts.flatten (ls.flatMap g) := by
    intro ls
    induction ls with
    | nil => intro texts hl _; cases texts with
      | nil => exact rows_nil
      | cons => cases hl
    | cons a ls ih =>
      intro texts hl h
      cases texts with
      | nil => cases hl
      | cons t texts =>
        rw [List.flatten_cons, List.flatMap_cons]
        exact rows_append (h 0 a t rfl rfl) (ih texts (by simpa using hl) fun i a' t' h1 h2 =>
          h (i + 1) a' t' (by simpa using h1) (by simpa using h2))
  intro ls texts h hl hne hr
  cases ls with
  | nil => exact absurd rfl hne
  | cons a ls =>
    cases texts with
    | nil => cases hl
    | cons t texts =>
      obtain ⟨t', e, r⟩ := hr 0 a t rfl rfl
      rw [if_pos rfl] at e
      refine ⟨t' ++ texts.flatten, by rw [List.flatten_cons, e, List.append_assoc], ?_⟩
      rw [List.flatMap_cons]
      refine rows_append r (tail ls texts (by simpa using hl) fun i a' u h1 h2 => ?_)
      obtain ⟨u', e', r'⟩ := hr (i + 1) a' u (by simpa using h1) (by simpa using h2)
      rw [if_neg (by omega), List.nil_append] at e'
      rwa [e']

theorem forall₂_of_index {α β : Type} {R : α → β → Prop} : ∀ (l : List α) (l' : List β),
    l.length = l'.length →
    (∀ (i : ℕ) (a : α) (b : β), l[i]? = some a → l'[i]? = some b → R a b) → List.Forall₂ R l l'
  | [], [], _, _ => .nil
  | [], _ :: _, h, _ => by cases h
  | _ :: _, [], h, _ => by cases h
  | a :: l, b :: l', h, hr => .cons (hr 0 a b rfl rfl)
      (forall₂_of_index l l' (by simpa using h) fun i x y hx hy =>
        hr (i + 1) x y (by simpa using hx) (by simpa using hy))

theorem calculateErrorOf_ok {N : NumberText} (hN : N.Data) (k : Key) {procs : List (List Structure)}
    (hp : procs ≠ []) (hlen : procs.length < 2 ^ 64) (hs : ∀ ss ∈ procs, ∀ s ∈ ss, Trainable s)
    {epoch : ℕ} (he : epoch < 2 ^ 64) (due : Bool) (fs : Files) :
    ∃ e fs', calculateErrorOf N k (if due then
        some (comparisonName Part.train.text k epoch, comparisonName Part.test.text k epoch) else none)
        procs fs = some (e, fs') ∧ ErrorsOf N k procs e ∧
      (due = true → ∀ part : Part, (∃ text, fs' (comparisonName part.text k epoch) = some text ∧
        IsComparison N k part procs text) ∧
        ∀ i, i < procs.length → fs' (partName (comparisonName part.text k epoch) i) = none) ∧
      ∀ x, (due = true → ∀ part : Part, x ≠ comparisonName part.text k epoch ∧
        ∀ i, i < procs.length → x ≠ partName (comparisonName part.text k epoch) i) → fs' x = fs x := by
  obtain ⟨h, hh, -⟩ := comparisonHeader_ok k
  obtain ⟨ps, e, hl, hps⟩ := mapM_zipIdx (f := fun p => PropState.run N k due p.2 p.1)
    (R := fun i ss p => Processed N k due (if i = 0 then h.flatten else []) ss p) procs 0
    fun ss hss i => run_processed hN k due i hh fun s hs' => hs ss hss s hs'
  have hval : ErrorsOf N k procs ⟨collectError (ps.map (·.train)), collectError (ps.map (·.test))⟩ := by
    refine ⟨fun m hm part => ?_⟩
    cases part with
    | train =>
      have := collect_errors (k := k) (parts := procs.map fun ss => ss.filter (·.sampleType = .training))
        (es := ps.map (·.train)) (forall₂_of_index _ _ (by simp [hl]) (by
          intro i a b ha hb
          rw [List.getElem?_map] at ha hb
          obtain ⟨ss, h1, rfl⟩ := Option.map_eq_some_iff.1 ha
          obtain ⟨p, h2, rfl⟩ := Option.map_eq_some_iff.1 hb
          exact (hps i ss p h1 h2).train)) hm
      rw [flatten_filter] at this
      exact this
    | test =>
      have := collect_errors (k := k) (parts := procs.map fun ss => ss.filter (·.sampleType = .test))
        (es := ps.map (·.test)) (forall₂_of_index _ _ (by simp [hl]) (by
          intro i a b ha hb
          rw [List.getElem?_map] at ha hb
          obtain ⟨ss, h1, rfl⟩ := Option.map_eq_some_iff.1 ha
          obtain ⟨p, h2, rfl⟩ := Option.map_eq_some_iff.1 hb
          exact (hps i ss p h1 h2).test)) hm
      rw [flatten_filter] at this
      exact this
  cases due with
  | false =>
    refine ⟨_, fs, ?_, hval, fun h => (by cases h), fun _ _ => rfl⟩
    unfold calculateErrorOf
    simp only [Bool.false_eq_true, if_false, Option.isSome_none]
    rw [e]
    rfl
  | true =>
    have hr : ∀ (part : Part) (file : PropState → Str), (∀ (i : ℕ) (ss : List Structure) (p : PropState),
        procs[i]? = some ss → ps[i]? = some p → ∃ t, file p = (if i = 0 then h.flatten else []) ++ t ∧
          Rows t ((ss.filter (·.sampleType = part.sample)).flatMap (comparisonWords N k))) →
        IsComparison N k part procs (ps.map file).flatten := by
      intro part file hf
      obtain ⟨t, e1, r⟩ := rows_of_ranks (g := fun ss : List Structure =>
        (ss.filter (·.sampleType = part.sample)).flatMap (comparisonWords N k)) procs (ps.map file)
        h.flatten (by simp [hl]) hp (by
          intro i ss t hi ht
          rw [List.getElem?_map] at ht
          obtain ⟨p, h2, rfl⟩ := Option.map_eq_some_iff.1 ht
          exact hf i ss p hi h2)
      refine ⟨h, t, hh, e1, ?_⟩
      unfold partOf
      rw [← flatten_filter, flatMap_parts]
      exact r
    have r1 := hr .train (·.fileTrain) fun i ss p h1 h2 => by
      have := (hps i ss p h1 h2).fileTrain rfl
      rwa [Nat.zero_add] at this
    have r2 := hr .test (·.fileTest) fun i ss p h1 h2 => by
      have := (hps i ss p h1 h2).fileTest rfl
      rwa [Nat.zero_add] at this
    have hl1 : (ps.map (·.fileTrain)).length = procs.length := by simp [hl]
    have hl2 : (ps.map (·.fileTest)).length = procs.length := by simp [hl]
    obtain ⟨fs1, e1, a1, a2, a3⟩ := comparisonFile_ok (comparisonName Part.train.text k epoch)
      (comparisonName_short _ k he) (ps.map (·.fileTrain)) fs (by omega)
    obtain ⟨fs2, e2, b1, b2, b3⟩ := comparisonFile_ok (comparisonName Part.test.text k epoch)
      (comparisonName_short _ k he) (ps.map (·.fileTest)) fs1 (by omega)
    rw [hl1] at a2 a3
    rw [hl2] at b2 b3
    refine ⟨_, fs2, ?_, hval, fun _ part => ?_, fun x hx => ?_⟩
    · unfold calculateErrorOf
      simp only [if_true, Option.isSome_some]
      rw [e]
      simp only [Option.bind_eq_bind, Option.bind_some]
      rw [if_neg (by
        rintro (h | h)
        · exact comparisonName_ne_nil _ _ _ h
        · exact comparisonName_ne_nil _ _ _ h), e1, Option.bind_some, e2, Option.bind_some]
    · cases part with
      | train =>
        refine ⟨⟨_, ?_, r1⟩, fun i hi => ?_⟩
        · rw [b3 _ (fun h => by cases (comparisonName_inj h).1) fun i _ h =>
            partName_ne_comparison _ _ _ _ _ h.symm]
          exact a1
        · by_cases hx : ∃ j, j < procs.length ∧ partName (comparisonName Part.train.text k epoch) i =
              partName (comparisonName Part.test.text k epoch) j
          · obtain ⟨j, hj, ej⟩ := hx
            rw [ej]; exact b2 j hj
          · rw [b3 _ (partName_ne_comparison _ _ _ _ _) fun j hj h => hx ⟨j, hj, h⟩]
            exact a2 i hi
      | test => exact ⟨⟨_, b1, r2⟩, b2⟩
    · have h1 := hx rfl .train
      have h2 := hx rfl .test
      rw [b3 x h2.1 h2.2, a3 x h1.1 h1.2]

end N2P2
