import Verif.Spec.AtomEnvironment
import Verif.Lemma.Histogram
import Verif.Lemma.ComparisonFile
import Verif.Lemma.Mode4GResponse

/-! Lines for atoms and their neighbours. -/

namespace N2P2

/-! ### Sorting -/

theorem SortsNeighbors.atoms {s t : Structure} (h : SortsNeighbors s t) (i : ℕ) (b : Atom)
    (hb : t.atoms[i]? = some b) : ∃ a, s.atoms[i]? = some a ∧ b = { a with neighbors := b.neighbors } ∧
      a.neighbors.Perm b.neighbors ∧ b.neighbors.Pairwise fun m n => m.d ≤ n.d := by
  obtain ⟨hi, rfl⟩ := List.getElem?_eq_some_iff.1 hb
  have h1 := List.forall₂_iff_get.1 h.2
  have hi' : i < s.atoms.length := by rw [h1.1]; exact hi
  exact ⟨_, List.getElem?_eq_getElem hi', h1.2 i hi' hi⟩

theorem SortsNeighbors.length {s t : Structure} (h : SortsNeighbors s t) : t.atoms.length = s.atoms.length :=
  h.2.length_eq.symm

theorem GoodLists.sorted {k : ℕ} {Z : ℕ → ℕ} {s t : Structure} (hs : GoodLists k Z s) (h : SortsNeighbors s t) :
    GoodLists k Z t := by
  have hm : ∀ b ∈ t.atoms, ∃ a ∈ s.atoms, b = { a with neighbors := b.neighbors } ∧
      a.neighbors.Perm b.neighbors := by
    intro b hb
    obtain ⟨i, hi, rfl⟩ := List.getElem_of_mem hb
    obtain ⟨a, h1, h2, h3, -⟩ := h.atoms i _ (List.getElem?_eq_getElem hi)
    exact ⟨a, List.mem_of_getElem? h1, h2, h3⟩
  refine ⟨?_, ?_, ?_, ?_, ?_, ?_, ?_, ?_⟩
  · rw [h.length, h.1]
    exact hs.numAtoms
  · rw [h.length]
    exact hs.size
  · intro i b hb
    obtain ⟨a, h1, h2, -⟩ := h.atoms i b hb
    rw [h2]
    exact hs.index i a h1
  · intro b hb
    obtain ⟨a, ha, h2, -⟩ := hm b hb
    rw [h2]
    exact hs.element a ha
  · intro b hb
    obtain ⟨a, ha, h2, h3⟩ := hm b hb
    have e1 : b.numNeighborsPerElement = a.numNeighborsPerElement := by rw [h2]
    rw [e1, hs.counts a ha]
    exact List.map_congr_left fun e _ => h3.countP_eq _
  · intro b hb
    obtain ⟨a, ha, -, h3⟩ := hm b hb
    rw [← h3.length_eq]
    exact hs.few a ha
  · intro b hb n hn
    obtain ⟨a, ha, -, h3⟩ := hm b hb
    rw [h.length]
    exact hs.neighbor a ha n (h3.mem_iff.2 hn)
  · intro b hb n hn c hc
    obtain ⟨a, ha, h2, h3⟩ := hm b hb
    obtain ⟨c', g1, g2, g3, -⟩ := h.atoms _ c hc
    obtain ⟨m, hm1, hm2⟩ := hs.back a ha n (h3.mem_iff.2 hn) c' g1
    refine ⟨m, g3.mem_iff.1 hm1, ?_⟩
    rw [hm2, h2]

/-! ### Neighbour lists -/

theorem neighborListAtom_ok {Z : ℕ → ℕ} {k : ℕ} {s : Structure} (hs : GoodLists k Z s) {a : Atom}
    (ha : a ∈ s.atoms) :
    ∃ t, neighborListAtom Z k a = some t ∧ Rows t [neighborRow Z k a] := by
  have hz := natText_size (hs.element a ha).2
  unfold neighborListAtom
  have hlen : ∀ w : Str, w.length ≤ 20 → strpr (' ' :: w) = some (' ' :: w) := by
    intro w hw
    apply strpr_some
    rw [List.length_cons]
    omega
  have e1 : strpr (natText (Z a.element)) = some (natText (Z a.element)) := strpr_some (by omega)
  have e2 : (List.range k).mapM (fun i => do
      let c ← a.numNeighborsPerElement[i]?
      strpr (' ' :: natText c)) = some ((List.range k).map fun e =>
        ' ' :: natText (a.neighbors.countP fun n => n.element = e)) := by
    refine mapM_of_map fun e he => ?_
    rw [hs.counts a ha, List.getElem?_map, List.getElem?_range (List.mem_range.1 he)]
    refine hlen _ (natText_size ?_)
    exact lt_of_le_of_lt List.countP_le_length (hs.few a ha)
  have e3 : a.neighbors.mapM (fun n => strpr (' ' :: natText n.index)) =
      some (a.neighbors.map fun n => ' ' :: natText n.index) := by
    refine mapM_of_map fun n hn => hlen _ (natText_size ?_)
    exact lt_trans (hs.neighbor a ha n hn).2 hs.size
  rw [e1, e2, e3]
  refine ⟨_, rfl, ?_⟩
  let ws : List Str := (List.range k).map (fun e => natText (a.neighbors.countP fun n => n.element = e)) ++
    a.neighbors.map fun n => natText n.index
  have h := row_line' 0 (natText_word (Z a.element)) (natText_newline _) (by
    have := (lead_head 0 (Z a.element) []).2
    simpa using this) (ws.map fun w => (0, w)) (by
    intro f hf
    obtain ⟨w, hw, rfl⟩ := List.mem_map.1 hf
    rcases List.mem_append.1 hw with hw | hw
    · obtain ⟨_, -, rfl⟩ := List.mem_map.1 hw
      exact ⟨natText_word _, natText_newline _⟩
    · obtain ⟨_, -, rfl⟩ := List.mem_map.1 hw
      exact ⟨natText_word _, natText_newline _⟩)
  have e4 : fieldLine (padLeft 0 (natText (Z a.element)))
      ((ws.map fun w => (0, w)).map fun f : ℕ × Str => padLeft f.1 f.2) =
      natText (Z a.element) ++ ((List.range k).map fun e =>
        ' ' :: natText (a.neighbors.countP fun n => n.element = e)).flatten ++
        (a.neighbors.map fun n => ' ' :: natText n.index).flatten ++ ['\n'] := by
    simp [fieldLine, padLeft, ws, List.flatMap_def, Function.comp_def]
  have e5 : (ws.map fun w => (0, w)).map (Prod.snd : ℕ × Str → Str) = ws := by
    simp [Function.comp_def]
  rw [e4, e5] at h
  exact h

theorem rows_flatMap {α : Type} (f : α → Str) (w : α → List (List Str)) : ∀ l : List α,
    (∀ a ∈ l, Rows (f a) (w a)) → Rows (l.map f).flatten (l.flatMap w) := by
  intro l
  induction l with
  | nil => intro _; exact rows_nil
  | cons a l ih =>
    intro h
    rw [List.map_cons, List.flatten_cons, List.flatMap_cons]
    exact rows_append (h a (by simp)) (ih fun x hx => h x (by simp [hx]))

theorem neighborListText_ok {Z : ℕ → ℕ} {k : ℕ} {ss : List Structure} (hs : ∀ s ∈ ss, GoodLists k Z s) :
    ∃ t, neighborListText Z k ss = some t ∧
      Rows t (ss.flatMap fun s => [natText s.atoms.length] :: s.atoms.map (neighborRow Z k)) := by
  have hex : ∀ s ∈ ss, ∃ t, (do
      let first ← strpr (natText s.numAtoms ++ ['\n'])
      let lines ← s.atoms.mapM (neighborListAtom Z k)
      some (first ++ lines.flatten)) = some t ∧
      Rows t ([natText s.atoms.length] :: s.atoms.map (neighborRow Z k)) := by
    intro s h
    have hg := hs s h
    have h1 : ∀ a ∈ s.atoms, ∃ t, neighborListAtom Z k a = some t ∧ Rows t [neighborRow Z k a] :=
      fun a ha => neighborListAtom_ok hg ha
    choose! f hf using h1
    have e1 : s.atoms.mapM (neighborListAtom Z k) = some (s.atoms.map f) :=
      mapM_of_map fun a ha => (hf a ha).1
    have e2 : strpr (natText s.numAtoms ++ ['\n']) = some (natText s.atoms.length ++ ['\n']) := by
      rw [hg.numAtoms]
      apply strpr_some
      have := natText_size hg.size
      rw [List.length_append, List.length_singleton]
      omega
    rw [e1, e2]
    refine ⟨_, rfl, ?_⟩
    have r1 : Rows (natText s.atoms.length ++ ['\n']) [[natText s.atoms.length]] := by
      have := row_line 0 s.atoms.length [] (by simp)
      simpa [fieldLine, padLeft] using this
    exact rows_append r1 (rows_flatten f _ _ fun a ha => (hf a ha).2)
  choose! f hf using hex
  refine ⟨(ss.map f).flatten, ?_, rows_flatMap f _ ss fun s h => (hf s h).2⟩
  unfold neighborListText
  rw [mapM_of_map fun s h => (hf s h).1]
  rfl

/-! ### Selection of neighbours -/

/-- The neighbours taken by the loop if `c` were taken before. -/
def takenNeighbors (cut : ℕ → ℕ) : (ℕ → ℕ) → List Neighbor → List Neighbor
  | _, [] => []
  | c, n :: ns =>
    if c n.element < cut n.element then
      n :: takenNeighbors cut (Function.update c n.element (c n.element + 1)) ns
    else takenNeighbors cut c ns

theorem taken_sublist (cut : ℕ → ℕ) (ns : List Neighbor) : ∀ c, (takenNeighbors cut c ns).Sublist ns := by
  induction ns with
  | nil => intro c; exact List.Sublist.slnil
  | cons n ns ih =>
    intro c
    unfold takenNeighbors
    split_ifs
    · exact (ih _).cons_cons n
    · exact (ih _).cons n

theorem taken_filter (cut : ℕ → ℕ) (e : ℕ) (ns : List Neighbor) : ∀ c,
    ((takenNeighbors cut c ns).filter fun n => n.element = e) =
      (ns.filter fun n => n.element = e).take (cut e - c e) := by
  induction ns with
  | nil => intro c; simp [takenNeighbors]
  | cons n ns ih =>
    intro c
    unfold takenNeighbors
    by_cases hc : c n.element < cut n.element
    · rw [if_pos hc]
      by_cases he : n.element = e
      · rw [List.filter_cons_of_pos (by simpa using he), List.filter_cons_of_pos (by simpa using he), ih]
        subst he
        rw [Function.update_self]
        obtain ⟨m, hm⟩ : ∃ m, cut n.element - c n.element = m + 1 :=
          ⟨cut n.element - c n.element - 1, by omega⟩
        rw [hm, List.take_succ_cons]
        congr 2
        omega
      · rw [List.filter_cons_of_neg (by simpa using he), List.filter_cons_of_neg (by simpa using he), ih,
          Function.update_of_ne (Ne.symm he)]
    · rw [if_neg hc, ih]
      by_cases he : n.element = e
      · rw [List.filter_cons_of_pos (by simpa using he)]
        subst he
        rw [show cut n.element - c n.element = 0 by omega, List.take_zero, List.take_zero]
      · rw [List.filter_cons_of_neg (by simpa using he)]

theorem taken_selected (k : ℕ) (cut : ℕ → ℕ) {a : Atom} (hs : a.neighbors.Pairwise fun m n => m.d ≤ n.d) :
    Selected k cut a (takenNeighbors cut (fun _ => 0) a.neighbors) :=
  ⟨taken_sublist _ _ _, hs.sublist (taken_sublist _ _ _), fun e _ => taken_filter cut e _ _⟩

/-! ### Text of numbers -/

/-- Field with padding. -/
noncomputable def envField (N : NumberText) (x : ℝ) : ℕ × Str := (16 - (N.print x).length, N.print x)

theorem envFields_ok {N : NumberText} (hN : N.Data) (xs : List ℝ) :
    envFields N xs = .ok (spaced (xs.map (envField N))) := by
  unfold envFields
  have e : xs.mapM (fun x => strpr (' ' :: padLeft 16 (N.print x))) =
      some (xs.map fun x => ' ' :: padLeft 16 (N.print x)) := by
    refine mapM_of_map fun x _ => strpr_some ?_
    have := (hN.1 x).2.2
    simp only [padLeft, List.length_append, List.length_replicate, List.length_cons]
    omega
  rw [e]
  show Except.ok _ = Except.ok _
  congr 1
  simp [spaced, padLeft, envField, List.flatMap_def, Function.comp_def]

theorem envVectors_ok {N : NumberText} (hN : N.Data) (vs : List Vec3) :
    envVectors N vs = .ok fun c => spaced (vs.map fun v => envField N (v c)) := by
  unfold envVectors
  rw [envFields_ok hN, envFields_ok hN, envFields_ok hN]
  show Except.ok _ = Except.ok _
  congr 1
  funext c
  fin_cases c <;> simp [Function.comp_def]

theorem spaced_append (A B : List (ℕ × Str)) : spaced (A ++ B) = spaced A ++ spaced B := by
  simp [spaced]

theorem envMutual_ok {N : NumberText} (hN : N.Data) {s : Structure} {a b : Atom} {n : Neighbor}
    (hb : s.atoms[n.index]? = some b) (hm : ∃ m ∈ b.neighbors, m.index = a.index) :
    envMutual N a b = .ok fun c => spaced ((firstEntry s a n).map fun v => envField N (v c)) := by
  unfold envMutual firstEntry mutualEntries
  rw [hb]
  have e1 : ((some b).map fun b : Atom => b.neighbors.filter fun m => m.index = a.index).getD [] =
      b.neighbors.filter fun m => m.index = a.index := rfl
  rw [e1, List.head?_filter]
  cases h : b.neighbors.find? fun m => decide (m.index = a.index) with
  | none =>
    rw [List.find?_eq_none] at h
    obtain ⟨m, hm1, hm2⟩ := hm
    exact absurd (by simpa using hm2) (h m hm1)
  | some m =>
    show envVectors N m.dGdr = _
    rw [envVectors_ok hN]
    rfl

/-! ### Loop over the neighbours -/

theorem envNeighbors_ok {N : NumberText} (hN : N.Data) (cut : List ℕ) (k : ℕ) (hk : cut.length = k)
    (derivatives : Bool) (s : Structure) (a : Atom) : ∀ (ns : List Neighbor),
    (∀ n ∈ ns, n.element < k ∧ n.index < s.atoms.length ∧ ∀ b, s.atoms[n.index]? = some b →
      ∃ m ∈ b.neighbors, m.index = a.index) →
    ∀ (counts : List ℕ) (c : ℕ → ℕ) (t : EnvText), counts.length = k →
    (∀ e < k, counts[e]? = some (c e)) →
    ∃ counts', ns.foldlM (envNeighbor N cut derivatives s a) (counts, t) = .ok (counts', t.add
      ⟨spaced (((takenNeighbors (fun e => cut.getD e 0) c ns).flatMap (neighborValues s)).map
        (envField N)),
       fun d => if derivatives then
          spaced (((takenNeighbors (fun e => cut.getD e 0) c ns).flatMap (firstEntry s a)).map
            fun v => envField N (v d)) else []⟩) := by
  intro ns
  induction ns with
  | nil =>
    intro _ counts c t _ _
    refine ⟨counts, ?_⟩
    cases derivatives <;> simp [takenNeighbors, EnvText.add, spaced, pure, Except.pure]
  | cons n ns ih =>
    intro hn counts c t hc1 hc2
    obtain ⟨hne, hni, hnb⟩ := hn n (by simp)
    have ih' := ih fun m hm => hn m (by simp [hm])
    have g1 : counts[n.element]? = some (c n.element) := hc2 _ hne
    have g2 : cut[n.element]? = some (cut.getD n.element 0) := by
      rw [List.getElem?_eq_getElem (by omega), List.getD_eq_getElem?_getD,
        List.getElem?_eq_getElem (by omega)]
      rfl
    have g3 : s.atoms[n.index]? = some s.atoms[n.index] := List.getElem?_eq_getElem hni
    rw [List.foldlM_cons]
    unfold takenNeighbors
    by_cases hlt : c n.element < cut.getD n.element 0
    · have e : envNeighbor N cut derivatives s a (counts, t) n =
          .ok (counts.set n.element (c n.element + 1), t.add
            ⟨spaced ((neighborValues s n).map (envField N)), fun d => if derivatives then
              spaced ((firstEntry s a n).map fun v => envField N (v d)) else []⟩) := by
        unfold envNeighbor
        dsimp only
        rw [g1, g2]
        show (if c n.element < cut.getD n.element 0 then _ else _) = _
        rw [if_pos hlt, g3]
        show (envFields N s.atoms[n.index].G).bind _ = _
        rw [envFields_ok hN]
        show (onlyDerivatives derivatives (envMutual N a s.atoms[n.index])).bind _ = _
        rw [envMutual_ok hN g3 (hnb _ g3)]
        have hv : neighborValues s n = s.atoms[n.index].G := by
          unfold neighborValues
          rw [g3]
          rfl
        rw [hv]
        cases derivatives <;> rfl
      obtain ⟨counts', h⟩ := ih' (counts.set n.element (c n.element + 1))
        (Function.update c n.element (c n.element + 1)) (t.add
            ⟨spaced ((neighborValues s n).map (envField N)), fun d => if derivatives then
              spaced ((firstEntry s a n).map fun v => envField N (v d)) else []⟩)
        (by rw [List.length_set, hc1]) (by
          intro e he
          by_cases h : e = n.element
          · subst h
            rw [Function.update_self, List.getElem?_set_self (by omega)]
          · rw [Function.update_of_ne h, List.getElem?_set_ne (Ne.symm h)]
            exact hc2 e he)
      refine ⟨counts', ?_⟩
      rw [e]
      refine h.trans ?_
      rw [if_pos hlt, List.flatMap_cons, List.flatMap_cons, List.map_append, spaced_append]
      cases derivatives with
      | true =>
        simp only [EnvText.add, List.append_assoc, if_pos, List.map_append, spaced_append]
      | false => simp [EnvText.add, List.append_assoc]
    · have e : envNeighbor N cut derivatives s a (counts, t) n = .ok (counts, t) := by
        unfold envNeighbor
        dsimp only
        rw [g1, g2]
        show (if c n.element < cut.getD n.element 0 then _ else _) = _
        rw [if_neg hlt]
      rw [e, if_neg hlt]
      exact ih' counts c t hc1 hc2

theorem forM_step (f : ℕ → Except Fault Unit) (i : ℕ) (L : List ℕ) :
    (i :: L).forM f = (f i).bind fun _ => L.forM f := rfl

theorem envEnough_ok {k : ℕ} {cut : List ℕ} {a : Atom} (hk : cut.length = k)
    (hc : a.numNeighborsPerElement = (List.range k).map fun e => a.neighbors.countP fun n => n.element = e) :
    (envEnough k cut a = .ok () ∧ ∀ e < k, cut.getD e 0 ≤ a.neighbors.countP fun n => n.element = e) ∨
    (envEnough k cut a = .error .exception ∧
      ∃ e < k, (a.neighbors.countP fun n => n.element = e) < cut.getD e 0) := by
  have key : ∀ L : List ℕ, (∀ e ∈ L, e < k) →
      (L.forM (fun i => (do
        let c ← orThrow a.numNeighborsPerElement[i]?
        let m ← orThrow cut[i]?
        if c < m then .error .exception else .ok () : Except Fault Unit)) = .ok () ∧
        ∀ e ∈ L, cut.getD e 0 ≤ a.neighbors.countP fun n => n.element = e) ∨
      (L.forM (fun i => (do
        let c ← orThrow a.numNeighborsPerElement[i]?
        let m ← orThrow cut[i]?
        if c < m then .error .exception else .ok () : Except Fault Unit)) = .error .exception ∧
        ∃ e ∈ L, (a.neighbors.countP fun n => n.element = e) < cut.getD e 0) := by
    intro L
    induction L with
    | nil => intro _; exact Or.inl ⟨rfl, by simp⟩
    | cons i L ih =>
      intro h
      have hi := h i (by simp)
      have g1 : a.numNeighborsPerElement[i]? = some (a.neighbors.countP fun n => n.element = i) := by
        rw [hc, List.getElem?_map, List.getElem?_range hi]
        rfl
      have g2 : cut[i]? = some (cut.getD i 0) := by
        rw [List.getElem?_eq_getElem (by omega), List.getD_eq_getElem?_getD,
          List.getElem?_eq_getElem (by omega)]
        rfl
      have e1 : (do
          let c ← orThrow a.numNeighborsPerElement[i]?
          let m ← orThrow cut[i]?
          if c < m then .error .exception else .ok () : Except Fault Unit) =
          if (a.neighbors.countP fun n => n.element = i) < cut.getD i 0 then .error .exception
          else .ok () := by
        rw [g1, g2]
        rfl
      by_cases hlt : (a.neighbors.countP fun n => n.element = i) < cut.getD i 0
      · right
        refine ⟨?_, i, by simp, hlt⟩
        rw [forM_step, e1, if_pos hlt]
        rfl
      · rw [forM_step, e1, if_neg hlt]
        rcases ih fun e he => h e (by simp [he]) with ⟨h1, h2⟩ | ⟨h1, e, h2, h3⟩
        · left
          refine ⟨h1, fun e he => ?_⟩
          rcases List.mem_cons.1 he with rfl | he
          · omega
          · exact h2 e he
        · right
          exact ⟨h1, e, by simp [h2], h3⟩
  rcases key (List.range k) (fun e he => List.mem_range.1 he) with ⟨h1, h2⟩ | ⟨h1, e, h2, h3⟩
  · exact Or.inl ⟨h1, fun e he => h2 e (List.mem_range.2 he)⟩
  · exact Or.inr ⟨h1, e, List.mem_range.1 h2, h3⟩

/-- The selection made by the program. -/
def selection (cutoffs : List (List ℕ)) (a : Atom) : List Neighbor :=
  takenNeighbors (cutoffOf cutoffs a.element) (fun _ => 0) a.neighbors

theorem envRow_rows {N : NumberText} (hN : N.Data) {w : Str} (hw : GoodSymbol w) (xs : List ℝ) :
    Rows (padLeft 2 w ++ spaced (xs.map (envField N)) ++ ['\n']) [w :: xs.map N.print] := by
  have h := row_line' 2 hw.1 hw.2.1 hw.2.2.1 (xs.map fun x => (16, N.print x)) (by
    intro f hf
    obtain ⟨x, -, rfl⟩ := List.mem_map.1 hf
    exact ⟨(hN.1 x).1, (hN.1 x).2.1⟩)
  rw [fieldLine_body] at h
  have e1 : (xs.map fun x => ((16 : ℕ), N.print x)).map (fun f : ℕ × Str => (f.1 - f.2.length, f.2)) =
      xs.map (envField N) := by
    simp [envField, Function.comp_def]
  have e2 : (xs.map fun x => ((16 : ℕ), N.print x)).map (Prod.snd : ℕ × Str → Str) = xs.map N.print := by
    simp [Function.comp_def]
  rw [e1, e2] at h
  exact h

theorem envAtom_cases {N : NumberText} (hN : N.Data) {sym : ℕ → Str} {k : ℕ} (hsym : ∀ e < k, GoodSymbol (sym e))
    {cutoffs : List (List ℕ)} (hcut : SquareTable k cutoffs) (derivatives : Bool) {Z : ℕ → ℕ} {s : Structure}
    (hs : GoodLists k Z s) {a : Atom} (ha : a ∈ s.atoms) :
    ((∀ e < k, cutoffOf cutoffs a.element e ≤ a.neighbors.countP fun n => n.element = e) ∧
      ∃ t, envAtom N sym k cutoffs derivatives s a = .ok t ∧
        Rows t.G [envRow N sym s a (selection cutoffs a)] ∧
        (derivatives = true → ∀ c, Rows (t.d c)
          [envDerivRow N sym c a (selection cutoffs a) (firstEntry s a)])) ∨
    ((∃ e < k, (a.neighbors.countP fun n => n.element = e) < cutoffOf cutoffs a.element e) ∧
      envAtom N sym k cutoffs derivatives s a = .error .exception) := by
  have hel := (hs.element a ha).1
  have hc : cutoffs[a.element]? = some (cutoffs.getD a.element []) := by
    rw [List.getElem?_eq_getElem (by rw [hcut.1]; exact hel), List.getD_eq_getElem?_getD,
      List.getElem?_eq_getElem (by rw [hcut.1]; exact hel)]
    rfl
  have hlen : (cutoffs.getD a.element []).length = k := hcut.2 _ (List.mem_of_getElem? hc)
  rcases envEnough_ok hlen (hs.counts a ha) with ⟨h1, h2⟩ | ⟨h1, e, h2, h3⟩
  · left
    refine ⟨h2, ?_⟩
    have hw := hsym _ hel
    obtain ⟨counts', hf⟩ := envNeighbors_ok hN (cutoffs.getD a.element []) k hlen derivatives s a a.neighbors
      (fun n hn => ⟨(hs.neighbor a ha n hn).1, (hs.neighbor a ha n hn).2, hs.back a ha n hn⟩)
      (List.replicate k 0) (fun _ => 0) ((⟨padLeft 2 (sym a.element), fun _ => padLeft 2 (sym a.element)⟩ :
        EnvText).add ⟨spaced (a.G.map (envField N)), fun c => if derivatives then
          spaced (a.dGdr.map fun v => envField N (v c)) else []⟩) (by simp) (by
        intro e he
        rw [List.getElem?_replicate, if_pos he])
    have e0 : envAtom N sym k cutoffs derivatives s a = .ok (((((⟨padLeft 2 (sym a.element), fun _ => padLeft 2 (sym a.element)⟩ :
        EnvText).add ⟨spaced (a.G.map (envField N)), fun c => if derivatives then
          spaced (a.dGdr.map fun v => envField N (v c)) else []⟩).add
        ⟨spaced (((selection cutoffs a).flatMap (neighborValues s)).map (envField N)),
          fun d => if derivatives then
            spaced (((selection cutoffs a).flatMap (firstEntry s a)).map
              fun v => envField N (v d)) else []⟩)).add ⟨['\n'], fun _ => ['\n']⟩) := by
      unfold envAtom
      rw [hc]
      show (envEnough k (cutoffs.getD a.element []) a).bind _ = _
      rw [h1]
      have e1 : strpr (padLeft 2 (sym a.element)) = some (padLeft 2 (sym a.element)) := by
        apply strpr_some
        have := hw.2.2.2
        simp only [padLeft, List.length_append, List.length_replicate]
        omega
      show (orUndefined (strpr (padLeft 2 (sym a.element)))).bind _ = _
      rw [e1]
      show (envFields N a.G).bind _ = _
      rw [envFields_ok hN]
      show (onlyDerivatives derivatives (envVectors N a.dGdr)).bind _ = _
      rw [envVectors_ok hN]
      have e2 : (onlyDerivatives derivatives (.ok fun c => spaced (a.dGdr.map fun v => envField N (v c)))) =
          .ok fun c => if derivatives then spaced (a.dGdr.map fun v => envField N (v c)) else [] := by
        cases derivatives <;> rfl
      rw [e2]
      show Except.bind (List.foldlM (envNeighbor N (cutoffs.getD a.element []) derivatives s a) _ a.neighbors) _ = _
      rw [hf]
      rfl
    refine ⟨_, e0, ?_, ?_⟩
    · have := envRow_rows hN hw (a.G ++ (selection cutoffs a).flatMap (neighborValues s))
      rw [List.map_append (f := envField N), spaced_append] at this
      simp only [EnvText.add]
      unfold envRow
      simpa only [List.append_assoc] using this
    · intro hd c
      have := envRow_rows hN hw ((a.dGdr ++ (selection cutoffs a).flatMap (firstEntry s a)).map (· c))
      rw [List.map_map, List.map_map, List.map_append, spaced_append] at this
      simp only [EnvText.add, hd, if_true]
      unfold envDerivRow
      simpa only [List.append_assoc, Function.comp_def] using this
  · right
    refine ⟨⟨e, h2, h3⟩, ?_⟩
    unfold envAtom
    rw [hc]
    show (envEnough k (cutoffs.getD a.element []) a).bind _ = _
    rw [h1]
    rfl

/-! ### All structures -/

theorem exceptMapM_ok {α β : Type} {f : α → Except Fault β} {g : α → β} : ∀ l : List α,
    (∀ a ∈ l, f a = .ok (g a)) → l.mapM f = .ok (l.map g) := by
  intro l
  induction l with
  | nil => intro _; rfl
  | cons a l ih =>
    intro h
    rw [List.mapM_cons, h a (by simp), ih fun x hx => h x (by simp [hx])]
    rfl

theorem exceptMapM_error {α β : Type} {f : α → Except Fault β} {e : Fault} : ∀ l : List α,
    (∀ a ∈ l, (∃ b, f a = .ok b) ∨ f a = .error e) → (∃ a ∈ l, f a = .error e) → l.mapM f = .error e := by
  intro l
  induction l with
  | nil => rintro _ ⟨a, h, -⟩; cases h
  | cons a l ih =>
    intro h hex
    rw [List.mapM_cons]
    rcases h a (by simp) with ⟨b, hb⟩ | hb
    · rw [hb]
      show (l.mapM f).bind _ = _
      rw [ih (fun x hx => h x (by simp [hx]))]
      · rfl
      · obtain ⟨x, hx, he⟩ := hex
        rcases List.mem_cons.1 hx with rfl | hx
        · rw [hb] at he
          cases he
        · exact ⟨x, hx, he⟩
    · rw [hb]
      rfl

theorem envText_ok {N : NumberText} (hN : N.Data) {sym : ℕ → Str} {k : ℕ} (hsym : ∀ e < k, GoodSymbol (sym e))
    {cutoffs : List (List ℕ)} (hcut : SquareTable k cutoffs) (derivatives : Bool) {Z : ℕ → ℕ}
    {ss : List Structure} (hs : ∀ s ∈ ss, GoodLists k Z s)
    (henough : ∀ s ∈ ss, ∀ a ∈ s.atoms, ∀ e < k,
      cutoffOf cutoffs a.element e ≤ a.neighbors.countP fun n => n.element = e) :
    ∃ t, envText N sym k cutoffs derivatives ss = .ok t ∧
      Rows t.G (ss.flatMap fun s => s.atoms.map fun a => envRow N sym s a (selection cutoffs a)) ∧
      (derivatives = true → ∀ c, Rows (t.d c) (ss.flatMap fun s => s.atoms.map fun a =>
        envDerivRow N sym c a (selection cutoffs a) (firstEntry s a))) := by
  have hex : ∀ s a, s ∈ ss → a ∈ s.atoms → ∃ t : EnvText, envAtom N sym k cutoffs derivatives s a = .ok t ∧
      Rows t.G [envRow N sym s a (selection cutoffs a)] ∧
      (derivatives = true → ∀ c, Rows (t.d c)
        [envDerivRow N sym c a (selection cutoffs a) (firstEntry s a)]) := by
    intro s a h ha
    rcases envAtom_cases hN hsym hcut derivatives (hs s h) ha with ⟨-, h2⟩ | ⟨⟨e, he, h1⟩, -⟩
    · exact h2
    · have := henough s h a ha e he
      omega
  have : Nonempty EnvText := ⟨⟨[], fun _ => []⟩⟩
  choose! f hf using hex
  have e1 : ss.mapM (fun s => s.atoms.mapM (envAtom N sym k cutoffs derivatives s)) =
      .ok (ss.map fun s => s.atoms.map (f s)) :=
    exceptMapM_ok ss fun s h => exceptMapM_ok s.atoms fun a ha => (hf s a h ha).1
  refine ⟨_, by unfold envText; rw [e1]; rfl, ?_, ?_⟩
  · have e2 : ((ss.map fun s => s.atoms.map (f s)).flatten.map EnvText.G).flatten =
        (ss.map fun s => (s.atoms.map fun a => (f s a).G).flatten).flatten := by
      rw [List.map_flatten, List.flatten_flatten, List.map_map, List.map_map]
      congr 1
      refine List.map_congr_left fun s _ => ?_
      simp [Function.comp_def]
    show Rows ((ss.map fun s => s.atoms.map (f s)).flatten.map EnvText.G).flatten _
    rw [e2]
    exact rows_flatMap _ _ ss fun s h => rows_flatten _ _ s.atoms fun a ha => (hf s a h ha).2.1
  · intro hd c
    have e2 : ((ss.map fun s => s.atoms.map (f s)).flatten.map fun t => t.d c).flatten =
        (ss.map fun s => (s.atoms.map fun a => (f s a).d c).flatten).flatten := by
      rw [List.map_flatten, List.flatten_flatten, List.map_map, List.map_map]
      congr 1
      refine List.map_congr_left fun s _ => ?_
      simp [Function.comp_def]
    show Rows ((ss.map fun s => s.atoms.map (f s)).flatten.map fun t => t.d c).flatten _
    rw [e2]
    exact rows_flatMap _ _ ss fun s h => rows_flatten _ _ s.atoms fun a ha => (hf s a h ha).2.2 hd c

/-! ### Names -/

theorem partName_prefix {file x : Str} {i : ℕ} (h : x = partName file i) : file <+: x := by
  rw [h]
  unfold partName
  rw [List.append_assoc]
  exact List.prefix_append _ _

/-- Different files do not touch each other. -/
theorem names_apart {file u v x : Str} {n : ℕ} (hu : u.length = n) (hv : v.length = n) (huv : u ≠ v)
    (hx : file ++ u <+: x) : ¬ file ++ v <+: x := by
  rintro ⟨t, ht⟩
  obtain ⟨t', ht'⟩ := hx
  rw [← ht', List.append_assoc, List.append_assoc] at ht
  have h1 := List.append_cancel_left ht
  exact huv (List.append_inj_left h1 (by rw [hu, hv])).symm

theorem comparisonFile_prefix (file : Str) (hf : file.length ≤ 900) (texts : List Str) (fs : Files)
    (hn : texts.length < 2 ^ 64) :
    ∃ fs', comparisonFile file texts fs = some fs' ∧ fs' file = some texts.flatten ∧
      ∀ x, ¬ file <+: x → fs' x = fs x := by
  obtain ⟨fs', e, h1, -, h3⟩ := comparisonFile_ok file hf texts fs hn
  refine ⟨fs', e, h1, fun x hx => h3 x ?_ fun i _ h => hx (partName_prefix h)⟩
  rintro rfl
  exact hx (List.prefix_refl _)

end N2P2
