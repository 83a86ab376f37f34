import Verif.Lemma.AtomEnvironment
import Verif.Props.WeightFile

/-! C104: files with neighbour lists and atomic environments. -/

namespace N2P2

theorem flatMap_flatten' {α β : Type} (f : α → List β) (L : List (List α)) :
    L.flatten.flatMap f = L.flatMap fun l => l.flatMap f := by
  induction L with
  | nil => rfl
  | cons l L ih => rw [List.flatten_cons, List.flatMap_append, List.flatMap_cons, ih]

theorem sorted_good {k : ℕ} {Z : ℕ → ℕ} {procs procs' : List (List Structure)}
    (hs : ∀ ss ∈ procs, ∀ s ∈ ss, GoodLists k Z s)
    (hsort : List.Forall₂ (List.Forall₂ SortsNeighbors) procs procs') :
    ∀ ss ∈ procs', ∀ s ∈ ss, GoodLists k Z s ∧
      ∀ a ∈ s.atoms, a.neighbors.Pairwise fun m n => m.d ≤ n.d := by
  intro ss' h' t ht
  obtain ⟨i, hi, rfl⟩ := List.getElem_of_mem h'
  have h1 := List.forall₂_iff_get.1 hsort
  have hi' : i < procs.length := by rw [h1.1]; exact hi
  have h2 := List.forall₂_iff_get.1 (h1.2 i hi' hi)
  simp only [List.get_eq_getElem] at h2
  obtain ⟨j, hj, rfl⟩ := List.getElem_of_mem ht
  have hj' : j < procs[i].length := by rw [h2.1]; exact hj
  have h3 := h2.2 j hj' hj
  refine ⟨(hs _ (List.getElem_mem hi') _ (List.getElem_mem hj')).sorted h3, fun a ha => ?_⟩
  obtain ⟨m, hm, rfl⟩ := List.getElem_of_mem ha
  obtain ⟨_, -, -, -, h4⟩ := h3.atoms m _ (List.getElem?_eq_getElem hm)
  exact h4

/-- C104: the file with neighbour lists has for each structure the number of atoms and for each atom its atomic
number, the number of its neighbours of each element and all its neighbours, ordered by distance. -/
theorem C104_neighbor_file {k : ℕ} {Z : ℕ → ℕ} {procs procs' : List (List Structure)}
    (hs : ∀ ss ∈ procs, ∀ s ∈ ss, GoodLists k Z s)
    (hsort : List.Forall₂ (List.Forall₂ SortsNeighbors) procs procs') (hp : procs.length < 2 ^ 64)
    (file : Str) (hf : file.length ≤ 900) (fs : Files) :
    ∃ fs' text, writeNeighborLists Z k file procs' fs = some fs' ∧ fs' file = some text ∧
      fileTable text = (procs'.flatten.flatMap fun s =>
        [natText s.atoms.length] :: s.atoms.map (neighborRow Z k)) ∧
      (∀ s ∈ procs'.flatten, ∀ a ∈ s.atoms, a.neighbors.Pairwise fun m n => m.d ≤ n.d) ∧
      ∀ x, ¬ file <+: x → fs' x = fs x := by
  have hg := sorted_good hs hsort
  have hex : ∀ ss ∈ procs', ∃ t, neighborListText Z k ss = some t ∧
      Rows t (ss.flatMap fun s => [natText s.atoms.length] :: s.atoms.map (neighborRow Z k)) :=
    fun ss h => neighborListText_ok fun s h' => (hg ss h s h').1
  choose! f hf' using hex
  have e1 : procs'.mapM (neighborListText Z k) = some (procs'.map f) :=
    mapM_of_map fun ss h => (hf' ss h).1
  obtain ⟨fs', e2, h1, h2⟩ := comparisonFile_prefix file hf (procs'.map f) fs (by
    rw [List.length_map, ← hsort.length_eq]
    exact hp)
  refine ⟨fs', _, ?_, h1, ?_, ?_, h2⟩
  · unfold writeNeighborLists
    rw [e1]
    exact e2
  · have r := rows_flatMap f _ procs' fun ss h => (hf' ss h).2
    have := fileTable_eq (hs := []) (by simp) r
    rw [List.flatMap_nil, List.nil_append] at this
    rw [this, flatMap_flatten']
  · intro s h a ha
    obtain ⟨ss, hss, h⟩ := List.mem_flatten.1 h
    exact (hg ss hss s h).2 a ha

/-- C104: the file with atomic environments has for each atom its symbol, its symmetry functions and those
of its closest neighbours, as many of each element as demanded. The files with derivatives have the same layout: derivatives
for neighbours are those stored in the neighbour's list for the closest image of the atom. -/
theorem C104_environment {N : NumberText} (hN : N.Data) {sym : ℕ → Str} {k : ℕ}
    (hsym : ∀ e < k, GoodSymbol (sym e)) {cutoffs : List (List ℕ)} (hcut : SquareTable k cutoffs)
    (derivatives : Bool) {Z : ℕ → ℕ} {procs procs' : List (List Structure)}
    (hs : ∀ ss ∈ procs, ∀ s ∈ ss, GoodLists k Z s)
    (hsort : List.Forall₂ (List.Forall₂ SortsNeighbors) procs procs') (hp : procs.length < 2 ^ 64)
    (henough : ∀ s ∈ procs'.flatten, ∀ a ∈ s.atoms, ∀ e < k,
      cutoffOf cutoffs a.element e ≤ a.neighbors.countP fun n => n.element = e)
    (file : Str) (hf : file.length ≤ 890) (fs : Files) :
    ∃ (fs' : Files) (sel : Atom → List Neighbor),
      writeAtomicEnvironmentFile N sym k cutoffs derivatives file procs' fs = .ok fs' ∧
      (∀ s ∈ procs'.flatten, ∀ a ∈ s.atoms, Selected k (cutoffOf cutoffs a.element) a (sel a)) ∧
      (∃ text, fs' (file ++ ".G".toList) = some text ∧ fileTable text =
        procs'.flatten.flatMap fun s => s.atoms.map fun a => envRow N sym s a (sel a)) ∧
      (derivatives = true → ∀ c, ∃ text, fs' (file ++ envSuffix c) = some text ∧ fileTable text =
        procs'.flatten.flatMap fun s => s.atoms.map fun a =>
          envDerivRow N sym c a (sel a) (firstEntry s a)) ∧
      ∀ x, ¬ file <+: x → fs' x = fs x := by
  have hg := sorted_good hs hsort
  have : Nonempty EnvText := ⟨⟨[], fun _ => []⟩⟩
  have hex : ∀ ss ∈ procs', ∃ t, envText N sym k cutoffs derivatives ss = .ok t ∧
      Rows t.G (ss.flatMap fun s => s.atoms.map fun a => envRow N sym s a (selection cutoffs a)) ∧
      (derivatives = true → ∀ c, Rows (t.d c) (ss.flatMap fun s => s.atoms.map fun a =>
        envDerivRow N sym c a (selection cutoffs a) (firstEntry s a))) :=
    fun ss h => envText_ok hN hsym hcut derivatives (fun s h' => (hg ss h s h').1)
      fun s h' => henough s (List.mem_flatten.2 ⟨ss, h, h'⟩)
  choose! f hf' using hex
  have e1 : procs'.mapM (envText N sym k cutoffs derivatives) = .ok (procs'.map f) :=
    exceptMapM_ok _ fun ss h => (hf' ss h).1
  have hlen : ∀ g : EnvText → Str, ((procs'.map f).map g).length < 2 ^ 64 := by
    intro g
    rw [List.length_map, List.length_map, ← hsort.length_eq]
    exact hp
  have htab : ∀ (g : EnvText → Str) (w : List Structure → List (List Str)),
      (∀ ss ∈ procs', Rows (g (f ss)) (w ss)) →
      fileTable ((procs'.map f).map g).flatten = procs'.flatMap w := by
    intro g w h
    have r := rows_flatMap (fun ss => g (f ss)) w procs' h
    have := fileTable_eq (hs := []) (by simp) r
    rw [List.flatMap_nil, List.nil_append] at this
    rw [← this, List.map_map]
    rfl
  have hsel : ∀ s ∈ procs'.flatten, ∀ a ∈ s.atoms,
      Selected k (cutoffOf cutoffs a.element) a (selection cutoffs a) := by
    intro s h a ha
    obtain ⟨ss, hss, h⟩ := List.mem_flatten.1 h
    exact taken_selected k _ ((hg ss hss s h).2 a ha)
  have hpre : ∀ (u x : Str), ¬ file <+: x → ¬ file ++ u <+: x := fun u x hx h =>
    hx ((List.prefix_append _ _).trans h)
  have hG : fileTable ((procs'.map f).map EnvText.G).flatten =
      procs'.flatten.flatMap fun s => s.atoms.map fun a => envRow N sym s a (selection cutoffs a) := by
    rw [htab EnvText.G _ fun ss h => (hf' ss h).2.1, flatMap_flatten']
  obtain ⟨fs1, g1, g2, g3⟩ := comparisonFile_prefix (file ++ ".G".toList) (by
    rw [List.length_append]
    have : ".G".toList.length = 2 := rfl
    omega) ((procs'.map f).map EnvText.G) fs (hlen _)
  unfold writeAtomicEnvironmentFile
  rw [e1]
  cases derivatives with
  | false =>
    refine ⟨fs1, selection cutoffs, ?_, hsel, ⟨_, g2, hG⟩, nofun, fun x hx => g3 x (hpre _ x hx)⟩
    show (orThrow (comparisonFile _ _ _)).bind _ = _
    rw [g1]
    rfl
  | true =>
    have hD : ∀ c, fileTable ((procs'.map f).map fun t => t.d c).flatten =
        procs'.flatten.flatMap fun s => s.atoms.map fun a =>
          envDerivRow N sym c a (selection cutoffs a) (firstEntry s a) := by
      intro c
      rw [htab (fun t => t.d c) _ fun ss h => (hf' ss h).2.2 rfl c, flatMap_flatten']
    have hl : ∀ c, (file ++ envSuffix c).length ≤ 900 := by
      intro c
      rw [List.length_append]
      have : (envSuffix c).length = 5 := by fin_cases c <;> rfl
      omega
    obtain ⟨fx, x1, x2, x3⟩ := comparisonFile_prefix _ (hl 0) ((procs'.map f).map fun t => t.d 0) fs1 (hlen _)
    obtain ⟨fy, y1, y2, y3⟩ := comparisonFile_prefix _ (hl 1) ((procs'.map f).map fun t => t.d 1) fx (hlen _)
    obtain ⟨fz, z1, z2, z3⟩ := comparisonFile_prefix _ (hl 2) ((procs'.map f).map fun t => t.d 2) fy (hlen _)
    have apart : ∀ c d : Fin 3, c ≠ d → ¬ file ++ envSuffix d <+: file ++ envSuffix c := by
      intro c d hcd
      refine names_apart (n := 5) (u := envSuffix c) ?_ ?_ ?_ (List.prefix_refl _)
      · fin_cases c <;> rfl
      · fin_cases d <;> rfl
      · revert hcd
        fin_cases c <;> fin_cases d <;> decide
    have apartG : ∀ d : Fin 3, ¬ file ++ envSuffix d <+: file ++ ".G".toList := by
      intro d h
      have h' : file ++ ".d".toList <+: file ++ ".G".toList := by
        refine List.IsPrefix.trans ?_ h
        rw [List.prefix_append_right_inj]
        fin_cases d <;> decide
      exact names_apart (n := 2) (u := ".G".toList) (v := ".d".toList) rfl rfl (by decide)
        (List.prefix_refl _) h'
    refine ⟨fz, selection cutoffs, ?_, hsel, ⟨_, ?_, hG⟩, ?_, fun x hx => ?_⟩
    · show (orThrow (comparisonFile _ _ _)).bind _ = _
      rw [g1]
      show (orThrow (comparisonFile _ _ _)).bind _ = _
      rw [x1]
      show (orThrow (comparisonFile _ _ _)).bind _ = _
      rw [y1]
      show orThrow (comparisonFile _ _ _) = _
      rw [z1]
      rfl
    · rw [z3 _ (apartG 2), y3 _ (apartG 1), x3 _ (apartG 0)]
      exact g2
    · intro _ c
      refine ⟨_, ?_, hD c⟩
      fin_cases c
      · show fz (file ++ envSuffix 0) = _
        rw [z3 _ (apart 0 2 (by decide)), y3 _ (apart 0 1 (by decide))]
        exact x2
      · show fz (file ++ envSuffix 1) = _
        rw [z3 _ (apart 1 2 (by decide))]
        exact y2
      · exact z2
    · rw [z3 x (hpre _ x hx), y3 x (hpre _ x hx), x3 x (hpre _ x hx), g3 x (hpre _ x hx)]

/-- C104: if an atom has fewer neighbours than demanded, nothing is written and the program stops with an
error message. -/
theorem C104_refused {N : NumberText} (hN : N.Data) {sym : ℕ → Str} {k : ℕ}
    (hsym : ∀ e < k, GoodSymbol (sym e)) {cutoffs : List (List ℕ)} (hcut : SquareTable k cutoffs)
    (derivatives : Bool) {Z : ℕ → ℕ} {procs : List (List Structure)}
    (hs : ∀ ss ∈ procs, ∀ s ∈ ss, GoodLists k Z s) {s : Structure} (hmem : s ∈ procs.flatten) {a : Atom}
    (ha : a ∈ s.atoms) {e : ℕ} (he : e < k)
    (hfew : (a.neighbors.countP fun n => n.element = e) < cutoffOf cutoffs a.element e) (file : Str)
    (fs : Files) :
    writeAtomicEnvironmentFile N sym k cutoffs derivatives file procs fs = .error .exception := by
  have hat : ∀ ss ∈ procs, ∀ s ∈ ss, ∀ a ∈ s.atoms,
      (∃ t, envAtom N sym k cutoffs derivatives s a = .ok t) ∨
      envAtom N sym k cutoffs derivatives s a = .error .exception := by
    intro ss hss s h a ha
    rcases envAtom_cases hN hsym hcut derivatives (hs ss hss s h) ha with ⟨-, t, h1, -⟩ | ⟨-, h1⟩
    · exact Or.inl ⟨t, h1⟩
    · exact Or.inr h1
  have cases' : ∀ {α β : Type} {f : α → Except Fault β} (l : List α),
      (∀ a ∈ l, (∃ b, f a = .ok b) ∨ f a = .error .exception) →
      (∃ b, l.mapM f = .ok b) ∨ l.mapM f = .error .exception := by
    intro α β f l h
    by_cases hex : ∃ a ∈ l, f a = .error .exception
    · exact Or.inr (exceptMapM_error l h hex)
    · left
      have h' : ∀ a ∈ l, ∃ b, f a = .ok b := fun a ha => (h a ha).resolve_right fun e => hex ⟨a, ha, e⟩
      clear h hex
      induction l with
      | nil => exact ⟨[], rfl⟩
      | cons a l ih =>
        obtain ⟨b, hb⟩ := h' a (by simp)
        obtain ⟨bs, hbs⟩ := ih fun x hx => h' x (by simp [hx])
        exact ⟨b :: bs, by rw [List.mapM_cons, hb, hbs]; rfl⟩
  have hst : ∀ ss ∈ procs, ∀ s ∈ ss,
      (∃ t, s.atoms.mapM (envAtom N sym k cutoffs derivatives s) = .ok t) ∨
      s.atoms.mapM (envAtom N sym k cutoffs derivatives s) = .error .exception :=
    fun ss hss s h => cases' _ (hat ss hss s h)
  have htx : ∀ ss ∈ procs, (∃ t, envText N sym k cutoffs derivatives ss = .ok t) ∨
      envText N sym k cutoffs derivatives ss = .error .exception := by
    intro ss hss
    unfold envText
    rcases cases' ss (hst ss hss) with ⟨t, h⟩ | h
    · rw [h]
      exact Or.inl ⟨_, rfl⟩
    · rw [h]
      exact Or.inr rfl
  obtain ⟨ss, hss, h⟩ := List.mem_flatten.1 hmem
  have h1 : envAtom N sym k cutoffs derivatives s a = .error .exception := by
    rcases envAtom_cases hN hsym hcut derivatives (hs ss hss s h) ha with ⟨h2, -⟩ | ⟨-, h2⟩
    · have := h2 e he
      omega
    · exact h2
  have h2 := exceptMapM_error _ (hat ss hss s h) ⟨a, ha, h1⟩
  have h3 : envText N sym k cutoffs derivatives ss = .error .exception := by
    unfold envText
    rw [exceptMapM_error ss (hst ss hss) ⟨s, h, h2⟩]
    rfl
  unfold writeAtomicEnvironmentFile
  rw [exceptMapM_error procs htx ⟨ss, hss, h3⟩]
  rfl

theorem flatMap_single {α : Type} (k e0 : ℕ) (f : ℕ → List α) (h : ∀ e < k, e ≠ e0 → f e = []) :
    (List.range k).flatMap f = if e0 < k then f e0 else [] := by
  induction k with
  | zero => simp
  | succ k ih =>
    rw [List.range_succ, List.flatMap_append, ih fun e he => h e (by omega)]
    by_cases hk : e0 = k
    · subst hk
      simp
    · have h1 := h k (by omega) (Ne.symm hk)
      by_cases h2 : e0 < k
      · rw [if_pos h2, if_pos (by omega)]
        simp [h1]
      · rw [if_neg h2, if_neg (by omega)]
        simp [h1]

/-- C104: the neighbours stand in the order of the manual (one element after the other) if neighbours of a single
element are demanded. In general this is not the case, see `C104_not_grouped`. -/
theorem C104_order_partial {k : ℕ} {cut : ℕ → ℕ} {a : Atom} {sel : List Neighbor}
    (hsel : Selected k cut a sel) (hel : ∀ n ∈ a.neighbors, n.element < k) (e0 : ℕ)
    (hone : ∀ e < k, e ≠ e0 → cut e = 0) : sel = selectedByElement k cut a := by
  have hall : ∀ n ∈ sel, n.element = e0 := by
    intro n hn
    by_contra hne
    have hk := hel n (hsel.sublist.subset hn)
    have h1 := hsel.each n.element hk
    rw [hone _ hk hne] at h1
    have : n ∈ sel.filter fun m => m.element = n.element := by
      rw [List.mem_filter]
      exact ⟨hn, by simp⟩
    rw [h1] at this
    simp [nearest] at this
  unfold selectedByElement
  rw [flatMap_single k e0 _ fun e he hne => by simp [nearest, hone e he hne]]
  by_cases h0 : e0 < k
  · rw [if_pos h0, ← hsel.each e0 h0, List.filter_eq_self.2]
    intro n hn
    simpa using hall n hn
  · rw [if_neg h0]
    rw [List.eq_nil_iff_forall_not_mem]
    intro n hn
    have h1 := hel n (hsel.sublist.subset hn)
    rw [hall n hn] at h1
    exact h0 h1

/-- C104: the derivatives for a neighbour are those with respect to the atom if no further image of the
atom is in reach of the neighbour. In general they are not, see `C104_images`. -/
theorem C104_images_partial {s : Structure} {a : Atom} {n : Neighbor}
    (h : (mutualEntries s a n).length = 1) : firstEntry s a n = motionDerivatives s a n := by
  obtain ⟨m, hm⟩ := List.length_eq_one_iff.1 h
  unfold firstEntry motionDerivatives
  rw [hm]
  rfl

/-- C104: the command line has the numbers of neighbours row by row. Exactly the right number of them is accepted. -/
theorem C104_cutoffs (k : ℕ) (args : List ℝ) :
    (args.length ≠ k * k → envCutoffs k args = .error .exception) ∧
    (args.length = k * k → (∀ x ∈ args, -1 < x ∧ x < 2 ^ 64) → ∃ t, envCutoffs k args = .ok t ∧
      SquareTable k t ∧ ∀ i < k, ∀ j < k, cutoffOf t i j = ⌊args.getD (i * k + j) 0⌋₊) := by
  refine ⟨fun h => by unfold envCutoffs; rw [if_pos h], fun h hx => ?_⟩
  refine ⟨(List.range k).map fun i => (List.range k).map fun j => ⌊args.getD (i * k + j) 0⌋₊, ?_, ?_, ?_⟩
  · unfold envCutoffs
    rw [if_neg (by simpa using h)]
    refine exceptMapM_ok _ fun i hi => exceptMapM_ok _ fun j hj => ?_
    have hi := List.mem_range.1 hi
    have hj := List.mem_range.1 hj
    have hlt : i * k + j < args.length := by
      rw [h]
      calc i * k + j < i * k + k := by omega
        _ = (i + 1) * k := by ring
        _ ≤ k * k := Nat.mul_le_mul_right k hi
    rw [List.getElem?_eq_getElem hlt, List.getD_eq_getElem?_getD, List.getElem?_eq_getElem hlt]
    show (if -1 < args[i * k + j] ∧ args[i * k + j] < 2 ^ 64 then _ else _) = _
    rw [if_pos (hx _ (List.getElem_mem hlt))]
    rfl
  · refine ⟨by simp, fun r hr => ?_⟩
    obtain ⟨i, -, rfl⟩ := List.mem_map.1 hr
    simp
  · intro i hi j hj
    simp [cutoffOf, hi, hj]

/-! ### Examples -/

/-- Example data: a neighbour with symmetry function derivatives `g` (one number each, along x). -/
def exEnvNeighbor (i e : ℕ) (d : ℝ) (g : List ℝ) : Neighbor :=
  ⟨i, i, e, d, ![d, 0, 0], [], g.map fun x => ![x, 0, 0]⟩

def exEnvAtom (i e : ℕ) (counts : List ℕ) (G : List ℝ) (ns : List Neighbor) : Atom :=
  { Atom.init with index := i, element := e, numNeighborsPerElement := counts, G := G, neighbors := ns }

/-- Example data: three atoms of different elements in a line, the outer ones see only the one between. -/
def exEnvLine : Structure :=
  { Structure.init with
    numAtoms := 3
    atoms := [exEnvAtom 0 0 [0, 1, 1] [0] [exEnvNeighbor 2 2 1 [], exEnvNeighbor 1 1 2 []],
      exEnvAtom 1 1 [1, 0, 0] [1] [exEnvNeighbor 0 0 2 []],
      exEnvAtom 2 2 [1, 0, 0] [2] [exEnvNeighbor 0 0 1 []]] }

/-- Example data: two atoms in a small periodic box, with two images of the other atom in reach. -/
def exEnvBox : Structure :=
  { Structure.init with
    numAtoms := 2
    atoms := [exEnvAtom 0 0 [2] [5] [exEnvNeighbor 1 0 1 [1], exEnvNeighbor 1 0 2 [2]],
      exEnvAtom 1 0 [2] [6] [exEnvNeighbor 0 0 1 [1], exEnvNeighbor 0 0 2 [2]]] }

def exEnvSymbol (e : ℕ) : Str := ["H".toList, "C".toList, "O".toList].getD e []

theorem exEnvSymbol_good : ∀ e < 3, GoodSymbol (exEnvSymbol e) := by
  intro e he
  interval_cases e <;> refine ⟨?_, ?_, ?_, ?_⟩ <;> first | decide | (unfold IsWord; decide)

theorem exEnvLine_good : GoodLists 3 (fun e => [1, 6, 8].getD e 0) exEnvLine where
  numAtoms := rfl
  size := by
    show 3 < 2 ^ 64
    norm_num
  index := by
    intro i a h
    rcases i with _ | _ | _ | i <;> simp [exEnvLine] at h <;> subst h <;> rfl
  element := by
    intro a ha
    simp only [exEnvLine, List.mem_cons, List.not_mem_nil, or_false] at ha
    rcases ha with rfl | rfl | rfl <;> simp [exEnvAtom]
  counts := by
    intro a ha
    simp only [exEnvLine, List.mem_cons, List.not_mem_nil, or_false] at ha
    rcases ha with rfl | rfl | rfl <;> rfl
  few := by
    intro a ha
    simp only [exEnvLine, List.mem_cons, List.not_mem_nil, or_false] at ha
    rcases ha with rfl | rfl | rfl <;> simp [exEnvAtom]
  neighbor := by
    intro a ha n hn
    simp only [exEnvLine, List.mem_cons, List.not_mem_nil, or_false] at ha
    rcases ha with rfl | rfl | rfl <;>
      simp only [exEnvAtom, List.mem_cons, List.not_mem_nil, or_false] at hn
    · rcases hn with rfl | rfl <;> exact ⟨by decide, by decide⟩
    · subst hn
      exact ⟨by decide, by decide⟩
    · subst hn
      exact ⟨by decide, by decide⟩
  back := by
    intro a ha n hn b hb
    simp only [exEnvLine, List.mem_cons, List.not_mem_nil, or_false] at ha
    rcases ha with rfl | rfl | rfl <;>
      simp only [exEnvAtom, List.mem_cons, List.not_mem_nil, or_false] at hn
    · rcases hn with rfl | rfl <;> simp [exEnvLine, exEnvNeighbor] at hb <;> subst hb <;>
        simp [exEnvAtom]
    · subst hn
      simp [exEnvLine, exEnvNeighbor] at hb
      subst hb
      simp [exEnvAtom]
    · subst hn
      simp [exEnvLine, exEnvNeighbor] at hb
      subst hb
      simp [exEnvAtom]

theorem exEnvBox_good : GoodLists 1 (fun _ => 1) exEnvBox where
  numAtoms := rfl
  size := by
    show 2 < 2 ^ 64
    norm_num
  index := by
    intro i a h
    rcases i with _ | _ | i <;> simp [exEnvBox] at h <;> subst h <;> rfl
  element := by
    intro a ha
    simp only [exEnvBox, List.mem_cons, List.not_mem_nil, or_false] at ha
    rcases ha with rfl | rfl <;> simp [exEnvAtom]
  counts := by
    intro a ha
    simp only [exEnvBox, List.mem_cons, List.not_mem_nil, or_false] at ha
    rcases ha with rfl | rfl <;> rfl
  few := by
    intro a ha
    simp only [exEnvBox, List.mem_cons, List.not_mem_nil, or_false] at ha
    rcases ha with rfl | rfl <;> simp [exEnvAtom]
  neighbor := by
    intro a ha n hn
    simp only [exEnvBox, List.mem_cons, List.not_mem_nil, or_false] at ha
    rcases ha with rfl | rfl <;>
      simp only [exEnvAtom, List.mem_cons, List.not_mem_nil, or_false] at hn <;>
      rcases hn with rfl | rfl <;> exact ⟨by decide, by decide⟩
  back := by
    intro a ha n hn b hb
    simp only [exEnvBox, List.mem_cons, List.not_mem_nil, or_false] at ha
    rcases ha with rfl | rfl <;>
      simp only [exEnvAtom, List.mem_cons, List.not_mem_nil, or_false] at hn <;>
      rcases hn with rfl | rfl <;> simp [exEnvBox, exEnvNeighbor] at hb <;> subst hb <;> simp [exEnvAtom]

theorem exEnvLine_sorted : SortsNeighbors exEnvLine exEnvLine := by
  refine ⟨rfl, ?_⟩
  show List.Forall₂ _ [_, _, _] [_, _, _]
  refine .cons ⟨rfl, .refl _, ?_⟩ (.cons ⟨rfl, .refl _, ?_⟩ (.cons ⟨rfl, .refl _, ?_⟩ .nil)) <;>
    simp [exEnvAtom, exEnvNeighbor]

theorem exEnvBox_sorted : SortsNeighbors exEnvBox exEnvBox := by
  refine ⟨rfl, ?_⟩
  show List.Forall₂ _ [_, _] [_, _]
  refine .cons ⟨rfl, .refl _, ?_⟩ (.cons ⟨rfl, .refl _, ?_⟩ .nil) <;> simp [exEnvAtom, exEnvNeighbor]

theorem exEnvLine_enough : ∀ s ∈ [[exEnvLine]].flatten, ∀ a ∈ s.atoms, ∀ e < 3,
    cutoffOf [[0, 1, 1], [0, 0, 0], [0, 0, 0]] a.element e ≤ a.neighbors.countP fun n => n.element = e := by
  intro s hs a ha e he
  rw [List.flatten_singleton, List.mem_singleton] at hs
  subst hs
  simp only [exEnvLine, List.mem_cons, List.not_mem_nil, or_false] at ha
  rcases ha with rfl | rfl | rfl <;> interval_cases e <;> simp [cutoffOf, exEnvAtom, exEnvNeighbor]

theorem exEnvBox_enough : ∀ s ∈ [[exEnvBox]].flatten, ∀ a ∈ s.atoms, ∀ e < 1,
    cutoffOf [[1]] a.element e ≤ a.neighbors.countP fun n => n.element = e := by
  intro s hs a ha e he
  rw [List.flatten_singleton, List.mem_singleton] at hs
  subst hs
  simp only [exEnvBox, List.mem_cons, List.not_mem_nil, or_false] at ha
  rcases ha with rfl | rfl <;> interval_cases e <;> simp [cutoffOf, exEnvAtom, exEnvNeighbor]

theorem exText_differ {x y : ℕ} (hx : x ≤ 9) (hy : y ≤ 9) (h : x ≠ y) :
    exText.print (x : ℝ) ≠ exText.print (y : ℝ) := by
  intro e
  have h1 := exText_num x x hx (by simp)
  have h2 := exText_num y y hy (by simp)
  unfold NumberText.rounded at h1 h2
  rw [e, h2] at h1
  exact h (by exact_mod_cast h1.symm)

theorem line_selected {sel : List Neighbor}
    (h : Selected 3 (cutoffOf [[0, 1, 1], [0, 0, 0], [0, 0, 0]] 0) (exEnvAtom 0 0 [0, 1, 1] [0]
      [exEnvNeighbor 2 2 1 [], exEnvNeighbor 1 1 2 []]) sel) :
    sel = [exEnvNeighbor 2 2 1 [], exEnvNeighbor 1 1 2 []] := by
  have h1 := h.each 1 (by decide)
  have h2 := h.each 2 (by decide)
  have h3 := List.mem_sublists.2 h.sublist
  simp [exEnvAtom, List.sublists] at h3
  rcases h3 with rfl | rfl | rfl | rfl <;>
    simp [nearest, exEnvAtom, exEnvNeighbor, cutoffOf] at h1 h2 ⊢

theorem box_selected {sel : List Neighbor} {a : Atom} (h : Selected 1 (cutoffOf [[1]] 0) a sel)
    (ha : ∀ n ∈ a.neighbors, n.element = 0) : sel = a.neighbors.take 1 := by
  have h1 := h.each 0 (by decide)
  rw [List.filter_eq_self.2 (by
    intro n hn
    simpa using ha n (h.sublist.subset hn))] at h1
  rw [h1]
  unfold nearest
  rw [List.filter_eq_self.2 (by
    intro n hn
    simpa using ha n hn)]
  rfl

/-- C104, disagreement: the manual says that closest neighbours of the first element are followed by those
of the second one and so on. With neighbours of more than one element this is not the case. -/
theorem C104_not_grouped : ¬ ∀ (N : NumberText) (sym : ℕ → Str) (k : ℕ) (cutoffs : List (List ℕ)) (Z : ℕ → ℕ)
    (s : Structure) (file : Str) (fs fs' : Files), N.Data → (∀ e < k, GoodSymbol (sym e)) →
    SquareTable k cutoffs → GoodLists k Z s → SortsNeighbors s s →
    writeAtomicEnvironmentFile N sym k cutoffs false file [[s]] fs = .ok fs' →
    ∃ text, fs' (file ++ ".G".toList) = some text ∧ fileTable text =
      s.atoms.map fun a => envRow N sym s a (selectedByElement k (cutoffOf cutoffs a.element) a) := by
  intro H
  have hcut : SquareTable 3 [[0, 1, 1], [0, 0, 0], [0, 0, 0]] := ⟨rfl, by simp⟩
  obtain ⟨fs', sel, e1, e2, ⟨t, e3, e4⟩, -, -⟩ := C104_environment exText_data exEnvSymbol_good hcut false
    (procs := [[exEnvLine]]) (procs' := [[exEnvLine]]) (by
      intro ss hss s hs
      rw [List.mem_singleton] at hss
      subst hss
      rw [List.mem_singleton] at hs
      subst hs
      exact exEnvLine_good) (.cons (.cons exEnvLine_sorted .nil) .nil) (by decide) exEnvLine_enough [] (by decide)
    (fun _ => none)
  obtain ⟨t', h1, h2⟩ := H exText exEnvSymbol 3 _ _ exEnvLine [] (fun _ => none) fs' exText_data exEnvSymbol_good hcut
    exEnvLine_good exEnvLine_sorted e1
  rw [e3] at h1
  cases h1
  rw [e4] at h2
  have hsel := line_selected (e2 exEnvLine (by simp) _ (by
    show _ ∈ [_, _, _]
    exact List.mem_cons_self))
  have h3 := congrArg (fun T : List (List Str) => T[0]?) h2
  simp only [List.flatten_singleton, List.flatMap_cons, List.flatMap_nil, List.append_nil] at h3
  simp only [exEnvLine, List.map_cons, List.getElem?_cons_zero] at h3
  rw [hsel] at h3
  simp [envRow, exEnvAtom, exEnvNeighbor, neighborValues, selectedByElement, nearest, cutoffOf,
    List.range_succ] at h3
  have h4 : exText.print ((2 : ℕ) : ℝ) = exText.print ((1 : ℕ) : ℝ) := by simpa using h3.1
  exact exText_differ (by norm_num) (by norm_num) (by norm_num) h4

/-- C104, disagreement: the manual says that the derivatives are those with respect to the position of the atom. If several
images of the atom are in reach of a neighbour, only the contribution of the closest one is written. -/
theorem C104_images : ¬ ∀ (N : NumberText) (sym : ℕ → Str) (k : ℕ) (cutoffs : List (List ℕ)) (Z : ℕ → ℕ)
    (s : Structure) (file : Str) (fs fs' : Files), N.Data → (∀ e < k, GoodSymbol (sym e)) →
    SquareTable k cutoffs → GoodLists k Z s → SortsNeighbors s s →
    writeAtomicEnvironmentFile N sym k cutoffs true file [[s]] fs = .ok fs' →
    ∃ (text : Str) (sel : Atom → List Neighbor), fs' (file ++ envSuffix 0) = some text ∧
      (∀ a ∈ s.atoms, Selected k (cutoffOf cutoffs a.element) a (sel a)) ∧ fileTable text =
      s.atoms.map fun a => envDerivRow N sym 0 a (sel a) (motionDerivatives s a) := by
  intro H
  have hcut : SquareTable 1 [[1]] := ⟨rfl, by simp⟩
  have hsym : ∀ e < 1, GoodSymbol (exEnvSymbol e) := fun e he => exEnvSymbol_good e (by omega)
  obtain ⟨fs', sel, e1, e2, -, e3, -⟩ := C104_environment exText_data hsym hcut true
    (procs := [[exEnvBox]]) (procs' := [[exEnvBox]]) (by
      intro ss hss s hs
      rw [List.mem_singleton] at hss
      subst hss
      rw [List.mem_singleton] at hs
      subst hs
      exact exEnvBox_good) (.cons (.cons exEnvBox_sorted .nil) .nil) (by decide) exEnvBox_enough [] (by decide)
    (fun _ => none)
  obtain ⟨t, e3, e4⟩ := e3 rfl 0
  obtain ⟨t', sel', h1, hs', h2⟩ := H exText exEnvSymbol 1 _ _ exEnvBox [] (fun _ => none) fs' exText_data hsym hcut
    exEnvBox_good exEnvBox_sorted e1
  rw [e3] at h1
  cases h1
  rw [e4] at h2
  have hm : exEnvAtom 0 0 [2] [5] [exEnvNeighbor 1 0 1 [1], exEnvNeighbor 1 0 2 [2]] ∈ exEnvBox.atoms :=
    List.mem_cons_self
  have h0 : ∀ n ∈ (exEnvAtom 0 0 [2] [5] [exEnvNeighbor 1 0 1 [1], exEnvNeighbor 1 0 2 [2]]).neighbors,
      n.element = 0 := by
    intro n hn
    simp only [exEnvAtom, List.mem_cons, List.not_mem_nil, or_false] at hn
    rcases hn with rfl | rfl <;> rfl
  have s1 := box_selected (e2 exEnvBox (by simp) _ hm) h0
  have s2 := box_selected (hs' _ hm) h0
  have h3 := congrArg (fun T : List (List Str) => T[0]?) h2
  simp only [List.flatten_singleton, List.flatMap_cons, List.flatMap_nil, List.append_nil] at h3
  simp only [exEnvBox, List.map_cons, List.getElem?_cons_zero] at h3
  rw [s1, s2] at h3
  simp [envDerivRow, exEnvAtom, exEnvNeighbor, firstEntry, motionDerivatives, mutualEntries, sumRows,
    Atom.init] at h3
  have h4 : exText.print ((1 : ℕ) : ℝ) = exText.print ((3 : ℕ) : ℝ) := by
    have : (1 : ℝ) + 2 = (3 : ℕ) := by norm_num
    rw [← this]
    simpa using h3
  exact exText_differ (by norm_num) (by norm_num) (by norm_num) h4

/-- Example for `C104_neighbor_file`: eight rows of two structures, which are on two processes. -/
example : ∃ fs' text, writeNeighborLists (fun e => [1, 6, 8].getD e 0) 3 "nl".toList [[exEnvLine], [exEnvLine]]
    (fun _ => none) = some fs' ∧ fs' "nl".toList = some text ∧ (fileTable text).length = 8 ∧
    (fileTable text)[1]? = some ["1".toList, "0".toList, "1".toList, "1".toList, "2".toList, "1".toList] := by
  have hmem : ∀ ss ∈ [[exEnvLine], [exEnvLine]], ∀ s ∈ ss,
      GoodLists 3 (fun e => [1, 6, 8].getD e 0) s := by
    intro ss hss s hs
    simp only [List.mem_cons, List.not_mem_nil, or_false, or_self] at hss
    subst hss
    rw [List.mem_singleton] at hs
    subst hs
    exact exEnvLine_good
  obtain ⟨fs', t, e1, e2, e3, -, -⟩ := C104_neighbor_file hmem
    (.cons (.cons exEnvLine_sorted .nil) (.cons (.cons exEnvLine_sorted .nil) .nil)) (by decide)
    "nl".toList (by decide) (fun _ => none)
  refine ⟨fs', t, e1, e2, ?_, ?_⟩
  · rw [e3]
    rfl
  · rw [e3]
    rfl

/-- Example for `C104_environment`: the first row of the file with symmetry functions. -/
example : ∃ fs' text, writeAtomicEnvironmentFile exText exEnvSymbol 3 [[0, 1, 1], [0, 0, 0], [0, 0, 0]] true
    "atomic-env".toList [[exEnvLine], []] (fun _ => none) = .ok fs' ∧
    fs' "atomic-env.G".toList = some text ∧ (fileTable text).length = 3 ∧
    (fileTable text)[0]? = some ("H".toList :: [0, 2, 1].map exText.print) := by
  have hcut : SquareTable 3 [[0, 1, 1], [0, 0, 0], [0, 0, 0]] := ⟨rfl, by simp⟩
  obtain ⟨fs', sel, e1, e2, ⟨t, e3, e4⟩, -, -⟩ := C104_environment exText_data exEnvSymbol_good hcut true
    (procs := [[exEnvLine], []]) (procs' := [[exEnvLine], []]) (Z := fun e => [1, 6, 8].getD e 0) (by
      intro ss hss s hs
      simp only [List.mem_cons, List.not_mem_nil, or_false] at hss
      rcases hss with rfl | rfl
      · rw [List.mem_singleton] at hs
        subst hs
        exact exEnvLine_good
      · cases hs) (.cons (.cons exEnvLine_sorted .nil) (.cons .nil .nil)) (by decide) exEnvLine_enough
    "atomic-env".toList (by decide) (fun _ => none)
  have hsel := line_selected (e2 exEnvLine (by simp) _ (by
    show _ ∈ [_, _, _]
    exact List.mem_cons_self))
  refine ⟨fs', t, e1, e3, ?_, ?_⟩
  · rw [e4]
    rfl
  · rw [e4]
    simp only [List.flatten_cons, List.flatten_nil, List.append_nil, List.flatMap_cons, List.flatMap_nil]
    simp only [exEnvLine, List.map_cons, List.getElem?_cons_zero]
    rw [hsel]
    simp [envRow, exEnvAtom, exEnvNeighbor, neighborValues, exEnvSymbol]

/-- Example for `C104_refused`: two neighbours of the second element demanded, one is there. -/
example (file : Str) (fs : Files) : writeAtomicEnvironmentFile exText exEnvSymbol 3
    [[0, 2, 1], [0, 0, 0], [0, 0, 0]] true file [[exEnvLine]] fs = .error .exception := by
  refine C104_refused exText_data exEnvSymbol_good ⟨rfl, by simp⟩ true (s := exEnvLine) (e := 1)
    (Z := fun e => [1, 6, 8].getD e 0) (by
      intro ss hss s hs
      rw [List.mem_singleton] at hss
      subst hss
      rw [List.mem_singleton] at hs
      subst hs
      exact exEnvLine_good) (by simp) (a := exEnvAtom 0 0 [0, 1, 1] [0]
      [exEnvNeighbor 2 2 1 [], exEnvNeighbor 1 1 2 []]) List.mem_cons_self (by decide) ?_ file fs
  simp [cutoffOf, exEnvAtom, exEnvNeighbor]

/-- Example for `C104_order_partial`: one neighbour of the third element demanded. -/
example : selectedByElement 3 (fun e => if e = 2 then 1 else 0) (exEnvAtom 0 0 [0, 1, 1] [0]
    [exEnvNeighbor 2 2 1 [], exEnvNeighbor 1 1 2 []]) = [exEnvNeighbor 2 2 1 []] := by
  refine (C104_order_partial (sel := [exEnvNeighbor 2 2 1 []]) ⟨?_, ?_, ?_⟩ ?_ 2 ?_).symm
  · simp [exEnvAtom]
  · simp
  · intro e he
    interval_cases e <;> simp [nearest, exEnvAtom, exEnvNeighbor]
  · simp [exEnvAtom, exEnvNeighbor]
  · intro e _ h
    simp [h]

/-- Example for `C104_images_partial`: the outer atom has a single entry for the one in the middle. -/
example : motionDerivatives exEnvLine (exEnvAtom 0 0 [0, 1, 1] [0]
    [exEnvNeighbor 2 2 1 [], exEnvNeighbor 1 1 2 []]) (exEnvNeighbor 2 2 1 []) =
    firstEntry exEnvLine (exEnvAtom 0 0 [0, 1, 1] [0]
    [exEnvNeighbor 2 2 1 [], exEnvNeighbor 1 1 2 []]) (exEnvNeighbor 2 2 1 []) :=
  (C104_images_partial (by simp [mutualEntries, exEnvLine, exEnvAtom, exEnvNeighbor])).symm

/-- Example for `C104_cutoffs`: `6 2 4 4` on the command line. -/
example : ∃ t, envCutoffs 2 [6, 2, 4, 4] = .ok t ∧ cutoffOf t 0 1 = 2 ∧ cutoffOf t 1 0 = 4 := by
  obtain ⟨t, h1, -, h2⟩ := (C104_cutoffs 2 [6, 2, 4, 4]).2 rfl (by
    intro x hx
    simp only [List.mem_cons, List.not_mem_nil, or_false] at hx
    rcases hx with rfl | rfl | rfl | rfl <;> norm_num)
  refine ⟨t, h1, ?_, ?_⟩
  · rw [h2 0 (by decide) 1 (by decide)]
    simp
  · rw [h2 1 (by decide) 0 (by decide)]
    simp

end N2P2
