import Verif.Spec.FunctionFile
import Verif.Lemma.Histogram
import Verif.Lemma.DataFile
import Verif.Lemma.Normalization
import Verif.Lemma.CurveFile
import Verif.Lemma.Mode4GResponse
import Verif.Props.Units

/-! Rounds in which the processes write the file with symmetry functions. -/

namespace N2P2

/-! ### Order of the structures -/

theorem round_other (f : Structure → Option Str) (i : ℕ) : ∀ ps : List (List Structure),
    (∀ ss ∈ ps, ∀ s ∈ ss, s.index ≠ i) → functionRound f i ps = some (ps, []) := by
  intro ps
  induction ps with
  | nil => intro _; rfl
  | cons ss ps ih =>
    intro h
    have h' := ih fun ss hs => h ss (by simp [hs])
    cases ss with
    | nil =>
      unfold functionRound
      rw [h']
      rfl
    | cons s ss =>
      have hs : i ≠ s.index := fun e => h (s :: ss) (by simp) s (by simp) e.symm
      unfold functionRound
      rw [if_neg hs, h']
      rfl

theorem round_one {f : Structure → Option Str} {s : Structure} {t : Str} (ht : f s = some t)
    (tl : List Structure) {B : List (List Structure)} (hB : ∀ ss ∈ B, ∀ x ∈ ss, x.index ≠ s.index) :
    ∀ A : List (List Structure), (∀ ss ∈ A, ∀ x ∈ ss, x.index ≠ s.index) →
      functionRound f s.index (A ++ (s :: tl) :: B) = some (A ++ tl :: B, t) := by
  intro A
  induction A with
  | nil =>
    intro _
    rw [List.nil_append, List.nil_append]
    unfold functionRound
    rw [if_pos rfl, ht, round_other f _ B hB]
    show some (tl :: B, t ++ []) = _
    rw [List.append_nil]
  | cons ss A ih =>
    intro h
    have h' := ih fun ss hs => h ss (by simp [hs])
    cases ss with
    | nil =>
      rw [List.cons_append]
      unfold functionRound
      rw [h']
      rfl
    | cons x ss =>
      have hx : s.index ≠ x.index := fun e => h (x :: ss) (by simp) x (by simp) e.symm
      rw [List.cons_append]
      unfold functionRound
      rw [if_neg hx, h']
      rfl

theorem round_next {f : Structure → Option Str} {s : Structure} {t : Str} (ht : f s = some t)
    {procs : List (List Structure)} (hinc : IncreasingIndex procs) {rest : List Structure}
    (hp : procs.flatten.Perm (s :: rest)) (hr : ∀ x ∈ rest, s.index < x.index) :
    ∃ procs', functionRound f s.index procs = some (procs', t) ∧ IncreasingIndex procs' ∧
      procs'.flatten.Perm rest := by
  obtain ⟨ss, hss, hs⟩ := List.mem_flatten.1 (hp.mem_iff.2 List.mem_cons_self)
  obtain ⟨A, B, rfl⟩ := List.append_of_mem hss
  have hmin : ∀ x ∈ (A ++ ss :: B).flatten, s.index ≤ x.index := by
    intro x hx
    rcases List.mem_cons.1 (hp.mem_iff.1 hx) with rfl | h
    · exact le_rfl
    · exact (hr x h).le
  have hhead : ∃ tl, ss = s :: tl := by
    cases ss with
    | nil => cases hs
    | cons y tl =>
      rcases List.mem_cons.1 hs with rfl | h
      · exact ⟨tl, rfl⟩
      · have h1 := hinc _ hss
        rw [List.map_cons, List.pairwise_cons] at h1
        have h2 := h1.1 _ (List.mem_map_of_mem h)
        have h3 := hmin y (List.mem_flatten.2 ⟨_, hss, by simp⟩)
        omega
  obtain ⟨tl, rfl⟩ := hhead
  have hp' : (A ++ tl :: B).flatten.Perm rest := by
    have e : (A ++ (s :: tl) :: B).flatten.Perm (s :: (A ++ tl :: B).flatten) := by
      rw [List.flatten_append, List.flatten_cons, List.flatten_append, List.flatten_cons,
        List.cons_append]
      exact List.perm_middle
    exact (List.perm_cons s).1 (e.symm.trans hp)
  have hlt : ∀ ss ∈ A ++ tl :: B, ∀ x ∈ ss, x.index ≠ s.index := by
    intro ss h x hx
    have := hr x (hp'.mem_iff.1 (List.mem_flatten.2 ⟨ss, h, hx⟩))
    omega
  refine ⟨A ++ tl :: B, round_one ht tl (fun ss h => hlt ss (by simp [h])) A
    (fun ss h => hlt ss (by simp [h])), ?_, hp'⟩
  intro ss h
  rcases List.mem_append.1 h with h | h
  · exact hinc ss (by simp [h])
  · rcases List.mem_cons.1 h with rfl | h
    · have := hinc _ hss
      rw [List.map_cons, List.pairwise_cons] at this
      exact this.2
    · exact hinc ss (by simp [h])

theorem loop_order {f : Structure → Option Str} {t : Structure → Str} : ∀ (all : List Structure) (i : ℕ)
    (procs : List (List Structure)) (text : Str), all.map Structure.index = List.range' i all.length →
    (∀ s ∈ all, f s = some (t s)) → IncreasingIndex procs → procs.flatten.Perm all →
    ∃ left, (List.range' i all.length).foldlM (fun st i => do
        let r ← functionRound f i st.1
        some (r.1, st.2 ++ r.2)) (procs, text) = some (left, text ++ all.flatMap t) ∧
      left.flatten = [] := by
  intro all
  induction all with
  | nil =>
    intro i procs text _ _ _ hp
    exact ⟨procs, by simp, hp.eq_nil⟩
  | cons s rest ih =>
    intro i procs text hi ht hinc hp
    rw [List.length_cons, List.range'_succ, List.map_cons, List.cons.injEq] at hi
    obtain ⟨hi, hrest⟩ := hi
    have hr : ∀ x ∈ rest, s.index < x.index := by
      intro x hx
      have : x.index ∈ rest.map Structure.index := List.mem_map_of_mem hx
      rw [hrest, List.mem_range'_1] at this
      omega
    obtain ⟨procs', h1, h2, h3⟩ := round_next (ht s (by simp)) hinc hp hr
    obtain ⟨left, h4, h5⟩ := ih (i + 1) procs' (text ++ t s) hrest (fun x hx => ht x (by simp [hx])) h2 h3
    refine ⟨left, ?_, h5⟩
    rw [List.length_cons, List.range'_succ, List.foldlM_cons, ← hi]
    show ((functionRound f s.index procs).bind fun r => some (r.1, text ++ r.2)).bind _ = _
    rw [h1, hi]
    refine h4.trans ?_
    rw [List.flatMap_cons, List.append_assoc]

/-! ### Text of a structure -/

theorem functionAtom_ok {N : NumberText} (hN : N.Data) {Z : ℕ → ℕ} {a : Atom} (hZ : Z a.element < 2 ^ 64) :
    ∃ t, functionAtom N Z a = some t ∧ Rows t [natText (Z a.element) :: a.G.map N.print] := by
  have hl := natText_size hZ
  unfold functionAtom
  have e1 : strpr (padLeft 3 (natText (Z a.element)) ++ [' ']) =
      some (padLeft 3 (natText (Z a.element)) ++ [' ']) := by
    apply strpr_some
    simp only [padLeft, List.length_append, List.length_replicate, List.length_singleton]
    omega
  have e2 : a.G.mapM (fun g => strpr (' ' :: padLeft 14 (N.print g))) =
      some (a.G.map fun g => ' ' :: padLeft 14 (N.print g)) := by
    refine mapM_of_map fun g _ => strpr_some ?_
    have := (hN.1 g).2.2
    simp only [padLeft, List.length_append, List.length_replicate, List.length_cons]
    omega
  rw [e1, e2]
  refine ⟨_, rfl, ?_⟩
  let fs : List (ℕ × Str) := a.G.map fun g => (14 - (N.print g).length, N.print g)
  have hfs : ∀ f ∈ fs, IsWord f.2 ∧ '\n' ∉ f.2 := by
    intro f hf
    obtain ⟨g, -, rfl⟩ := List.mem_map.1 hf
    exact ⟨(hN.1 g).1, (hN.1 g).2.1⟩
  have e3 : (a.G.map fun g => ' ' :: padLeft 14 (N.print g)).flatten = spaced fs := by
    simp [fs, spaced, padLeft, List.flatMap_def, Function.comp_def]
  rw [e3]
  refine ⟨[List.replicate (3 - (natText (Z a.element)).length) ' ' ++ natText (Z a.element) ++
    ' ' :: spaced fs], ?_, ?_, ?_⟩
  · simp [padLeft]
  · intro l hl
    rw [List.mem_singleton.1 hl]
    refine ⟨?_, (lead_head _ _ _).1, (lead_head _ _ _).2⟩
    intro hc
    rcases List.mem_append.1 hc with hc | hc
    · rcases List.mem_append.1 hc with hc | hc
      · exact absurd (List.eq_of_mem_replicate hc) (by decide)
      · exact natText_newline _ hc
    · rcases List.mem_cons.1 hc with hc | hc
      · exact absurd hc (by decide)
      · exact newline_spaced (fun f hf => (hfs f hf).2) hc
  · rw [List.map_singleton, List.append_assoc]
    congr 1
    rw [C01_tokens_are_words]
    have h4 : a.G.map N.print = fs.map Prod.snd := by
      simp [fs, Function.comp_def]
    rw [h4]
    exact tokens_blanks _ (tokens_then (natText_word _) (tokens_spaced fs fun f hf => (hfs f hf).1))

theorem functionText_ok {N : NumberText} (hN : N.Data) {Z : ℕ → ℕ} {U : ModeUnits} {normalize : Bool}
    {offs : List ℝ} {nan : ℝ} {s : Structure} (hZ : ∀ a ∈ s.atoms, Z a.element < 2 ^ 64)
    (hn : s.atoms.length < 2 ^ 64) (hnum : s.numAtoms = s.atoms.length) {e : ℝ}
    (he : functionEnergy U normalize offs nan s = some (e / s.atoms.length)) :
    ∃ t, functionText N Z U normalize offs nan s = some t ∧
      Rows t (functionRows N Z e (s.atoms.map fun a => (a.element, a.G))) := by
  have hl := natText_size hn
  unfold functionText
  rw [hnum, he]
  have e1 : strpr (padLeft 6 (natText s.atoms.length) ++ ['\n']) =
      some (padLeft 6 (natText s.atoms.length) ++ ['\n']) := by
    apply strpr_some
    simp only [padLeft, List.length_append, List.length_replicate, List.length_singleton]
    omega
  have hex : ∀ a ∈ s.atoms, ∃ t, functionAtom N Z a = some t ∧
      Rows t [natText (Z a.element) :: a.G.map N.print] := fun a ha => functionAtom_ok hN (hZ a ha)
  choose! t ht using hex
  have e2 : s.atoms.mapM (functionAtom N Z) = some (s.atoms.map t) :=
    mapM_of_map fun a ha => (ht a ha).1
  set x := e / (s.atoms.length : ℝ) with hx
  have e3 : strpr (fieldLine [] [padLeft 19 (N.print 0), padLeft 19 (N.print x),
      padLeft 19 (N.print x), padLeft 19 (N.print 0)]) =
      some (fieldLine [] [padLeft 19 (N.print 0), padLeft 19 (N.print x),
      padLeft 19 (N.print x), padLeft 19 (N.print 0)]) := by
    apply strpr_some
    have h0 := (hN.1 0).2.2
    have h1 := (hN.1 x).2.2
    simp only [fieldLine, padLeft, List.length_append, List.length_replicate, List.length_cons,
      List.length_nil, List.flatMap_cons, List.flatMap_nil]
    omega
  rw [e1, e2]
  show ∃ t', ((strpr _).bind _) = some t' ∧ _
  rw [e3]
  refine ⟨_, rfl, ?_⟩
  have r1 : Rows (padLeft 6 (natText s.atoms.length) ++ ['\n']) [[natText s.atoms.length]] := by
    have := row_line 6 s.atoms.length [] (by simp)
    simpa [fieldLine] using this
  have r2 : Rows (s.atoms.map t).flatten
      (s.atoms.map fun a => natText (Z a.element) :: a.G.map N.print) :=
    rows_flatten t _ s.atoms fun a ha => (ht a ha).2
  have r3 : Rows (fieldLine [] [padLeft 19 (N.print 0), padLeft 19 (N.print x),
      padLeft 19 (N.print x), padLeft 19 (N.print 0)])
      [[N.print 0, N.print x, N.print x, N.print 0]] := by
    let fs : List (ℕ × Str) := [(19 - (N.print 0).length, N.print 0), (19 - (N.print x).length, N.print x),
      (19 - (N.print x).length, N.print x), (19 - (N.print 0).length, N.print 0)]
    have hfs : ∀ f ∈ fs, IsWord f.2 ∧ '\n' ∉ f.2 := by
      intro f hf
      simp only [fs, List.mem_cons, List.not_mem_nil, or_false] at hf
      rcases hf with rfl | rfl | rfl | rfl
      · exact ⟨(hN.1 0).1, (hN.1 0).2.1⟩
      · exact ⟨(hN.1 x).1, (hN.1 x).2.1⟩
      · exact ⟨(hN.1 x).1, (hN.1 x).2.1⟩
      · exact ⟨(hN.1 0).1, (hN.1 0).2.1⟩
    refine ⟨[spaced fs], ?_, ?_, ?_⟩
    · simp [fieldLine, spaced, fs, padLeft]
    · intro l hl
      rw [List.mem_singleton.1 hl]
      exact ⟨newline_spaced fun f hf => (hfs f hf).2, by simp [spaced, fs], by simp [spaced, fs]⟩
    · rw [List.map_singleton]
      congr 1
      rw [C01_tokens_are_words]
      exact tokens_spaced fs fun f hf => (hfs f hf).1
  have := rows_append (rows_append r1 r2) r3
  unfold functionRows
  rw [List.length_map, List.map_map]
  exact this

/-! ### Structures of the tool -/

theorem normalized_members {s w : Structure} {mE cE cL cQ : ℝ}
    (h : s.toNormalizedUnits mE cE cL cQ = some w) :
    w.index = s.index ∧ w.numAtoms = s.numAtoms ∧ w.numAtomsPerElement = s.numAtomsPerElement ∧
      w.energyRef = (s.energyRef - s.numAtoms * mE) * cE ∧
      w.atoms.map Atom.element = s.atoms.map Atom.element := by
  unfold Structure.toNormalizedUnits at h
  cases hm : s.atoms.mapM (fun a : Atom => a.toNormalizedUnits cE cL cQ) with
  | none => rw [hm] at h; cases h
  | some as =>
    rw [hm] at h
    simp only [Option.map_some, Option.some.injEq] at h
    subst h
    refine ⟨rfl, rfl, rfl, rfl, ?_⟩
    have := mapM_forall₂ hm
    show as.map _ = _
    clear hm
    generalize s.atoms = A at this ⊢
    induction this with
    | nil => rfl
    | @cons a b l l' h1 _ ih =>
      rw [List.map_cons, List.map_cons, ih]
      congr 1
      unfold Atom.toNormalizedUnits at h1
      split at h1
      · simp only [Option.some.injEq] at h1
        subst h1
        rfl
      · cases h1

theorem normalized_exists {s : Structure} (hb : ∀ a ∈ s.atoms, a.Bare) (mE cE cL cQ : ℝ) :
    ∃ w, s.toNormalizedUnits mE cE cL cQ = some w := by
  unfold Structure.toNormalizedUnits
  have hex : ∀ a ∈ s.atoms, ∃ b : Atom, a.toNormalizedUnits cE cL cQ = some b := by
    intro a ha
    obtain ⟨i, k, t, r, e, q, f, z, rfl⟩ := hb a ha
    unfold Atom.toNormalizedUnits
    rw [if_pos (by rfl)]
    exact ⟨_, rfl⟩
  obtain ⟨m, hm⟩ := mapM_exists hex
  rw [hm]
  exact ⟨_, rfl⟩

/-- What is common to a structure held by a process and the same in units of the program. -/
theorem scalingStructure_ok (U : ModeUnits) (normalize : Bool) (G : Structure → ℕ → List ℝ) {v : Structure}
    (hb : ∀ a ∈ v.atoms, a.Bare) :
    ∃ w, InUnits U normalize v w ∧
      scalingStructure U normalize G v =
        some { w with atoms := w.atoms.mapIdx fun i a => { a with G := G w i } } ∧
      w.index = v.index ∧ w.numAtoms = v.numAtoms ∧ w.numAtomsPerElement = v.numAtomsPerElement ∧
      w.energyRef = (if normalize then (v.energyRef - v.numAtoms * U.meanEnergy) * U.convEnergy
        else v.energyRef) ∧
      w.atoms.map Atom.element = v.atoms.map Atom.element := by
  unfold InUnits scalingStructure
  cases normalize with
  | true =>
    obtain ⟨w, hw⟩ := normalized_exists hb U.meanEnergy U.convEnergy U.convLength U.convCharge
    obtain ⟨h1, h2, h3, h4, h5⟩ := normalized_members hw
    refine ⟨w, hw, ?_, h1, h2, h3, h4, h5⟩
    rw [if_pos rfl, hw]
    rfl
  | false => exact ⟨v, rfl, rfl, rfl, rfl, rfl, rfl, rfl⟩

/-! ### Order on the processes -/

/-- Numbers on every process increase. -/
def DistState.Increasing (d : DistState) : Prop :=
  ∀ p, (d.held p).Pairwise (· < ·) ∧ ∀ k ∈ d.held p, k < d.count

theorem DistState.Increasing.give {d : DistState} (h : d.Increasing) (p : ℕ) : (d.give p).Increasing := by
  intro q
  show (Function.update d.held p (d.held p ++ [d.count]) q).Pairwise (· < ·) ∧
    ∀ k ∈ Function.update d.held p (d.held p ++ [d.count]) q, k < d.count + 1
  by_cases hq : q = p
  · subst hq
    rw [Function.update_self]
    refine ⟨?_, ?_⟩
    · rw [List.pairwise_append]
      refine ⟨(h q).1, List.pairwise_singleton _ _, ?_⟩
      intro a ha b hb
      rw [List.mem_singleton.1 hb]
      exact (h q).2 a ha
    · intro k hk
      rcases List.mem_append.1 hk with hk | hk
      · have := (h q).2 k hk
        omega
      · rw [List.mem_singleton.1 hk]
        omega
  · rw [Function.update_of_ne hq]
    refine ⟨(h q).1, fun k hk => ?_⟩
    have := (h q).2 k hk
    omega

theorem increasing_random {n : ℕ} {quota : ℕ → ℕ} : ∀ (ds : List ℕ) {d d' : DistState}, d.Increasing →
    distributeRandom n quota ds d = some d' → d'.Increasing := by
  intro ds
  induction ds with
  | nil =>
    intro d d' h e
    unfold distributeRandom at e
    split_ifs at e
    cases e
    exact h
  | cons p ds ih =>
    intro d d' h e
    unfold distributeRandom at e
    split_ifs at e
    · exact ih (h.give p) e
    · exact ih h e
    · cases e
      exact h

theorem increasing_inner {p : ℕ} : ∀ (K : List ℕ) {d : DistState}, d.Increasing →
    (K.foldl (fun d _ => d.give p) d).Increasing := by
  intro K
  induction K with
  | nil => intro d h; exact h
  | cons x K ih => intro d h; exact ih (h.give p)

theorem increasing_outer {quota : ℕ → ℕ} : ∀ (K : List ℕ) {d : DistState}, d.Increasing →
    (K.foldl (fun s p => (List.range (quota p)).foldl (fun s _ => s.give p) s) d).Increasing := by
  intro K
  induction K with
  | nil => intro d h; exact h
  | cons x K ih => intro d h; exact ih (increasing_inner _ h)

theorem increasing_distribute {n P : ℕ} {randomize excl : Bool} {draws : List ℕ} {d : DistState}
    (h : distributeStructures n P randomize excl draws = .ok (some d)) : d.Increasing := by
  have h0 : DistState.init.Increasing := fun p => ⟨List.Pairwise.nil, nofun⟩
  unfold distributeStructures at h
  cases hq : structuresPerProc n P excl with
  | error e => rw [hq] at h; cases h
  | ok quota =>
    rw [hq] at h
    injection h with h
    cases randomize with
    | true => exact increasing_random draws h0 h
    | false =>
      cases h
      exact increasing_outer _ h0

variable {Byte : Type} {D : DataSetup Byte} {L : List (List Str)} {Z : List Str}

/-- Structures are held with increasing numbers. -/
theorem held_increasing (hD : D.Sane) (hL : ∀ l ∈ L, D.Readable l) (hZ : getNumStructures Z = 0)
    (P : ℕ) (hP : 0 < P) (randomize excl : Bool) (draws : List ℕ) {d : DistState}
    (hd : distributeStructures L.length P randomize excl draws = .ok (some d)) {s : FileState}
    (hs : distributeFile D P randomize excl draws (L.flatten ++ Z) = .ok s) :
    IncreasingIndex ((List.range P).map s.held) := by
  obtain ⟨s', e, h⟩ := follows_distribute hD hL P hP randomize excl draws hZ hd
  rw [hs] at e
  cases e
  have hi := increasing_distribute hd
  intro ss hss
  obtain ⟨p, -, rfl⟩ := List.mem_map.1 hss
  have e : (s.held p).map Structure.index = d.held p := by
    have := h.held p
    generalize d.held p = A at this ⊢
    generalize s.held p = B at this ⊢
    induction this with
    | nil => rfl
    | cons h1 _ ih => rw [List.map_cons, h1.1, ih]
  rw [e]
  exact (hi p).1

end N2P2
