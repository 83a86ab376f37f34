import Verif.Spec.Convert
import Verif.Lemma.DataFile
import Verif.Lemma.Reading
import Verif.Lemma.WeightFile
import Verif.Props.StructureFile
import Mathlib.Data.List.GetD

/-! Writing XYZ and POSCAR files. -/

namespace N2P2

/-! ### Lines -/

theorem tokens_lead (n : ℕ) (w : Str) (hw : IsWord w) (fs : List (ℕ × Str))
    (h : ∀ f ∈ fs, IsWord f.2) :
    SpecTokens (List.replicate n ' ' ++ w ++ spaced fs) (w :: fs.map Prod.snd) := by
  have hb : AllBlank (List.replicate n ' ') := by
    intro c hc
    rw [List.eq_of_mem_replicate hc]
    rfl
  have ht := tokens_spaced fs h
  cases fs with
  | nil =>
    have := SpecTokens.last hb hw
    simpa [spaced] using this
  | cons g gs =>
    have e' : spaced (g :: gs) = ' ' :: (List.replicate g.1 ' ' ++ g.2 ++ spaced gs) := by
      simp [spaced]
    rw [e'] at ht ⊢
    exact .cons hb hw rfl ht

/-- Three numbers. -/
def threeBody (N : NumberText) (v : Vec3) : Str :=
  List.replicate (numField N (v 0)).1 ' ' ++ N.print (v 0) ++ spaced [numField N (v 1), numField N (v 2)]

/-- Element and position. -/
def xyzBody (N : NumberText) (w : Str) (v : Vec3) : Str :=
  List.replicate 0 ' ' ++ w ++ spaced [((numField N (v 0)).1 + (2 - w.length), N.print (v 0)),
    numField N (v 1), numField N (v 2)]

/-- Nine numbers. -/
def nineBody (N : NumberText) (b : Fin 3 → Vec3) : Str :=
  List.replicate (numField N (b 0 0)).1 ' ' ++ N.print (b 0 0) ++ spaced [numField N (b 0 1),
    numField N (b 0 2), numField N (b 1 0), numField N (b 1 1), numField N (b 1 2), numField N (b 2 0),
    numField N (b 2 1), numField N (b 2 2)]

variable {N : NumberText}

theorem three_vec (v : Vec3) : N.roundedVec v =
    ![N.atof (N.print (v 0)), N.atof (N.print (v 1)), N.atof (N.print (v 2))] := by
  funext c
  fin_cases c <;> rfl

theorem shows_three (hN : N.Sane) (v : Vec3) : ShowsVec N (threeBody N v) (N.roundedVec v) := by
  refine ⟨N.print (v 0), N.print (v 1), N.print (v 2), ?_, three_vec v⟩
  refine tokens_lead _ _ (hN _).1 _ ?_
  intro f hf
  simp only [List.mem_cons, List.not_mem_nil, or_false] at hf
  rcases hf with rfl | rfl <;> exact (hN _).1

theorem shows_atom (hN : N.Sane) {w : Str} (hw : w ∈ knownElements) (v : Vec3) :
    ShowsAtom N (xyzBody N w v) (w, N.roundedVec v) := by
  obtain ⟨h1, h2, -, -, -⟩ := known_sane w hw
  refine ⟨N.print (v 0), N.print (v 1), N.print (v 2), ?_, three_vec v⟩
  refine tokens_lead _ _ ⟨h1, h2⟩ _ ?_
  intro f hf
  simp only [List.mem_cons, List.not_mem_nil, or_false] at hf
  rcases hf with rfl | rfl | rfl <;> exact (hN _).1

theorem shows_nine (hN : N.Sane) (b : Fin 3 → Vec3) : ∃ ws, SpecTokens (nineBody N b) ws ∧
    ws.map N.atof = [N.rounded (b 0 0), N.rounded (b 0 1), N.rounded (b 0 2), N.rounded (b 1 0),
      N.rounded (b 1 1), N.rounded (b 1 2), N.rounded (b 2 0), N.rounded (b 2 1),
      N.rounded (b 2 2)] := by
  refine ⟨_, tokens_lead _ _ (hN _).1 _ ?_, rfl⟩
  intro f hf
  simp only [List.mem_cons, List.not_mem_nil, or_false] at hf
  rcases hf with rfl | rfl | rfl | rfl | rfl | rfl | rfl | rfl <;> exact (hN _).1

theorem field_length (hN : N.Sane) (x : ℝ) : (N.field x).length = 24 := by
  have := (hN x).2.2
  simp only [NumberText.field, padLeft, List.length_append, List.length_replicate]
  omega

theorem threeFields_eq (hN : N.Sane) (v : Vec3) (tail : Str) (ht : tail.length ≤ 100) :
    threeFields N v tail = some (threeBody N v ++ tail) := by
  have e : N.field (v 0) ++ ' ' :: (N.field (v 1) ++ ' ' :: (N.field (v 2) ++ tail)) =
      threeBody N v ++ tail := by
    simp [threeBody, spaced, numField, NumberText.field, padLeft]
  unfold threeFields strpr
  rw [if_pos ?_, e]
  simp only [List.length_append, List.length_cons, field_length hN]
  omega

theorem xyzAtom_eq (hN : N.Sane) {m : EMap} {a : Atom} {w : Str}
    (hw : w ∈ knownElements) (hs : m.symbol a.element = .ok w) :
    xyzAtom N m a = some (xyzBody N w a.r ++ ['\n']) := by
  obtain ⟨h1, h2, h3, h4, h5⟩ := known_sane w hw
  unfold xyzAtom
  rw [hs]
  show strpr (padRight 2 (cString w) ++ ' ' ::
    (N.field (a.r 0) ++ ' ' :: (N.field (a.r 1) ++ ' ' :: (N.field (a.r 2) ++ ['\n'])))) = _
  rw [cString_id h4]
  have e : padRight 2 w ++ ' ' ::
      (N.field (a.r 0) ++ ' ' :: (N.field (a.r 1) ++ ' ' :: (N.field (a.r 2) ++ ['\n']))) =
      xyzBody N w a.r ++ ['\n'] := by
    have hr : ∀ (k n : ℕ) (t : Str), List.replicate k ' ' ++ ' ' :: (List.replicate n ' ' ++ t) =
        ' ' :: (List.replicate (n + k) ' ' ++ t) := by
      intro k n t
      rw [Nat.add_comm, List.replicate_add]
      induction k with
      | zero => simp
      | succ k ih => simp only [List.replicate_succ, List.cons_append, ih]
    simp [xyzBody, padRight, spaced, numField, NumberText.field, padLeft, hr]
  unfold strpr
  rw [if_pos ?_, e]
  simp only [List.length_append, List.length_cons, field_length hN, padRight, List.length_replicate,
    List.length_nil]
  omega

theorem no_newline_three (hN : N.Sane) (v : Vec3) : '\n' ∉ threeBody N v := by
  unfold threeBody
  refine no_newline_body ?_ ?_
  · rw [List.mem_append]
    rintro (h | h)
    · exact absurd (List.eq_of_mem_replicate h) (by decide)
    · exact (hN _).2.1 h
  · intro f hf
    simp only [List.mem_cons, List.not_mem_nil, or_false] at hf
    rcases hf with rfl | rfl <;> exact (hN _).2.1

theorem no_newline_xyz (hN : N.Sane) {w : Str} (hw : w ∈ knownElements) (v : Vec3) :
    '\n' ∉ xyzBody N w v := by
  unfold xyzBody
  refine no_newline_body ?_ ?_
  · rw [List.mem_append]
    rintro (h | h)
    · exact absurd (List.eq_of_mem_replicate h) (by decide)
    · exact (known_sane w hw).2.2.1 h
  · intro f hf
    simp only [List.mem_cons, List.not_mem_nil, or_false] at hf
    rcases hf with rfl | rfl | rfl <;> exact (hN _).2.1

theorem no_char_nine (c : Char) (hc : c ≠ ' ') (h : ∀ x, c ∉ N.print x) (b : Fin 3 → Vec3) :
    c ∉ nineBody N b := by
  have key : ∀ fs : List (ℕ × Str), (∀ f ∈ fs, c ∉ f.2) → c ∉ spaced fs := by
    intro fs hfs
    unfold spaced
    rw [List.mem_flatMap]
    rintro ⟨f, hf, hm⟩
    rcases List.mem_cons.1 hm with h1 | h1
    · exact hc h1
    rcases List.mem_append.1 h1 with h2 | h2
    · exact hc (List.eq_of_mem_replicate h2)
    · exact hfs f hf h2
  unfold nineBody
  rw [List.mem_append, List.mem_append]
  rintro ((h' | h') | h')
  · exact hc (List.eq_of_mem_replicate h')
  · exact h _ h'
  · refine key _ ?_ h'
    intro f hf
    simp only [List.mem_cons, List.not_mem_nil, or_false] at hf
    rcases hf with rfl | rfl | rfl | rfl | rfl | rfl | rfl | rfl <;> exact h _

/-! ### XYZ -/

/-- Second line of a frame. -/
def latticeBody (N : NumberText) (s : Structure) : Str :=
  if s.isPeriodic then "Lattice=\"".toList ++ nineBody N s.box ++ ['"'] else []

theorem xyzLattice_eq (hN : N.Sane) (s : Structure) :
    xyzLattice N s = some (latticeBody N s ++ ['\n']) := by
  unfold xyzLattice latticeBody
  by_cases h : s.isPeriodic = true
  · rw [if_pos h, if_pos h, threeFields_eq hN _ _ (by decide), threeFields_eq hN _ _ (by decide),
      threeFields_eq hN _ _ (by decide)]
    show some _ = some _
    congr 1
    simp [threeBody, nineBody, spaced, numField]
  · rw [if_neg h, if_neg h]
    rfl

theorem shows_lattice (hN : N.Sane) (hq : N.Unquoted) (s : Structure) :
    ShowsLattice N (latticeBody N s) (if s.isPeriodic then some (s.roundedBox N) else none) := by
  unfold latticeBody
  by_cases h : s.isPeriodic = true
  · rw [if_pos h, if_pos h]
    obtain ⟨ws, h1, h2⟩ := shows_nine hN s.box
    exact ⟨_, ws, rfl, no_char_nine _ (by decide) hq _, h1, h2⟩
  · rw [if_neg h, if_neg h]
    rfl

theorem no_newline_lattice (hN : N.Sane) (s : Structure) : '\n' ∉ latticeBody N s := by
  unfold latticeBody
  by_cases h : s.isPeriodic = true
  · rw [if_pos h, List.mem_append, List.mem_append]
    rintro ((h' | h') | h')
    · exact absurd h' (by decide)
    · exact no_char_nine _ (by decide) (fun x => (hN x).2.1) _ h'
    · exact absurd h' (by decide)
  · rw [if_neg h]
    exact List.not_mem_nil

/-- The lines of a frame. -/
def xyzLines (N : NumberText) (m : EMap) (s : Structure) : List Str :=
  natText s.atoms.length :: latticeBody N s ::
    s.atoms.map fun a => xyzBody N (m.symbolOf a.element) a.r

theorem symbolOf_known {m : EMap} (hm : m.Sane) {e : ℕ} (h : e < m.size) :
    m.symbolOf e ∈ knownElements ∧ m.symbol e = .ok (m.symbolOf e) ∧
      m.index (m.symbolOf e) = .ok e := by
  obtain ⟨w, h1, h2, h3⟩ := hm e h
  have : m.symbolOf e = w := by
    unfold EMap.symbolOf
    rw [h2]
    rfl
  rw [this]
  exact ⟨h1, h2, h3⟩

theorem flatten_lines {α : Type} (l : List α) (f : α → Str) :
    (l.map fun a => f a ++ ['\n']).flatten = (l.map f).flatMap (· ++ ['\n']) := by
  rw [List.flatMap_def, List.map_map]
  rfl

theorem writeToFileXyz_eq (hN : N.Sane) {m : EMap} (hm : m.Sane) (s : Structure)
    (he : ∀ a ∈ s.atoms, a.element < m.size) (hn : s.numAtoms = s.atoms.length)
    (hl : s.atoms.length < 2 ^ 31) :
    s.writeToFileXyz N m = some ((xyzLines N m s).flatMap (· ++ ['\n'])) := by
  have h2 : s.atoms.mapM (xyzAtom N m) =
      some (s.atoms.map fun a => xyzBody N (m.symbolOf a.element) a.r ++ ['\n']) :=
    (mapM_eq_map fun a ha => by
      obtain ⟨h1, h2, -⟩ := symbolOf_known hm (he a ha)
      exact xyzAtom_eq hN h1 h2)
  unfold Structure.writeToFileXyz intField
  rw [hn, if_pos hl, xyzLattice_eq hN, h2]
  show some _ = some _
  congr 1
  rw [flatten_lines]
  simp [xyzLines]

theorem no_newline_xyzLines (hN : N.Sane) {m : EMap} (hm : m.Sane) (s : Structure)
    (he : ∀ a ∈ s.atoms, a.element < m.size) : ∀ l ∈ xyzLines N m s, '\n' ∉ l := by
  intro l hl
  unfold xyzLines at hl
  rw [List.mem_cons, List.mem_cons] at hl
  rcases hl with rfl | rfl | hl
  · exact natText_newline _
  · exact no_newline_lattice hN s
  · obtain ⟨a, ha, rfl⟩ := List.mem_map.1 hl
    exact no_newline_xyz hN (symbolOf_known hm (he a ha)).1 _

theorem tokens_word {w : Str} (h : IsWord w) : SpecTokens w [w] := by
  have := SpecTokens.last (b := []) (fun c hc => by cases hc) h
  simpa using this

theorem reads_frame (hN : N.Sane) (hq : N.Unquoted) {m : EMap} (hm : m.Sane) (s : Structure)
    (he : ∀ a ∈ s.atoms, a.element < m.size) {rest : List Str} {Fs : List Frame}
    (h : ReadsXyz N rest Fs) : ReadsXyz N (xyzLines N m s ++ rest) (s.frame N m :: Fs) := by
  unfold xyzLines
  refine ReadsXyz.frame (head := natText s.atoms.length) ?_ (shows_lattice hN hq s) ?_ h
  · have : (s.frame N m).atoms.length = s.atoms.length := by
      unfold Structure.frame
      rw [List.length_map]
    rw [this]
    exact tokens_word (natText_word _)
  · show List.Forall₂ (ShowsAtom N) (s.atoms.map _) (s.atoms.map _)
    rw [List.forall₂_map_left_iff, List.forall₂_map_right_iff, List.forall₂_same]
    intro a ha
    exact shows_atom hN (symbolOf_known hm (he a ha)).1 _

/-! ### The loop -/

theorem reset_start (x : Structure) (m : EMap) :
    x.reset m.size = (Structure.forReading m 0).withPast x := by
  have h := resizeNat_replicate 0 m.size
  unfold Structure.reset Structure.withPast Structure.forReading Structure.setElementMap
  dsimp only
  rw [show Structure.init.numAtomsPerElement = List.replicate 0 0 from rfl, h]
  rfl

/-- What is written does not depend on members which are not reset. -/
theorem convertLoop_eq {m : EMap} {α : Type} {write : ℕ → Structure → Option α} {R : Structure → Prop}
    {out : ℕ → Structure → α} {K : ℕ}
    (hw : ∀ k u x, k < K → R u → write k (u.withPast x) = some (out k u)) :
    ∀ (L : List (List Str)) (U : List Structure) (x : Structure) (k fuel : ℕ), k + L.length ≤ K →
      L.flatten.length ≤ fuel → (∀ l ∈ L, IsSection l) →
      List.Forall₂ (fun l u => (Structure.forReading m 0).readFromLines N m l = some u) L U →
      (∀ u ∈ U, R u) →
      convertLoop N m write fuel ((Structure.forReading m 0).withPast x) k L.flatten =
        some (U.zipIdx.map fun p => out (k + p.2) p.1) := by
  intro L
  induction L with
  | nil =>
    intro U x k fuel _ _ _ hU _
    cases hU
    cases fuel <;> rfl
  | cons l L ih =>
    intro U x k fuel hK hf hL hU hR
    cases hU with
    | cons h1 h2 =>
      rename_i u U
      have hne : (l :: L).flatten ≠ [] := by
        obtain ⟨b, body, e, rfl, -⟩ := hL l (by simp)
        simp
      have hlen : 1 ≤ l.length := by
        obtain ⟨b, body, e, rfl, -⟩ := hL l (by simp)
        simp
      cases fuel with
      | zero =>
        simp only [Nat.le_zero] at hf
        exact absurd (List.eq_nil_of_length_eq_zero hf) hne
      | succ fuel =>
        unfold convertLoop
        rw [if_neg hne, List.flatten_cons, readFromFile_past, readFromFile_section (hL l (by simp)), h1]
        show (write k (u.withPast x)).bind (fun t =>
          (convertLoop N m write fuel ((u.withPast x).reset m.size) (k + 1) L.flatten).bind
            fun ts => some (t :: ts)) = _
        rw [List.length_cons] at hK
        rw [hw k u x (by omega) (hR u (by simp)), reset_start,
          ih U _ (k + 1) fuel (by omega) (by
            rw [List.flatten_cons, List.length_append] at hf
            omega) (fun l hl => hL l (by simp [hl])) h2 fun u hu => hR u (by simp [hu])]
        show some _ = some _
        congr 1
        rw [List.zipIdx_cons, List.map_cons, Nat.add_zero, List.zipIdx_succ, List.map_map]
        congr 1
        apply List.map_congr_left
        intro p _
        show out _ _ = out _ _
        congr 1
        simp only
        omega

/-! ### Elements -/

theorem joinWords_eq : ∀ ws : List Str, joinWords ws = joinSp ws
  | [] => rfl
  | [w] => by simp [joinWords, joinSp]
  | w :: v :: ws => by
    rw [joinSp, ← joinWords_eq (v :: ws)]
    simp [joinWords]

theorem split_joinWords {ws : List Str} (h : ∀ w ∈ ws, IsWord w) : split (joinWords ws) = ws := by
  rw [joinWords_eq]
  exact split_join ws h

theorem tokens_joinWords {ws : List Str} (h : ∀ w ∈ ws, IsWord w) : SpecTokens (joinWords ws) ws := by
  cases ws with
  | nil => exact .nil (fun c hc => by cases hc)
  | cons w ws =>
    have := tokens_lead 0 w (h w (by simp)) (ws.map fun v => (0, v)) (by
      intro f hf
      obtain ⟨v, hv, rfl⟩ := List.mem_map.1 hf
      exact h v (by simp [hv]))
    simpa [spaced, joinWords, List.flatMap_map, Function.comp_def] using this

theorem known_word {w : Str} (h : w ∈ knownElements) : IsWord w :=
  ⟨(known_sane w h).1, (known_sane w h).2.1⟩

/-- The map made from the arguments and the order of the elements. -/
structure Ordered (m : EMap) (args : List Str) (order : List ℕ) : Prop where
  sane : m.Sane
  size : m.size = args.length
  index : args.mapM (fun w => (m.index w).toOption) = some order
  args : order.map m.symbolOf = args
  lt : ∀ e ∈ order, e < m.size

theorem ordered {args : List Str} (h : GoodElements args) {m : EMap} {n : ℕ}
    (hm : EMap.empty.registerElements (joinWords args) = .ok (m, n)) :
    ∃ order, Ordered m args order := by
  obtain ⟨h0, h1, h2⟩ := h
  obtain ⟨m', g1, g2, g3, g4, -⟩ := C04_register_bijection (joinWords args) args
    (tokens_joinWords fun w hw => known_word (h2 w hw)) h2 h1
  rw [hm] at g1
  cases g1
  refine ⟨args.map fun w => ((m.index w).toOption).getD 0, ?_, g2, ?_, ?_, ?_⟩
  · intro i hi
    obtain ⟨w, h3, h4, h5⟩ := g4 i (by rw [← g2]; exact hi)
    exact ⟨w, h2 w h3, h4, h5⟩
  · refine mapM_eq_map fun w hw => ?_
    obtain ⟨i, -, h4, -⟩ := g3 w hw
    rw [h4]
    rfl
  · rw [List.map_map]
    conv_rhs => rw [← List.map_id args]
    apply List.map_congr_left
    intro w hw
    obtain ⟨i, -, h4, h5⟩ := g3 w hw
    simp only [Function.comp_apply, h4]
    unfold EMap.symbolOf
    show ((m.symbol i).toOption).getD [] = w
    rw [h5]
    rfl
  · intro e he
    obtain ⟨w, hw, rfl⟩ := List.mem_map.1 he
    obtain ⟨i, h3, h4, -⟩ := g3 w hw
    rw [h4, g2]
    exact h3

/-! ### POSCAR -/

variable {m : EMap} {args : List Str} {order : List ℕ}

theorem poscarTitle_eq (ho : Ordered m args order) (hne : args ≠ []) {c : Str}
    (hc : Commentary c) :
    poscarTitle m c order = some (c ++ ", ATOM=".toList ++ joinWords args ++ ['\n']) := by
  have hargs := ho.args
  cases order with
  | nil => exact absurd hargs.symm hne
  | cons e es =>
    subst hargs
    have hs : ∀ e' ∈ e :: es, (m.symbol e').toOption = some (m.symbolOf e') ∧
        cString (m.symbolOf e') = m.symbolOf e' ∧ (m.symbolOf e').length ≤ 2 := by
      intro e' he
      obtain ⟨h1, h2, -⟩ := symbolOf_known ho.sane (ho.lt e' he)
      obtain ⟨-, -, -, h6, h7⟩ := known_sane _ h1
      rw [h2]
      exact ⟨rfl, cString_id h6, h7⟩
    have h1 : strpr (cString c ++ [',', ' ']) = some (c ++ [',', ' ']) := by
      rw [cString_id hc.2.1]
      unfold strpr
      rw [if_pos]
      have := hc.2.2
      simp only [List.length_append, List.length_cons, List.length_nil]
      omega
    obtain ⟨g1, g2, g3⟩ := hs e (by simp)
    have h2 : strpr ("ATOM=".toList ++ cString (m.symbolOf e)) =
        some ("ATOM=".toList ++ m.symbolOf e) := by
      rw [g2]
      unfold strpr
      rw [if_pos]
      have : "ATOM=".toList.length = 5 := by decide
      simp only [List.length_append]
      omega
    have h3 : es.mapM (fun e => (m.symbol e).toOption.bind fun w => strpr (' ' :: cString w)) =
        some (es.map fun e => ' ' :: m.symbolOf e) := by
      refine mapM_eq_map fun e' he' => ?_
      obtain ⟨k1, k2, k3⟩ := hs e' (by simp [he'])
      rw [k1]
      show strpr (' ' :: cString (m.symbolOf e')) = _
      rw [k2]
      unfold strpr
      rw [if_pos]
      simp only [List.length_cons]
      omega
    unfold poscarTitle
    rw [h1]
    show ((m.symbol e).toOption.bind fun w => (strpr ("ATOM=".toList ++ cString w)).bind fun a =>
      (es.mapM (fun e => (m.symbol e).toOption.bind fun w => strpr (' ' :: cString w))).bind
        fun as => some (c ++ [',', ' '] ++ a ++ as.flatten ++ ['\n'])) = _
    rw [g1]
    show ((strpr ("ATOM=".toList ++ cString (m.symbolOf e))).bind fun a =>
      (es.mapM (fun e => (m.symbol e).toOption.bind fun w => strpr (' ' :: cString w))).bind
        fun as => some (c ++ [',', ' '] ++ a ++ as.flatten ++ ['\n'])) = _
    rw [h2, h3]
    show some _ = some _
    congr 1
    have e1 : (es.map fun e => ' ' :: m.symbolOf e).flatten =
        (es.map m.symbolOf).flatMap (' ' :: ·) := by
      rw [List.flatMap_def, List.map_map]
      rfl
    rw [e1]
    show c ++ [',', ' '] ++ ("ATOM=".toList ++ m.symbolOf e) ++ _ ++ ['\n'] =
      c ++ ", ATOM=".toList ++ (m.symbolOf e ++ (es.map m.symbolOf).flatMap (' ' :: ·)) ++ ['\n']
    rw [show ", ATOM=".toList = [',', ' '] ++ "ATOM=".toList from rfl]
    simp only [List.append_assoc]

/-- Numbers of atoms. -/
def elementCounts (s : Structure) (order : List ℕ) : List ℕ :=
  order.map fun e => s.atoms.countP fun a => a.element = e

theorem poscarCounts_eq (ho : Ordered m args order) (hne : args ≠ []) (s : Structure)
    (hc : s.numAtomsPerElement =
      (List.range m.size).map fun e => s.atoms.countP (fun a => a.element = e))
    (hl : s.atoms.length < 2 ^ 31) :
    poscarCounts s order = some (joinWords ((elementCounts s order).map natText) ++ ['\n']) := by
  have hlen : order.length = m.size := by
    rw [ho.size, ← ho.args, List.length_map]
  have hcount : ∀ i (h : i < order.length), poscarCount s order i =
      some (natText (s.atoms.countP fun a => a.element = order[i])) := by
    intro i h
    have h1 : order[i] < m.size := ho.lt _ (List.getElem_mem h)
    unfold poscarCount
    rw [List.getElem?_eq_getElem h]
    show (s.numAtomsPerElement[order[i]]?).bind _ = _
    rw [hc, List.getElem?_map, List.getElem?_range h1]
    show intField _ = _
    unfold intField
    rw [if_pos (lt_of_le_of_lt List.countP_le_length hl)]
  have hpos : 0 < order.length := by
    rw [hlen, ho.size]
    exact List.length_pos_of_ne_nil hne
  unfold poscarCounts
  rw [hcount 0 hpos]
  have h2 : (List.range (s.numAtomsPerElement.length - 1)).mapM (fun i =>
      (poscarCount s order (i + 1)).map (' ' :: ·)) =
      some ((List.range (s.numAtomsPerElement.length - 1)).map fun i => ' ' :: natText
        (s.atoms.countP fun a => a.element = order.getD (i + 1) 0)) := by
    refine mapM_eq_map fun i hi => ?_
    rw [List.mem_range, hc, List.length_map, List.length_range, ← hlen] at hi
    rw [hcount (i + 1) (by omega), List.getD_eq_getElem _ _ (by omega : i + 1 < order.length)]
    rfl
  rw [h2]
  show some _ = some _
  congr 1
  rw [hc, List.length_map, List.length_range, ← hlen]
  cases order with
  | nil => exact absurd hpos (by simp)
  | cons e es =>
    unfold elementCounts joinWords
    simp only [List.map_cons, List.length_cons, Nat.add_sub_cancel, List.getElem_cons_zero,
      List.getD_cons_succ]
    congr 2
    rw [List.flatMap_def, List.map_map, List.map_map]
    congr 1
    apply List.ext_getElem
    · simp
    · intro i h3 h4
      simp only [List.length_map, List.length_range] at h3
      simp [List.getElem?_eq_getElem h3]

/-- The lines of the positions. -/
def posLines (N : NumberText) (s : Structure) (order : List ℕ) : List Str :=
  order.flatMap fun e => (s.atoms.filter fun a => a.element = e).map fun a => threeBody N a.r

theorem poscarAtoms_eq (hN : N.Sane) (s : Structure) (order : List ℕ) :
    poscarAtoms N s order = some ((posLines N s order).flatMap (· ++ ['\n'])) := by
  have h : order.mapM (fun e => (s.atoms.filter fun a => a.element = e).mapM fun a =>
      threeFields N a.r ['\n']) = some (order.map fun e =>
        (s.atoms.filter fun a => a.element = e).map fun a => threeBody N a.r ++ ['\n']) :=
    mapM_eq_map fun e _ => mapM_eq_map fun a _ => threeFields_eq hN _ _ (by decide)
  unfold poscarAtoms
  rw [h]
  show some _ = some _
  congr 1
  unfold posLines
  induction order with
  | nil => rfl
  | cons e es ih =>
    rw [List.flatMap_cons, List.flatMap_append, ← ih (mapM_eq_map fun e _ => mapM_eq_map fun a _ =>
      threeFields_eq hN _ _ (by decide)), ← flatten_lines, List.map_cons, List.flatten_cons,
      List.flatten_append]

def boxLines (N : NumberText) (s : Structure) : List Str :=
  if s.isPeriodic then [threeBody N (s.box 0), threeBody N (s.box 1), threeBody N (s.box 2)] else []

theorem poscarBox_eq (hN : N.Sane) (s : Structure) :
    poscarBox N s = some ((boxLines N s).flatMap (· ++ ['\n'])) := by
  unfold poscarBox boxLines
  by_cases h : s.isPeriodic = true
  · rw [if_pos h, if_pos h, threeFields_eq hN _ _ (by decide), threeFields_eq hN _ _ (by decide),
      threeFields_eq hN _ _ (by decide)]
    show some _ = some _
    congr 1
    simp
  · rw [if_neg h, if_neg h]
    rfl

/-- All lines. -/
def poscarLines (N : NumberText) (s : Structure) (args : List Str) (order : List ℕ) : List Str :=
  (s.comment ++ ", ATOM=".toList ++ joinWords args) :: "1.0".toList :: (boxLines N s ++
    joinWords ((elementCounts s order).map natText) :: "Cartesian".toList :: posLines N s order)

theorem writeToFilePoscar_eq (hN : N.Sane) (ho : Ordered m args order) (hg : GoodElements args)
    (s : Structure) (hcom : Commentary s.comment)
    (hc : s.numAtomsPerElement =
      (List.range m.size).map fun e => s.atoms.countP (fun a => a.element = e))
    (hl : s.atoms.length < 2 ^ 31) :
    s.writeToFilePoscar N m (joinWords args) =
      some ((poscarLines N s args order).flatMap (· ++ ['\n'])) := by
  unfold Structure.writeToFilePoscar
  rw [split_joinWords fun w hw => known_word (hg.2.2 w hw), ho.index]
  show (poscarTitle m s.comment order).bind (fun t => (poscarBox N s).bind fun b =>
    (poscarCounts s order).bind fun c => (poscarAtoms N s order).bind fun as =>
      some (t ++ "1.0\n".toList ++ b ++ c ++ "Cartesian\n".toList ++ as)) = _
  rw [poscarTitle_eq ho hg.1 hcom, poscarBox_eq hN, poscarCounts_eq ho hg.1 s hc hl, poscarAtoms_eq hN]
  show some _ = some _
  congr 1
  unfold poscarLines
  rw [show "1.0\n".toList = "1.0".toList ++ ['\n'] from rfl,
    show "Cartesian\n".toList = "Cartesian".toList ++ ['\n'] from rfl]
  simp only [List.flatMap_cons, List.flatMap_append, List.append_assoc]

theorem no_newline_join {ws : List Str} (h : ∀ w ∈ ws, '\n' ∉ w) : '\n' ∉ joinWords ws := by
  cases ws with
  | nil => exact List.not_mem_nil
  | cons w ws =>
    unfold joinWords
    rw [List.mem_append, List.mem_flatMap]
    rintro (h' | ⟨v, hv, h'⟩)
    · exact h w (by simp) h'
    · rcases List.mem_cons.1 h' with h' | h'
      · exact absurd h' (by decide)
      · exact h v (by simp [hv]) h'

theorem no_newline_poscar (hN : N.Sane) (hg : GoodElements args) (s : Structure)
    (hcom : Commentary s.comment) : ∀ l ∈ poscarLines N s args order, '\n' ∉ l := by
  intro l hl
  unfold poscarLines at hl
  rw [List.mem_cons, List.mem_cons, List.mem_append, List.mem_cons, List.mem_cons] at hl
  rcases hl with rfl | rfl | hl | rfl | rfl | hl
  · rw [List.mem_append, List.mem_append]
    rintro ((h | h) | h)
    · exact hcom.1 h
    · exact absurd h (by decide)
    · exact no_newline_join (fun w hw => (known_sane w (hg.2.2 w hw)).2.2.1) h
  · decide
  · unfold boxLines at hl
    by_cases h : s.isPeriodic = true
    · rw [if_pos h] at hl
      simp only [List.mem_cons, List.not_mem_nil, or_false] at hl
      rcases hl with rfl | rfl | rfl <;> exact no_newline_three hN _
    · rw [if_neg h] at hl
      exact absurd hl List.not_mem_nil
  · refine no_newline_join fun w hw => ?_
    obtain ⟨n, -, rfl⟩ := List.mem_map.1 hw
    exact natText_newline n
  · decide
  · unfold posLines at hl
    obtain ⟨e, -, hl⟩ := List.mem_flatMap.1 hl
    obtain ⟨a, -, rfl⟩ := List.mem_map.1 hl
    exact no_newline_three hN _

theorem zip_groups (s : Structure) (sym : ℕ → Str) (vec : Atom → Vec3) : ∀ order : List ℕ,
    List.zip ((List.zip (order.map sym) (elementCounts s order)).flatMap fun p => List.replicate p.2 p.1)
      (order.flatMap fun e => (s.atoms.filter fun a => a.element = e).map vec) =
    order.flatMap fun e => (s.atoms.filter fun a => a.element = e).map fun a => (sym e, vec a)
  | [] => rfl
  | e :: es => by
    show List.zip (List.replicate (s.atoms.countP fun a => a.element = e) (sym e) ++
      (List.zip (es.map sym) (elementCounts s es)).flatMap fun p => List.replicate p.2 p.1) _ = _
    rw [List.flatMap_cons, List.zip_append, zip_groups s sym vec es, List.flatMap_cons]
    · congr 1
      rw [List.countP_eq_length_filter]
      generalize s.atoms.filter (fun a => decide (a.element = e)) = l
      induction l with
      | nil => rfl
      | cons a l ih => simp only [List.length_cons, List.replicate_succ, List.map_cons,
          List.zip_cons_cons, ih]
    · rw [List.length_replicate, List.length_map, List.countP_eq_length_filter]

theorem grouped_atoms (ho : Ordered m args order) (s : Structure)
    (he : ∀ a ∈ s.atoms, a.element < m.size) :
    ((s.frame N m).grouped args).atoms = order.flatMap fun e =>
      (s.atoms.filter fun a => a.element = e).map fun a => (m.symbolOf e, N.roundedVec a.r) := by
  show (args.flatMap fun w => ((s.atoms.map fun a => (m.symbolOf a.element, N.roundedVec a.r)).filter
    fun a => a.1 = w)) = _
  rw [← ho.args, List.flatMap_map]
  refine List.flatMap_congr fun e heo => ?_
  rw [List.filter_map]
  have hiff : ∀ a ∈ s.atoms, (m.symbolOf a.element = m.symbolOf e ↔ a.element = e) := by
    intro a ha
    refine ⟨fun h => ?_, fun h => by rw [h]⟩
    have h1 := (symbolOf_known ho.sane (he a ha)).2.2
    have h2 := (symbolOf_known ho.sane (ho.lt e heo)).2.2
    rw [h, h2] at h1
    exact (Except.ok.inj h1).symm
  rw [List.filter_congr (q := fun a => decide (a.element = e)) ?_]
  · apply List.map_congr_left
    intro a ha
    rw [(of_decide_eq_true (List.mem_filter.1 ha).2 : a.element = e)]
  · intro a ha
    exact decide_eq_decide.2 (hiff a ha)

theorem grouped_perm {α β : Type} [DecidableEq β] (key : α → β) : ∀ (ks : List β) (l : List α),
    ks.Nodup → (∀ x ∈ l, key x ∈ ks) → (ks.flatMap fun w => l.filter fun a => key a = w).Perm l := by
  intro ks
  induction ks with
  | nil =>
    intro l _ h
    cases l with
    | nil => exact .nil
    | cons x l => exact absurd (h x (by simp)) List.not_mem_nil
  | cons k ks ih =>
    intro l hd h
    rw [List.flatMap_cons]
    have hk := (List.nodup_cons.1 hd).1
    have h1 := ih (l.filter fun a => !decide (key a = k)) (List.nodup_cons.1 hd).2 (by
      intro x hx
      obtain ⟨h2, h3⟩ := List.mem_filter.1 hx
      rcases List.mem_cons.1 (h x h2) with h4 | h4
      · rw [h4] at h3
        simp at h3
      · exact h4)
    have h2 : (ks.flatMap fun w => (l.filter fun a => !decide (key a = k)).filter
        fun a => key a = w) = ks.flatMap fun w => l.filter fun a => key a = w := by
      refine List.flatMap_congr fun w hw => ?_
      rw [List.filter_filter]
      apply List.filter_congr
      intro x _
      by_cases hx : key x = w
      · have : key x ≠ k := fun e => hk (by rw [← e, hx]; exact hw)
        simp [hx, hx ▸ this]
      · simp [hx]
    rw [h2] at h1
    exact (List.Perm.append_left _ h1).trans (List.filter_append_perm _ l)

end N2P2
