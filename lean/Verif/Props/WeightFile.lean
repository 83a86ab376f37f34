import Verif.Lemma.WeightFile
import Verif.Props.StructureFile
import Verif.Props.NeuralNetwork
import Mathlib.Logic.Encodable.Basic
import Mathlib.Algebra.Order.Archimedean.Basic

/-! Property C87: network parameters and hardness in files. -/

namespace N2P2

open NeuralNetwork NetShape

/-! ### Examples -/

theorem exText_data : exText.Data := by
  refine ⟨exText_sane, fun x => ?_⟩
  have h9 : ∀ n : Fin 10, Char.ofNat (48 + n) ≠ '#' := by decide
  have := h9 ⟨min 9 ⌊x⌋₊, by omega⟩
  simpa [exText] using this

/-- Elements with one network each. -/
noncomputable def exNetElement (z : ℕ) (s : String) (id : String) (c : Buf) : NetElement :=
  { atomicNumber := z
    symbol := s.toList
    hardness := 12345678 / 10000000
    neuralNetworks := [(id.toList, (exampleNet.setConnections c))] }
where
  exampleNet : NeuralNetwork :=
    (create exampleShape.numLayers exampleShape.n exampleShape.af).get rfl

theorem exNetElement.reachable (c : Buf) :
    Reachable exampleShape.numLayers exampleShape.n exampleShape.af
      (exNetElement.exampleNet.setConnections c) :=
  .setConnections c (.create (Option.some_get rfl).symm)

theorem exNetElement.hasNet (z : ℕ) (s : String) (c : Buf) :
    (exNetElement z s "short" c).HasNet "short".toList
      exampleShape.numLayers exampleShape.n exampleShape.af :=
  ⟨_, by simp [exNetElement, CMap.find?], exNetElement.reachable c⟩

theorem exampleShape_intSized : IntSized exampleShape.numLayers exampleShape.n := by
  refine ⟨by decide, fun l _ => ?_, by decide, by decide⟩
  simp only [exampleShape]
  split_ifs <;> norm_num

theorem exMatching (c d : Buf) :
    Matching ["short".toList] [exNetElement 1 "H" "short" c, exNetElement 8 "O" "short" d]
      [exNetElement 1 "H" "short" 0, exNetElement 8 "O" "short" 0] where
  known e he := by
    simp only [List.mem_cons, List.not_mem_nil, or_false] at he
    rcases he with rfl | rfl
    · show atomicNumber "H".toList = .ok 1
      decide +kernel
    · show atomicNumber "O".toList = .ok 8
      decide +kernel
  distinct := by
    show ["H".toList, "O".toList].Nodup
    decide
  counterpart id hid := by
    obtain rfl := List.mem_singleton.1 hid
    refine .cons ⟨rfl, rfl, _, _, _, exampleShape_intSized, exNetElement.hasNet _ _ _,
      exNetElement.hasNet _ _ _⟩ (.cons ⟨rfl, rfl, _, _, _, exampleShape_intSized,
      exNetElement.hasNet _ _ _, exNetElement.hasNet _ _ _⟩ .nil)

/-- Standard names. -/
def exNameFormat (s : String) : NameFormat := ⟨s.toList, ".data".toList⟩

/-! ### Weights -/

/-- C87: what training writes for network `id` is what the next program reads: for every element the
network gets the parameters which were written, up to the precision of the numbers, each at its
place. Other networks, other files and the hardness stay as they are. -/
theorem C87_weights (N : NumberText) (hN : N.Data) (nan : ℝ) (id : Str) (f : NameFormat)
    (hf : f.Short) (els els' : List NetElement) (h : Matching [id] els els') (fs : Files) :
    ∃ fs', writeWeights N els id f fs = some fs' ∧
      (∀ name, (∀ e ∈ els, f.name e.atomicNumber ≠ some name) → fs' name = fs name) ∧
      ∃ els'', readNeuralNetworkWeights N nan fs' id f els' = .ok els'' ∧
        LoadedAll N [id] els els' els'' := by
  have hc := h.counterpart id (by simp)
  have hnet : ∀ {a b : List NetElement}, List.Forall₂ (Counterpart id) a b →
      ∀ e ∈ a, ∃ L n af, IntSized L n ∧ e.HasNet id L n af := by
    intro a b hab
    induction hab with
    | nil => intro e he; cases he
    | cons h1 _ ih =>
      intro e he
      rcases List.mem_cons.1 he with rfl | he
      · obtain ⟨-, -, L, n, af, hL, hn, -⟩ := h1
        exact ⟨L, n, af, hL, hn⟩
      · exact ih e he
  obtain ⟨fs', hw, hh, ho⟩ := writeWeights_files hN hf els h.known h.distinct (hnet hc) fs
  obtain ⟨els'', hr, hl⟩ := readAll_restored hN nan hf h.known hc hh
  exact ⟨fs', hw, ho, els'', hr, hl⟩

/-- Hydrogen and oxygen with parameters 3 and 5; the second program starts with zeros. -/
example : ∃ fs' els'' e b, writeWeights exText [exNetElement 1 "H" "short" fun _ => 3,
      exNetElement 8 "O" "short" fun _ => 5] "short".toList (exNameFormat "weights.") (fun _ => none)
        = some fs' ∧
    readNeuralNetworkWeights exText 0 fs' "short".toList (exNameFormat "weights.")
      [exNetElement 1 "H" "short" 0, exNetElement 8 "O" "short" 0] = .ok els'' ∧
    els''[1]? = some e ∧ e.neuralNetworks.find? "short".toList = some b ∧
    (Param.weight 0 1 2).read b = 5 := by
  obtain ⟨fs', hw, -, els'', hr, hl⟩ := C87_weights exText exText_data 0 "short".toList
    (exNameFormat "weights.") (by show _ ≤ _; decide) _ _ (exMatching (fun _ => 3) fun _ => 5)
    fun _ => none
  obtain ⟨x, y, rfl⟩ : ∃ x y, els'' = [x, y] := by
    cases els'' with
    | nil => exact hl.elim
    | cons x t => cases t with
      | nil => exact hl.2.elim
      | cons y t => cases t with
        | nil => exact ⟨x, y, rfl⟩
        | cons => exact hl.2.2.elim
  obtain ⟨a, b, ha, hb, hrs⟩ := hl.2.1.net "short".toList (by simp)
  refine ⟨fs', _, y, b, hw, hr, rfl, hb, ?_⟩
  have ha' : a = exNetElement.exampleNet.setConnections fun _ => 5 := by
    simpa [exNetElement, CMap.find?] using ha.symm
  subst ha'
  have hv : (Param.weight 0 1 2).Valid exampleShape.numLayers exampleShape.n := by
    refine ⟨by decide, by decide, by decide⟩
  rw [(hrs _ _ _ (exNetElement.reachable _)).2 _ hv]
  have h0 : Reachable exampleShape.numLayers exampleShape.n exampleShape.af
    exNetElement.exampleNet := .create (Option.some_get rfl).symm
  rw [(C17_positions _ _ _ _ h0).1 _ _ hv]
  have := exText_rounded 5 (by norm_num)
  exact_mod_cast this

/-- C87: if the networks `ids` were written one after the other to files of different names, the setup
of the next program finds all of them. `formats` are names given explicitly, `defaults` the standard
names, all relative to `dir`. -/
theorem C87_setup (N : NumberText) (hN : N.Data) (nan : ℝ) (ids : List Str) (hids : ids.Nodup)
    (format : Str → NameFormat) (hf : ∀ k ∈ ids, (format k).Short) (hclash : NoClash ids format)
    (dir : Str) (defaults formats : CMap Str NameFormat)
    (hfind : ∀ k ∈ ids, ∃ f, ((formats.find? k).or (defaults.find? k)) = some f ∧
      f.inside dir = format k)
    (els els' : List NetElement) (hlen : els.length = els'.length) (h : Matching ids els els')
    (fs : Files) :
    ∃ fs', ids.foldlM (fun fs k => writeWeights N els k (format k) fs) fs = some fs' ∧
      ∃ els'', setupNeuralNetworkWeights N nan fs' ids defaults formats dir els' = .ok els'' ∧
        LoadedAll N ids els els' els'' := by
  have hnet : ∀ id, ∀ {a b : List NetElement}, List.Forall₂ (Counterpart id) a b →
      ∀ e ∈ a, ∃ L n af, IntSized L n ∧ e.HasNet id L n af := by
    intro id a b hab
    induction hab with
    | nil => intro e he; cases he
    | cons h1 _ ih =>
      intro e he
      rcases List.mem_cons.1 he with rfl | he
      · obtain ⟨-, -, L, n, af, hL, hn, -⟩ := h1
        exact ⟨L, n, af, hL, hn⟩
      · exact ih e he
  have hwrite : ∀ ks : List Str, ks.Nodup → (∀ k ∈ ks, k ∈ ids) → ∀ fs : Files,
      ∃ fs', ks.foldlM (fun fs k => writeWeights N els k (format k) fs) fs = some fs' ∧
        (∀ k ∈ ks, FilesHold N k (format k) els fs') ∧
        ∀ name, (∀ k ∈ ks, ∀ e ∈ els, (format k).name e.atomicNumber ≠ some name) →
          fs' name = fs name := by
    intro ks
    induction ks with
    | nil => intro _ _ fs; exact ⟨fs, rfl, fun k hk => absurd hk (by simp), fun _ _ => rfl⟩
    | cons k ks ih =>
      intro hd hsub fs
      rw [List.nodup_cons] at hd
      have hk := hsub k (by simp)
      obtain ⟨fs1, hw, hh, ho⟩ := writeWeights_files hN (hf k hk) els h.known h.distinct
        (hnet k (h.counterpart k hk)) fs
      obtain ⟨fs2, hw2, hh2, ho2⟩ := ih hd.2 (fun x hx => hsub x (by simp [hx])) fs1
      refine ⟨fs2, ?_, ?_, ?_⟩
      · rw [List.foldlM_cons, hw]
        exact hw2
      · intro x hx
        rcases List.mem_cons.1 hx with rfl | hx
        · intro e he
          obtain ⟨name, nn, text, h1, h2, h3, h4⟩ := hh e he
          refine ⟨name, nn, text, h1, h2, h3, ?_⟩
          rw [ho2 name, h4]
          intro y hy e' _
          exact hclash x hk y (hsub y (by simp [hy])) (by rintro rfl; exact hd.1 hy) _ _ _ h1
        · exact hh2 x hx
      · intro name hname
        rw [ho2 name fun x hx => hname x (by simp [hx]), ho name (hname k (by simp))]
  obtain ⟨fs', hw, hh, -⟩ := hwrite ids hids (fun _ h => h) fs
  have hempty : ∀ {es cs : List NetElement}, es.length = cs.length → LoadedAll N [] es cs cs := by
    intro es
    induction es with
    | nil => intro cs h; cases cs with
      | nil => trivial
      | cons => cases h
    | cons e es ih => intro cs h; cases cs with
      | nil => cases h
      | cons c cs =>
        exact ⟨⟨rfl, rfl, rfl, (fun id h => absurd h (by simp)), fun _ _ => rfl⟩, ih (Nat.succ.inj h)⟩
  obtain ⟨els'', hr, hl⟩ := setup_restored hN nan h.known hids hf hfind h.counterpart hh
    fun _ => hempty hlen
  exact ⟨fs', hw, els'', hr, hl⟩

/-- C87: the standard names of the two networks of a fourth-generation potential, in any directory,
do not clash. -/
theorem C87_names (dir : Str) :
    NoClash ["elec".toList, "short".toList] fun k =>
      if k = "elec".toList then (exNameFormat "weightse.").inside dir
      else (exNameFormat "weights.").inside dir := by
  have key : ∀ z z' t, ((exNameFormat "weightse.").inside dir).name z = some t →
      ((exNameFormat "weights.").inside dir).name z' = some t → False := by
    intro z z' t h h'
    unfold NameFormat.name strpr at h h'
    split_ifs at h h'
    have e := (Option.some.inj h).trans (Option.some.inj h').symm
    simp [NameFormat.inside, exNameFormat] at e
  have hne : "short".toList ≠ "elec".toList := by decide
  intro k hk k' hk' hkk z z' t h
  simp only [List.mem_cons, List.not_mem_nil, or_false] at hk hk'
  rcases hk with rfl | rfl <;> rcases hk' with rfl | rfl
  · exact absurd rfl hkk
  · beta_reduce at h ⊢
    rw [if_pos rfl] at h
    rw [if_neg hne]
    exact fun h' => key _ _ _ h h'
  · beta_reduce at h ⊢
    rw [if_neg hne] at h
    rw [if_pos rfl]
    exact fun h' => key _ _ _ h' h
  · exact absurd rfl hkk

/-- Oxygen with two networks. -/
noncomputable def exTwoNets (c d : Buf) : NetElement :=
  { atomicNumber := 8
    symbol := "O".toList
    hardness := 1
    neuralNetworks := [("elec".toList, exNetElement.exampleNet.setConnections c),
      ("short".toList, exNetElement.exampleNet.setConnections d)] }

theorem exTwoNets.hasNet (c d : Buf) (id : Str) (hid : id ∈ ["elec".toList, "short".toList]) :
    (exTwoNets c d).HasNet id exampleShape.numLayers exampleShape.n exampleShape.af := by
  simp only [List.mem_cons, List.not_mem_nil, or_false] at hid
  rcases hid with rfl | rfl
  · exact ⟨_, by simp [exTwoNets, CMap.find?], exNetElement.reachable c⟩
  · exact ⟨_, by simp [exTwoNets, CMap.find?], exNetElement.reachable d⟩

/-- The hypotheses of `C87_setup` hold for the two networks of a fourth-generation potential. -/
example (c d : Buf) : Matching ["elec".toList, "short".toList] [exTwoNets c d] [exTwoNets 0 0] where
  known e he := by
    obtain rfl := List.mem_singleton.1 he
    show atomicNumber "O".toList = .ok 8
    decide +kernel
  distinct := by simp
  counterpart id hid := .cons ⟨rfl, rfl, _, _, _, exampleShape_intSized, exTwoNets.hasNet c d id hid,
    exTwoNets.hasNet 0 0 id hid⟩ .nil

/-- C87, defect: the number of values in a weight file is not compared with the number of parameters.
With too few values the code reads behind the end of the array; with too many it goes on silently.
It never reports an error. -/
theorem C87_number_not_checked (N : NumberText) (nan : ℝ) (id : Str) (f : NameFormat) (hf : f.Short)
    (fs : Files) (e : NetElement) (hk : e.Known) (name text : Str)
    (hname : f.name e.atomicNumber = some name) (htext : fs name = some text) (L : ℕ) (n : ℕ → ℕ)
    (af : ℕ → Activation) (hL : IntSized L n) (hnet : e.HasNet id L n af) :
    ((dataLines text).length < offset n (L - 1) →
      readWeights N nan fs id f e = .error .undefined) ∧
    (offset n (L - 1) ≤ (dataLines text).length →
      ∃ e', readWeights N nan fs id f e = .ok e') := by
  obtain ⟨nn, hnn, hr⟩ := hnet
  rw [readWeights_any hf hk hname htext hnn]
  unfold setConnectionsFrom
  rw [values_length, hr.hasShape.numConn]
  refine ⟨fun h => ?_, fun h => ?_⟩
  · rw [if_pos (Or.inr h)]
    rfl
  · rw [if_neg]
    · exact ⟨_, rfl⟩
    · rintro (h0 | h0)
      · have := values_length N nan text
        rw [h0, List.length_nil] at this
        have := hL.2.2.2
        omega
      · omega

/-- An empty file for a network with 13 parameters. -/
example : readWeights exText 0 (fun _ => some []) "short".toList (exNameFormat "weights.")
    (exNetElement 8 "O" "short" 0) = .error .undefined := by
  obtain ⟨name, hname, -⟩ := NameFormat.name_some (f := exNameFormat "weights.") (z := 8)
    (by show _ ≤ _; decide) (by norm_num)
  have hk : (exNetElement 8 "O" "short" 0).Known := (exMatching 0 0).known _ (by simp)
  have hL : 0 < offset exampleShape.n (exampleShape.numLayers - 1) := exampleShape_intSized.2.2.2
  refine (C87_number_not_checked exText 0 "short".toList (exNameFormat "weights.")
    (by show _ ≤ _; decide) (fun _ => some []) (exNetElement 8 "O" "short" 0) hk name [] hname rfl
    exampleShape.numLayers exampleShape.n exampleShape.af exampleShape_intSized
    (exNetElement.hasNet 8 "O" 0)).1 ?_
  have : (dataLines []).length = 0 := by decide
  rw [this]
  exact hL

/-! ### Header -/

/-- C87: the lines `createFileHeader` returns are comment lines, so that no header line is taken for
data, whatever the titles, names and descriptions are. -/
theorem C87_header (title : List Str) (colSize : List ℕ) (colName colInfo : List Str) (c : Char)
    (hc : c ≠ '\n') (ht : ∀ s ∈ title, '\n' ∉ s) (hn : ∀ s ∈ colName, '\n' ∉ s)
    (hi : ∀ s ∈ colInfo, '\n' ∉ s) (hw : ∃ k ∈ colSize, 0 < k) :
    (colSize.length = colName.length ∧ colName.length = colInfo.length ↔
      ∃ h, createFileHeader title colSize colName colInfo c = some h) ∧
    ∀ h, createFileHeader title colSize colName colInfo c = some h →
      ∀ l ∈ h, IsCommentLine c l := by
  refine ⟨⟨fun h => ?_, fun h => ?_⟩, fun h hh => header_comment hc ht hn hi hw hh⟩
  · unfold createFileHeader
    rw [if_neg (not_not.2 h), if_neg]
    · exact ⟨_, rfl⟩
    · rintro rfl
      obtain ⟨k, hk, -⟩ := hw
      cases hk
  · obtain ⟨h, hh⟩ := h
    unfold createFileHeader at hh
    by_contra hne
    rw [if_pos hne] at hh
    cases hh

example : ∃ h, connectionHeader = some h ∧ h.length = 16 := ⟨_, rfl, by decide⟩

/-! ### Hardness -/

/-- C87, hardness: written in physical units with the default precision and read back, the hardness of
every element is the same up to a relative error of 5e-6 (six significant digits). Missing for the
full claim: the precision of the other numbers in files, see `C87_hardness_changed`. -/
theorem C87_hardness_partial (N : NumberText) (shown : ℝ → Str) (hS : ShownShort N shown) (nan : ℝ)
    (u : ModeUnits) (hu : u.Usable) (normalize : Bool) (f : NameFormat) (hf : f.Short)
    (els : List NetElement) (hk : ∀ e ∈ els, e.Known)
    (hd : (els.map NetElement.symbol).Nodup) (fs : Files) :
    ∃ fs', writeHardness shown u normalize els f fs = some fs' ∧
      ∀ e ∈ els, ∀ e', e'.symbol = e.symbol → e'.atomicNumber = e.atomicNumber →
        ∃ h, readHardness N nan fs' u normalize f e' = .ok { e' with hardness := h } ∧
          |h - e.hardness| ≤ 5 / 1000000 * |e.hardness| := by
  obtain ⟨fs', hw, hh, -⟩ := writeHardness_files (shown := shown) (u := u)
    (normalize := normalize) hf els hk hd fs
  refine ⟨fs', hw, fun e he e' hs hz => ?_⟩
  obtain ⟨name, hname, hfs⟩ := hh e he
  have hk' : e'.Known := by
    have := hk e he
    unfold NetElement.Known at this ⊢
    rw [hs, hz, this]
  refine ⟨_, readHardness_ok hS nan hf hk' (hz ▸ hname) hfs, ?_⟩
  have herr := (hS (u.shownHardness normalize e.hardness)).2.2.2.error
  obtain ⟨h1, h2⟩ := hu
  cases normalize with
  | false => exact herr
  | true =>
    simp only [ModeUnits.shownHardness, ModeUnits.readHardness, if_true] at herr ⊢
    set y := N.atof (shown (e.hardness / (u.convEnergy / u.convCharge ^ 2))) with hy
    have hc : u.convEnergy / u.convCharge ^ 2 ≠ 0 := by positivity
    have e1 : y * u.convEnergy / u.convCharge ^ 2 - e.hardness =
        (y - e.hardness / (u.convEnergy / u.convCharge ^ 2)) *
          (u.convEnergy / u.convCharge ^ 2) := by
      field_simp
    have e2 : |e.hardness| = |e.hardness / (u.convEnergy / u.convCharge ^ 2)| *
        |u.convEnergy / u.convCharge ^ 2| := by
      rw [← abs_mul, div_mul_cancel₀ _ hc]
    rw [e1, abs_mul, e2, ← mul_assoc]
    exact mul_le_mul_of_nonneg_right herr (abs_nonneg _)

/-- C87, defect: a hardness is not restored; here 1.2345678 without normalisation. -/
theorem C87_hardness_changed (N : NumberText) (shown : ℝ → Str) (hS : ShownShort N shown) (nan : ℝ)
    (u : ModeUnits) (f : NameFormat) (hf : f.Short) (fs : Files) :
    ∃ e : NetElement, e.Known ∧ ∃ fs', writeHardness shown u false [e] f fs = some fs' ∧
      ∃ e', readHardness N nan fs' u false f e = .ok e' ∧ e'.hardness ≠ e.hardness := by
  have hk : (exNetElement 8 "O" "short" 0).Known := (exMatching 0 0).known _ (by simp)
  obtain ⟨fs', hw, hh, -⟩ := writeHardness_files (shown := shown) (u := u)
    (normalize := false) hf [exNetElement 8 "O" "short" 0]
    (fun e he => by rw [List.mem_singleton.1 he]; exact hk) (by simp) fs
  obtain ⟨name, hname, hfs⟩ := hh _ (List.mem_singleton.2 rfl)
  refine ⟨_, hk, fs', hw, _, readHardness_ok hS nan hf hk hname hfs, ?_⟩
  exact (hS (12345678 / 10000000)).2.2.2.ne

/-- Every number has a text of this kind. -/
theorem exists_shownShort : ∃ N shown, ShownShort N shown := by
  have hsix : ∀ x : ℝ, ∃ p : ℤ × ℤ, SixDigits x (p.1 * (10 : ℝ) ^ (p.2 - 5)) := by
    intro x
    by_cases hx : x = 0
    · exact ⟨(0, 0), Or.inl ⟨hx, by simp⟩⟩
    · obtain ⟨e, h1, h2⟩ := exists_mem_Ico_zpow (x := |x|) (y := (10 : ℝ)) (abs_pos.2 hx)
        (by norm_num)
      have hp : (0 : ℝ) < 10 ^ (e - 5) := zpow_pos (by norm_num) _
      refine ⟨(round (x / 10 ^ (e - 5)), e), Or.inr ⟨e, h1, h2, _, rfl, fun m' => ?_⟩⟩
      have key : ∀ m : ℤ, |x - m * (10 : ℝ) ^ (e - 5)| = |x / 10 ^ (e - 5) - m| * 10 ^ (e - 5) := by
        intro m
        have : x - m * (10 : ℝ) ^ (e - 5) = (x / 10 ^ (e - 5) - m) * 10 ^ (e - 5) := by
          field_simp
        rw [this, abs_mul, abs_of_pos hp]
      simp only [key]
      exact mul_le_mul_of_nonneg_right (round_le _ _) hp.le
  choose p hp using hsix
  refine ⟨{ print := fun _ => []
            atof := fun s =>
              match (Encodable.decode (Nat.ofDigitChars 10 s 0) : Option (ℤ × ℤ)) with
              | some q => q.1 * (10 : ℝ) ^ (q.2 - 5)
              | none => 0 }, fun x => natText (Encodable.encode (p x)), fun x => ?_⟩
  refine ⟨natText_word _, natText_newline _, ?_, ?_⟩
  · intro h
    have := natText_digit (List.mem_of_mem_head? h)
    simp [Char.isDigit] at this
  · simp only [natText, Nat.ofDigitChars_ten_toDigits, Encodable.encodek]
    exact hp x

example : ∃ N shown, ShownShort N shown ∧ ModeUnits.Usable ⟨0, 2, 3, 5⟩ ∧
    (exNetElement 8 "O" "short" 0).Known := by
  obtain ⟨N, shown, h⟩ := exists_shownShort
  exact ⟨N, shown, h, ⟨by norm_num, by norm_num⟩, (exMatching 0 0).known _ (by simp)⟩

end N2P2
