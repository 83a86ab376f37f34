import Verif.Model.CabanaWeights
import Verif.Lemma.CabanaNet
import Verif.Lemma.ScalingFile

/-! Lemmas on the weight files as read by the CabanaMD interface. -/

namespace N2P2

open NeuralNetwork NetShape

/-- The entry of the views for a parameter. -/
def CabanaNet.entry (net : CabanaNet) (e : ℕ) : Param → ℝ
  | .weight l j i => net.weights e l i j
  | .bias l i => net.bias e l i

/-- Sizes of the views. -/
def CabanaNet.SameSize (a b : CabanaNet) : Prop :=
  a.numLayers = b.numLayers ∧ a.neurons = b.neurons ∧ a.AF = b.AF ∧ a.maxNeurons = b.maxNeurons

theorem CabanaNet.SameSize.refl (a : CabanaNet) : a.SameSize a := ⟨rfl, rfl, rfl, rfl⟩

theorem CabanaNet.SameSize.trans {a b c : CabanaNet} (h : a.SameSize b) (h' : b.SameSize c) :
    a.SameSize c :=
  ⟨h.1.trans h'.1, h.2.1.trans h'.2.1, h.2.2.1.trans h'.2.2.1, h.2.2.2.trans h'.2.2.2⟩

theorem connectionBody_words {N : NumberText} (hN : N.Data) (x : ℝ) {type : Char}
    (ht : isBlank type = false) (count : ℕ) (indices : List ℕ) :
    split (reduce (connectionBody N x type count indices)) =
      N.print x :: [type] :: natText count :: indices.map natText := by
  unfold connectionBody
  rw [words_padded _ _ (hN.1 x).1]
  · simp [List.map_map, Function.comp_def]
  · intro f hf
    rcases List.mem_cons.1 hf with rfl | hf
    · exact ⟨by simp, fun c hc => by rw [List.mem_singleton.1 hc]; exact ht⟩
    · rcases List.mem_cons.1 hf with rfl | hf
      · exact natText_word _
      · obtain ⟨i, -, rfl⟩ := List.mem_map.1 hf
        exact natText_word _

/-- One line written for parameter `p`. -/
theorem cabanaWeightLine_body {N : NumberText} (hN : N.Data) {L : ℕ} {n : ℕ → ℕ} {p : Param}
    (hp : p.Valid L n) {net : CabanaNet} (hL : L ≤ net.numLayers)
    (hn : ∀ l < L, n l ≤ net.maxNeurons) (k : ℕ) (x : ℝ) (count : ℕ) :
    ∃ net', cabanaWeightLine N k net (connectionBody N x p.printed.1 count p.printed.2) = .ok net' ∧
      net'.SameSize net ∧ ∀ e q, net'.entry e q =
        if e = k ∧ q = p then N.rounded x else net.entry e q := by
  have hb : isBlank p.printed.1 = false ∧ p.printed.1 ≠ '\n' := by
    cases p <;> simp [Param.printed, isBlank]
  have hd := connectionBody_data hN x hb.1 hb.2 count p.printed.2
  have hw := connectionBody_words hN x hb.1 count p.printed.2
  unfold cabanaWeightLine
  cases h0 : (connectionBody N x p.printed.1 count p.printed.2)[0]? with
  | none => exact absurd (by simpa using h0) hd.nonempty
  | some c =>
    have hc : c ≠ '#' := fun h => hd.comment (by rw [h0, h])
    dsimp only
    rw [if_pos hc, hw]
    cases p with
    | weight l j i =>
      obtain ⟨hl, hj, hi⟩ := hp
      have h1 := hn l (by omega)
      have h2 := hn (l + 1) hl
      unfold cabanaWeightWords
      simp only [Param.printed, List.map_cons, List.map_nil, List.getElem?_cons_succ,
        List.getElem?_cons_zero, orThrow, bind, Except.bind, if_true,
        textInt_natText]
      unfold CabanaNet.putWeight
      rw [if_pos (by push_cast; omega)]
      refine ⟨_, rfl, ⟨rfl, rfl, rfl, rfl⟩, fun e q => ?_⟩
      cases q with
      | weight l' j' i' =>
        simp only [CabanaNet.entry, Param.weight.injEq]
        push_cast
        simp only [add_sub_cancel_right, Nat.cast_inj]
        by_cases he : e = k ∧ l' = l ∧ j' = j ∧ i' = i
        · rw [if_pos ⟨he.1, he.2.1, he.2.2.2, he.2.2.1⟩, if_pos he]
          rfl
        · rw [if_neg fun h => he ⟨h.1, h.2.1, h.2.2.2, h.2.2.1⟩, if_neg he]
      | bias l' i' => simp [CabanaNet.entry]
    | bias l i =>
      obtain ⟨hl, hi⟩ := hp
      have h2 := hn (l + 1) hl
      unfold cabanaWeightWords
      have hne : (['b'] : Str) ≠ ['a'] := by decide
      simp only [Param.printed, List.map_cons, List.map_nil, List.getElem?_cons_succ,
        List.getElem?_cons_zero, orThrow, bind, Except.bind, if_true, if_neg hne,
        textInt_natText]
      unfold CabanaNet.putBias
      rw [if_pos (by push_cast; omega)]
      refine ⟨_, rfl, ⟨rfl, rfl, rfl, rfl⟩, fun e q => ?_⟩
      cases q with
      | weight l' j' i' => simp [CabanaNet.entry]
      | bias l' i' =>
        simp only [CabanaNet.entry, Param.bias.injEq]
        push_cast
        simp only [add_sub_cancel_right, Nat.cast_inj]
        rfl

/-- All lines. -/
theorem cabanaWeightLines {N : NumberText} (hN : N.Data) {L : ℕ} {n : ℕ → ℕ} (k : ℕ)
    (v : Param → ℝ) : ∀ (lines : List Str) (ps : List Param) (net : CabanaNet),
    L ≤ net.numLayers → (∀ l < L, n l ≤ net.maxNeurons) → (∀ p ∈ ps, p.Valid L n) →
    List.Forall₂ (fun l (p : Param) =>
      ∃ count, l = connectionBody N (v p) p.printed.1 count p.printed.2) lines ps →
    ∃ net', lines.foldlM (cabanaWeightLine N k) net = .ok net' ∧ net'.SameSize net ∧
      (∀ e p, e ≠ k ∨ p ∉ ps → net'.entry e p = net.entry e p) ∧
      ∀ p ∈ ps, net'.entry k p = N.rounded (v p) := by
  intro lines ps net hL hn hv h
  induction h generalizing net with
  | nil => exact ⟨net, rfl, .refl _, fun _ _ _ => rfl, fun p hp => absurd hp (by simp)⟩
  | @cons l p ls ps hlp _ ih =>
    obtain ⟨count, rfl⟩ := hlp
    obtain ⟨net1, h1, hs1, he1⟩ := cabanaWeightLine_body hN (hv p (by simp)) hL hn k (v p) count
    obtain ⟨net2, h2, hs2, hk2, hp2⟩ := ih net1 (by rw [hs1.1]; exact hL)
      (by rw [hs1.2.2.2]; exact hn) fun q hq => hv q (by simp [hq])
    refine ⟨net2, ?_, hs2.trans hs1, fun e q hq => ?_, fun q hq => ?_⟩
    · rw [List.foldlM_cons, h1]
      exact h2
    · rw [hk2 e q (hq.imp_right fun h => fun h' => h (by simp [h'])), he1, if_neg]
      rintro ⟨rfl, rfl⟩
      rcases hq with hq | hq
      · exact hq rfl
      · exact hq (by simp)
    · by_cases hm : q ∈ ps
      · exact hp2 q hm
      · rw [hk2 k q (.inr hm), he1, if_pos]
        · have : q = p := by simpa [hm] using hq
          rw [this]
        · exact ⟨rfl, by simpa [hm] using hq⟩

theorem foldlM_comments {N : NumberText} (k : ℕ) (net : CabanaNet) (hs : List Str)
    (h : ∀ l ∈ hs, ∃ t, l = '#' :: t) : hs.foldlM (cabanaWeightLine N k) net = .ok net := by
  induction hs with
  | nil => rfl
  | cons l hs ih =>
    obtain ⟨t, rfl⟩ := h l (by simp)
    rw [List.foldlM_cons]
    have : cabanaWeightLine N k net ('#' :: t) = .ok net := by simp [cabanaWeightLine]
    rw [this]
    exact ih fun x hx => h x (by simp [hx])

/-- The file written for a network. -/
theorem cabanaWeightText {N : NumberText} (hN : N.Data) {L : ℕ} {n : ℕ → ℕ} {af : ℕ → Activation}
    {nn : NeuralNetwork} (h : HasShape L n af nn) (hL : IntSized L n) {text : Str}
    (ht : nn.writeConnections N = some text) {net : CabanaNet} (hl : L ≤ net.numLayers)
    (hn : ∀ l < L, n l ≤ net.maxNeurons) (k : ℕ) :
    ∃ net', (readLines text).foldlM (cabanaWeightLine N k) net = .ok net' ∧ net'.SameSize net ∧
      (∀ e p, e ≠ k → net'.entry e p = net.entry e p) ∧
      ∀ p : Param, p.Valid L n → net'.entry k p = N.rounded (p.read nn) := by
  obtain ⟨header, lines, hc, ht', hlen, hd⟩ := writeConnections_bodies h hL hN
  obtain rfl := Option.some.inj (ht.symm.trans ht')
  obtain ⟨hs, e, hb⟩ := header_bodies hc
  have hb' : ∀ p : Param, isBlank p.printed.1 = false ∧ p.printed.1 ≠ '\n' := by
    intro p
    cases p <;> simp [Param.printed, isBlank]
  have hex : ∀ m : Fin lines.length, ∃ p : Param, p.Valid L n ∧ p.pos n = m ∧
      lines[m] = connectionBody N (p.read nn) p.printed.1 (p.pos n + 1) p.printed.2 := by
    intro m
    obtain ⟨p, hp, hm⟩ := Param.exists_pos (L := L) (n := n) (m := m) (by rw [← hlen]; exact m.2)
    obtain ⟨l, hl, rfl⟩ := hd p hp
    refine ⟨p, hp, hm, ?_⟩
    rw [List.getElem?_eq_getElem (by rw [hm]; exact m.2)] at hl
    rw [← Option.some.inj hl]
    simp [hm]
  choose P hPv hPm hPl using hex
  have hf : List.Forall₂ (fun l (p : Param) =>
      ∃ count, l = connectionBody N (p.read nn) p.printed.1 count p.printed.2) lines
      (List.ofFn P) := by
    rw [List.forall₂_iff_get]
    refine ⟨by simp, fun i h1 h2 => ⟨Param.pos n (P ⟨i, h1⟩) + 1, ?_⟩⟩
    have := hPl ⟨i, h1⟩
    simp only [List.get_eq_getElem, List.getElem_ofFn]
    exact this
  have hnl : ∀ l ∈ lines, '\n' ∉ l := by
    intro l hl
    obtain ⟨m, hm, rfl⟩ := List.mem_iff_getElem.1 hl
    have := hPl ⟨m, hm⟩
    simp only [Fin.getElem_fin] at this
    rw [this]
    exact (connectionBody_data hN _ (hb' _).1 (hb' _).2 _ _).newline
  have hr : readLines (header.flatten ++ lines.flatMap (· ++ ['\n'])) = hs ++ lines := by
    rw [e, readLines_append hs (fun l h => (hb l h).1), readLines_write lines hnl]
  obtain ⟨net', h1, h2, h3, h4⟩ := cabanaWeightLines hN k (fun p => p.read nn) lines _ net hl hn
    (fun p hp => by obtain ⟨m, rfl⟩ := List.mem_ofFn.1 hp; exact hPv m) hf
  refine ⟨net', ?_, h2, fun e p he => h3 e p (.inl he), fun p hp => h4 p ?_⟩
  · rw [hr, List.foldlM_append, foldlM_comments k net hs fun l hl => (hb l hl).2]
    exact h1
  · have hlt : p.pos n < lines.length := by rw [hlen]; exact Param.pos_lt_total hp
    rw [List.mem_ofFn]
    exact ⟨⟨_, hlt⟩, Param.pos_inj (hPv _) hp (hPm ⟨_, hlt⟩)⟩

theorem cabanaNumber_known {e : NetElement} (h : e.Known) (AN : ℕ) :
    cabanaNumber AN e.symbol = e.atomicNumber := by
  unfold NetElement.Known atomicNumber at h
  unfold cabanaNumber
  cases hf : knownElements.findIdx? (· == e.symbol) with
  | none => rw [hf] at h; cases h
  | some i => rw [hf] at h; exact Except.ok.inj h

/-- The files of all elements. -/
theorem cabanaWeights_aux {N : NumberText} (hN : N.Data) {id : Str} {f : NameFormat} {fs : Files}
    (L : ℕ) : ∀ (els : List NetElement) (k0 AN : ℕ) (net : CabanaNet),
    (∀ e ∈ els, e.Known) → FilesHold N id f els fs →
    (∀ e ∈ els, ∀ nn, e.neuralNetworks.find? id = some nn → ∃ n af, IntSized L n ∧
      HasShape L n af nn ∧ ∀ l < L, n l ≤ net.maxNeurons) → L ≤ net.numLayers →
    ∃ s, ((els.map NetElement.symbol).zipIdx k0).foldlM (cabanaWeightFile N fs f) (AN, net) = .ok s ∧
      s.2.SameSize net ∧ (∀ m < k0, ∀ p, s.2.entry m p = net.entry m p) ∧
      ∀ (m : ℕ) e nn n af, els[m]? = some e → e.neuralNetworks.find? id = some nn →
        HasShape L n af nn → ∀ p : Param, p.Valid L n →
          s.2.entry (k0 + m) p = N.rounded (p.read nn) := by
  intro els
  induction els with
  | nil => exact fun k0 AN net _ _ _ _ => ⟨(AN, net), rfl, .refl _, fun _ _ _ => rfl,
      fun m e nn n af he => by simp at he⟩
  | cons e els ih =>
    intro k0 AN net hk hf hn hL
    obtain ⟨name, nn, text, h1, h2, h3, h4⟩ := hf e (by simp)
    obtain ⟨n, af, hI, hS, hmax⟩ := hn e (by simp) nn h2
    obtain ⟨net1, g1, g2, g3, g4⟩ := cabanaWeightText hN hS hI h3 hL hmax k0
    obtain ⟨s, i1, i2, i3, i4⟩ := ih (k0 + 1) e.atomicNumber net1 (fun x hx => hk x (by simp [hx]))
      (fun x hx => hf x (by simp [hx]))
      (fun x hx nn' hnn' => by rw [g2.2.2.2]; exact hn x (by simp [hx]) nn' hnn') (by rw [g2.1]; exact hL)
    refine ⟨s, ?_, i2.trans g2, fun m hm p => ?_, ?_⟩
    · rw [List.map_cons, List.zipIdx_cons, List.foldlM_cons]
      have : cabanaWeightFile N fs f (AN, net) (e.symbol, k0) = .ok (e.atomicNumber, net1) := by
        unfold cabanaWeightFile
        simp only [cabanaNumber_known (hk e (by simp)), h1, orUndefined, orThrow, h4, bind,
          Except.bind, g1]
        rfl
      rw [this]
      exact i1
    · rw [i3 m (by omega), g3 m p (by omega)]
    · intro m x nn' n' af' hm hx hS' p hp
      cases m with
      | zero =>
        obtain rfl := Option.some.inj hm
        obtain rfl := Option.some.inj (h2.symm.trans hx)
        have hn' : ∀ l < L, n' l = n l := fun l _ => by
          rw [← hS'.size l, hS.size l]
        rw [Nat.add_zero, i3 k0 (by omega)]
        refine g4 p ?_
        cases p with
        | weight l j i =>
          obtain ⟨a, b, c⟩ := hp
          exact ⟨a, by rw [← hn' _ (by omega)]; exact b, by rw [← hn' _ a]; exact c⟩
        | bias l i =>
          obtain ⟨a, c⟩ := hp
          exact ⟨a, by rw [← hn' _ a]; exact c⟩
      | succ m =>
        rw [show k0 + (m + 1) = k0 + 1 + m by omega]
        exact i4 m x nn' n' af' hm hx hS' p hp

end N2P2
