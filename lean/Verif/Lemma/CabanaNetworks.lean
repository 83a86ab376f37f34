import Verif.Lemma.CabanaWeights

/-! The networks of the CabanaMD interface after its setup. -/

namespace N2P2

open NeuralNetwork NetShape

theorem plainShape_plain (hidden : List ℕ) (m : ℕ) : (plainShape hidden m).Plain hidden where
  layers := rfl
  inside l m' h := by
    have := (List.getElem?_eq_some_iff.1 h).1
    simp only [plainShape]
    rw [if_neg (by omega), if_pos (by omega), Nat.add_sub_cancel, h]
    exact ⟨rfl, rfl⟩
  output := by
    simp only [plainShape]
    rw [if_neg (by omega), if_neg (by omega), Nat.add_sub_cancel,
      List.getElem?_eq_none (le_refl _)]
    exact ⟨rfl, rfl⟩
  norm := rfl

theorem cabanaNeurons_eq (hidden nums : List ℕ) (m l : ℕ) (h0 : 0 < l) (hl : l < 2 + hidden.length) :
    cabanaNeurons hidden nums l = (plainShape hidden m).n l := by
  have := CabanaNet.Sized.size (N := cabanaNet hidden nums) (nums := nums) ⟨rfl, rfl, rfl, rfl⟩
    (plainShape_plain hidden m) h0 hl
  exact this

/-- The interface reads the networks which training wrote. -/
theorem cabanaNetworks (N : NumberText) (hN : N.Data) (id : Str) (f : NameFormat)
    (hf : f.Short) (hidden nums : List ℕ) (els : List NetElement)
    (hknown : ∀ e ∈ els, e.Known) (hdiff : (els.map NetElement.symbol).Nodup)
    (hnet : ∀ (k : ℕ) e, els[k]? = some e → ∃ m n af, nums[k]? = some m ∧
      e.HasNet id (2 + hidden.length) n af ∧ IntSized (2 + hidden.length) n ∧
      ∀ l < 2 + hidden.length, n l = (plainShape hidden m).n l)
    (hlast : ∀ m ∈ nums, ∃ last, nums.getLast? = some last ∧ m ≤ last) (fs : Files) :
    ∃ fs' net, writeWeights N els id f fs = some fs' ∧
      cabanaWeights N fs' f (els.map NetElement.symbol) (cabanaNet hidden nums) = .ok net ∧
      net.Sized hidden nums ∧
      ∀ (k : ℕ) e m nn c, els[k]? = some e → nums[k]? = some m →
        e.neuralNetworks.find? id = some nn →
        (∀ p : Param, p.Valid (2 + hidden.length) (plainShape hidden m).n →
          c (p.pos (plainShape hidden m).n) = N.rounded (p.read nn)) →
        net.Reads k (plainShape hidden m) c ∧ m ≤ net.neurons 0 := by
  have hin : ∀ m ∈ nums, m ≤ (cabanaNet hidden nums).neurons 0 := by
    intro m hm
    obtain ⟨last, h1, h2⟩ := hlast m hm
    show m ≤ cabanaNeurons hidden nums 0
    unfold cabanaNeurons
    rw [if_pos rfl, foldl_last, h1]
    exact h2
  have hmax : ∀ m ∈ nums, ∀ l < 2 + hidden.length,
      (plainShape hidden m).n l ≤ (cabanaNet hidden nums).maxNeurons := by
    intro m hm l hl
    refine le_trans ?_ (CabanaNet.Sized.room (N := cabanaNet hidden nums) (nums := nums)
      ⟨rfl, rfl, rfl, rfl⟩ hl)
    rcases Nat.eq_zero_or_pos l with rfl | h0
    · exact hin m hm
    · exact (cabanaNeurons_eq hidden nums m l h0 hl).ge
  obtain ⟨fs', h1, h2, -⟩ := writeWeights_files hN hf els hknown hdiff (fun e he => by
    obtain ⟨k, hk, rfl⟩ := List.mem_iff_getElem.1 he
    obtain ⟨m, n, af, -, a, b, -⟩ := hnet k _ (List.getElem?_eq_getElem hk)
    exact ⟨_, n, af, b, a⟩) fs
  have hshape : ∀ (k : ℕ) e nn, els[k]? = some e → e.neuralNetworks.find? id = some nn →
      ∃ m n af, nums[k]? = some m ∧ HasShape (2 + hidden.length) n af nn ∧
        IntSized (2 + hidden.length) n ∧ ∀ l < 2 + hidden.length, n l = (plainShape hidden m).n l := by
    intro k e nn he hnn
    obtain ⟨m, n, af, h1, ⟨nn', h2, h3⟩, h4, h5⟩ := hnet k e he
    obtain rfl := Option.some.inj (hnn.symm.trans h2)
    exact ⟨m, n, af, h1, h3.hasShape, h4, h5⟩
  obtain ⟨s, i1, i2, -, i4⟩ := cabanaWeights_aux hN (2 + hidden.length) els 0 0
    (cabanaNet hidden nums) hknown h2 (fun e he nn hnn => by
      obtain ⟨k, hk, rfl⟩ := List.mem_iff_getElem.1 he
      obtain ⟨m, n, af, a, b, c, d⟩ := hshape k _ nn (List.getElem?_eq_getElem hk) hnn
      refine ⟨n, af, c, b, fun l hl => ?_⟩
      rw [d l hl]
      exact hmax m (List.mem_of_getElem? a) l hl) le_rfl
  have hsz : s.2.Sized hidden nums := ⟨i2.1, i2.2.1, i2.2.2.1, i2.2.2.2⟩
  refine ⟨fs', s.2, h1, ?_, hsz, ?_⟩
  · unfold cabanaWeights
    rw [i1]
    rfl
  intro k e m nn c he hm hnn hc
  obtain ⟨m', n, af, a1, a2, a3, a4⟩ := hshape k e nn he hnn
  obtain rfl := Option.some.inj (hm.symm.trans a1)
  have hv : ∀ p : Param, p.Valid (2 + hidden.length) (plainShape hidden m).n →
      s.2.entry k p = c (p.pos (plainShape hidden m).n) := by
    intro p hp
    rw [hc p hp]
    have := i4 k e nn n af he hnn a2 p (by
      cases p with
      | weight l j i =>
        obtain ⟨x, y, z⟩ := hp
        exact ⟨x, by rw [a4 _ (by omega)]; exact y, by rw [a4 _ x]; exact z⟩
      | bias l i =>
        obtain ⟨x, z⟩ := hp
        exact ⟨x, by rw [a4 _ x]; exact z⟩)
    rwa [Nat.zero_add] at this
  exact ⟨⟨fun l j i hp => hv (.weight l j i) hp, fun l i hp => hv (.bias l i) hp⟩,
    by rw [i2.2.1]; exact hin m (List.mem_of_getElem? hm)⟩

end N2P2
