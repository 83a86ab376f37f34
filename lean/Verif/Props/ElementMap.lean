import Verif.Lemma.ElementMap
import Verif.Spec.ElementMap
import Verif.Spec.Utility
import Verif.Props.Utility

/-! Properties C04 (element registration) and C05 (atomic numbers). -/

namespace N2P2

/-- C04: registering pairwise different known elements (in any order) succeeds, reports their
number `n`, and gives mutually inverse bijections between the listed symbols and `0..n-1`, with
indices increasing with the atomic number. -/
theorem C04_register_bijection (line : Str) (es : List Str) (ht : SpecTokens line es)
    (hk : ∀ e ∈ es, e ∈ knownElements) (hd : es.Nodup) :
    ∃ m, EMap.empty.registerElements line = .ok (m, es.length) ∧
      m.size = es.length ∧
      (∀ e ∈ es, ∃ i, i < es.length ∧ m.index e = .ok i ∧ m.symbol i = .ok e) ∧
      (∀ i, i < es.length → ∃ e ∈ es, m.symbol i = .ok e ∧ m.index e = .ok i) ∧
      (∀ e, e ∉ es → m.index e = .error .noEntry) ∧
      (∀ i, es.length ≤ i → m.symbol i = .error .noEntry) ∧
      (∀ e f i j ne nf, m.index e = .ok i → m.index f = .ok j → atomicNumber e = .ok ne →
        atomicNumber f = .ok nf → (i < j ↔ ne < nf)) := by
  have hes := (C01_tokens_are_words line es).2 ht
  have hreg := register_eq (line := line) (by rw [hes]; exact hk)
  rw [hes] at hreg
  have hperm := sortedElements_perm es
  have hnd : (sortedElements es).Nodup := hperm.nodup_iff.2 hd
  have hlen : (sortedElements es).length = es.length := hperm.length_eq
  have hsize : (EMap.empty.fill 0 (sortedElements es)).forward.size = es.length := by
    rw [fill_size _ _ _ hnd (by intro s _; rfl), hlen]
    simp [EMap.empty, CMap.size]
  have hidx : ∀ e, (EMap.empty.fill 0 (sortedElements es)).forward.find? e =
      if e ∈ es then some ((sortedElements es).idxOf e) else none := by
    intro e
    rw [fill_forward _ _ _ _ hnd]
    simp only [hperm.mem_iff, Nat.zero_add]
    rfl
  have hsym : ∀ i, (EMap.empty.fill 0 (sortedElements es)).reverse.find? i =
      if i < es.length then (sortedElements es)[i]? else none := by
    intro i
    rw [fill_reverse, hlen]
    simp only [Nat.zero_le, true_and, Nat.zero_add, Nat.sub_zero]
    rfl
  have hfw : ∀ e, e ∈ es → (sortedElements es).idxOf e < es.length ∧
      (sortedElements es)[(sortedElements es).idxOf e]? = some e := by
    intro e he
    have h1 : (sortedElements es).idxOf e < (sortedElements es).length :=
      List.idxOf_lt_length_iff.2 (hperm.mem_iff.2 he)
    refine ⟨hlen ▸ h1, ?_⟩
    rw [List.getElem?_eq_getElem h1, List.getElem_idxOf]
  refine ⟨_, by rw [hreg, hsize], hsize, ?_, ?_, ?_, ?_, ?_⟩
  · intro e he
    obtain ⟨h1, h2⟩ := hfw e he
    refine ⟨(sortedElements es).idxOf e, h1, ?_, ?_⟩
    · unfold EMap.index; rw [hidx, if_pos he]
    · unfold EMap.symbol; rw [hsym, if_pos h1, h2]
  · intro i hi
    have hi' : i < (sortedElements es).length := by omega
    have hmem : (sortedElements es)[i] ∈ es := hperm.mem_iff.1 (List.getElem_mem hi')
    refine ⟨(sortedElements es)[i], hmem, ?_, ?_⟩
    · unfold EMap.symbol; rw [hsym, if_pos hi, List.getElem?_eq_getElem hi']
    · unfold EMap.index; rw [hidx, if_pos hmem]
      simp only [List.Nodup.idxOf_getElem hnd i hi']
  · intro e he
    unfold EMap.index; rw [hidx, if_neg he]
  · intro i hi
    unfold EMap.symbol; rw [hsym, if_neg (by omega)]
  · intro e f i j ne nf he hf hne hnf
    have hmem : ∀ x k, (EMap.empty.fill 0 (sortedElements es)).index x = .ok k →
        x ∈ es ∧ k = (sortedElements es).idxOf x := by
      intro x k hx
      unfold EMap.index at hx
      rw [hidx] at hx
      by_cases hm : x ∈ es
      · rw [if_pos hm] at hx; exact ⟨hm, by injection hx with hx; exact hx.symm⟩
      · rw [if_neg hm] at hx; cases hx
    obtain ⟨hem, rfl⟩ := hmem e i he
    obtain ⟨hfm, rfl⟩ := hmem f j hf
    have hke : elemKey e = ne := by simp [elemKey, hne]
    have hkf : elemKey f = nf := by simp [elemKey, hnf]
    have mono : ∀ x y, x ∈ es → y ∈ es →
        (sortedElements es).idxOf x < (sortedElements es).idxOf y → elemKey x < elemKey y := by
      intro x y hx hy hlt
      have hx1 : (sortedElements es).idxOf x < (sortedElements es).length :=
        List.idxOf_lt_length_iff.2 (hperm.mem_iff.2 hx)
      have hy1 : (sortedElements es).idxOf y < (sortedElements es).length :=
        List.idxOf_lt_length_iff.2 (hperm.mem_iff.2 hy)
      have := List.pairwise_iff_getElem.1 (sortedElements_pairwise es) _ _ hx1 hy1 hlt
      rw [List.getElem_idxOf, List.getElem_idxOf] at this
      rcases Nat.lt_or_eq_of_le this with h | h
      · exact h
      · have := elemKey_inj (hk x hx) (hk y hy) h
        subst this; omega
    constructor
    · intro h; have := mono e f hem hfm h; omega
    · intro h
      rcases Nat.lt_trichotomy ((sortedElements es).idxOf e) ((sortedElements es).idxOf f)
        with h1 | h1 | h1
      · exact h1
      · have : e = f := by
          have h2 := (hfw e hem).2
          have h3 := (hfw f hfm).2
          rw [h1, h3] at h2
          exact (Option.some.inj h2).symm
        subst this; omega
      · have := mono f e hfm hem h1; omega

/-- C04: the order in which known symbols are listed does not matter. -/
theorem C04_register_order_independent (line line' : Str) (es es' : List Str)
    (ht : SpecTokens line es) (ht' : SpecTokens line' es') (hp : es.Perm es')
    (hk : ∀ e ∈ es, e ∈ knownElements) :
    EMap.empty.registerElements line = EMap.empty.registerElements line' := by
  have h1 := (C01_tokens_are_words line es).2 ht
  have h2 := (C01_tokens_are_words line' es').2 ht'
  rw [register_eq (by rw [h1]; exact hk),
    register_eq (by rw [h2]; intro e he; exact hk e (hp.mem_iff.2 he)), h1, h2,
    sortedElements_unique hp hk]

/-- C04: registering on a map that already has entries is rejected. -/
theorem C04_register_nonempty_rejected (m : EMap) (line : Str) (h : m.size ≠ 0) :
    ∃ err, m.registerElements line = .error err := by
  unfold EMap.registerElements
  simp only
  split
  · exact ⟨_, rfl⟩
  · unfold EMap.size at h
    rw [if_pos h]
    exact ⟨_, rfl⟩

example : ∃ m, EMap.empty.registerElements "O\t H".toList = .ok (m, 2) ∧ m.size = 2 := by
  obtain ⟨m, h1, h2, _⟩ := C04_register_bijection "O\t H".toList ["O".toList, "H".toList]
    ((C01_tokens_are_words _ _).1 (by decide)) (by decide +kernel) (by decide)
  exact ⟨m, h1, h2⟩

/-- C05: symbol -> number -> symbol, for every known element but the last one; number -> symbol ->
number for every accepted number; everything unknown is rejected.
Missing for the full claim: the last known element, see `C05_last_element_rejected`. -/
theorem C05_atomic_number_roundtrip_partial (s : Str) (n : Nat) :
    (atomicNumber s = .ok n → n < 102 → symbolFromAtomicNumber n = .ok s) ∧
    (symbolFromAtomicNumber n = .ok s → atomicNumber s = .ok n) ∧
    ((∃ k, atomicNumber s = .ok k ∧ 1 ≤ k ∧ k ≤ 102) ↔ s ∈ knownElements) ∧
    ((∃ t, symbolFromAtomicNumber n = .ok t) ↔ 1 ≤ n ∧ n < 102) := by
  refine ⟨?_, ?_, ⟨?_, ?_⟩, ⟨?_, ?_⟩⟩
  · intro h hn
    obtain ⟨i, rfl, hi⟩ := atomicNumber_ok h
    unfold symbolFromAtomicNumber
    rw [if_neg (by rw [knownElements_length]; omega), if_neg (by omega)]
    simp [hi]
  · intro h
    unfold symbolFromAtomicNumber at h
    split at h
    · cases h
    split at h
    · cases h
    rename_i h1 h0
    have hlt : n - 1 < knownElements.length := by omega
    rw [List.getElem?_eq_getElem hlt] at h
    injection h with h
    rw [← h, atomicNumber_getElem hlt]
    congr 1; omega
  · rintro ⟨k, hk, _⟩
    obtain ⟨i, _, hi⟩ := atomicNumber_ok hk
    exact List.mem_of_getElem? hi
  · intro h
    obtain ⟨k, hk⟩ := atomicNumber_known h
    obtain ⟨i, rfl, hi⟩ := atomicNumber_ok hk
    obtain ⟨hlt, _⟩ := List.getElem?_eq_some_iff.1 hi
    rw [knownElements_length] at hlt
    exact ⟨_, hk, by omega, by omega⟩
  · rintro ⟨t, h⟩
    unfold symbolFromAtomicNumber at h
    rw [knownElements_length] at h
    split at h
    · cases h
    split at h
    · cases h
    omega
  · rintro ⟨h1, h2⟩
    unfold symbolFromAtomicNumber
    rw [if_neg (by rw [knownElements_length]; omega), if_neg (by omega)]
    have hlt : n - 1 < knownElements.length := by rw [knownElements_length]; omega
    rw [List.getElem?_eq_getElem hlt]
    exact ⟨_, rfl⟩

/-- C05, counterexample to the full claim: the last known element (No, 102) has an atomic number
that the reverse conversion rejects (`>=` instead of `>` in ElementMap.cpp:110). -/
theorem C05_last_element_rejected :
    atomicNumber "No".toList = .ok 102 ∧ symbolFromAtomicNumber 102 = .error .badNumber := by
  decide +kernel

example : atomicNumber "Fe".toList = .ok 26 ∧ symbolFromAtomicNumber 26 = .ok "Fe".toList := by
  decide +kernel

theorem table_eq : periodicTable = knownElements.zipIdx.map fun p => (p.2 + 1, p.1) := by
  decide +kernel

/-- C05: the numbers are those of the periodic table. -/
theorem C05_table (s : Str) (n : Nat) : atomicNumber s = .ok n ↔ (n, s) ∈ periodicTable := by
  rw [table_eq]
  constructor
  · intro h
    obtain ⟨i, rfl, hi⟩ := atomicNumber_ok h
    refine List.mem_map.2 ⟨(s, i), ?_, rfl⟩
    rw [List.mem_zipIdx_iff_getElem?]
    exact hi
  · intro h
    obtain ⟨⟨t, i⟩, hm, e⟩ := List.mem_map.1 h
    obtain ⟨rfl, rfl⟩ := Prod.mk.inj e
    rw [List.mem_zipIdx_iff_getElem?] at hm
    obtain ⟨hlt, he⟩ := List.getElem?_eq_some_iff.1 hm
    rw [← he]
    exact atomicNumber_getElem hlt

example : (28, "Ni".toList) ∈ periodicTable := by decide +kernel

end N2P2
