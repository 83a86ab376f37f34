import Verif.Model.ElementMap
import Mathlib.Data.List.Nodup

namespace N2P2

theorem atomicNumber_ok {s : Str} {n : Nat} (h : atomicNumber s = .ok n) :
    ∃ i, n = i + 1 ∧ knownElements[i]? = some s := by
  unfold atomicNumber at h
  split at h
  · rename_i i hi
    rw [List.findIdx?_eq_some_iff_getElem] at hi
    obtain ⟨hlt, he, _⟩ := hi
    refine ⟨i, by injection h with h; exact h.symm, ?_⟩
    rw [List.getElem?_eq_getElem hlt]
    simpa using he
  · cases h

theorem atomicNumber_known {s : Str} (h : s ∈ knownElements) : ∃ n, atomicNumber s = .ok n := by
  unfold atomicNumber
  split
  · exact ⟨_, rfl⟩
  · rename_i hn
    rw [List.findIdx?_eq_none_iff] at hn
    have := hn s h
    simp at this

theorem atomicNumber_unknown {s : Str} (h : s ∉ knownElements) :
    atomicNumber s = .error .unknownElement := by
  unfold atomicNumber
  split
  · rename_i i hi
    rw [List.findIdx?_eq_some_iff_getElem] at hi
    obtain ⟨hlt, he, _⟩ := hi
    exfalso; apply h
    have : knownElements[i] = s := by simpa using he
    rw [← this]; exact List.getElem_mem hlt
  · rfl

theorem knownElements_nodup : knownElements.Nodup := by decide +kernel

theorem knownElements_length : knownElements.length = 102 := by decide +kernel

theorem atomicNumber_getElem {i : Nat} (h : i < knownElements.length) :
    atomicNumber knownElements[i] = .ok (i + 1) := by
  obtain ⟨n, hn⟩ := atomicNumber_known (List.getElem_mem h)
  obtain ⟨j, rfl, hj⟩ := atomicNumber_ok hn
  rw [hn]
  obtain ⟨hjl, hj'⟩ := List.getElem?_eq_some_iff.1 hj
  have : j = i := (List.Nodup.getElem_inj_iff knownElements_nodup).1 hj'
  rw [this]

theorem elemKey_inj {a b : Str} (ha : a ∈ knownElements) (hb : b ∈ knownElements)
    (h : elemKey a = elemKey b) : a = b := by
  obtain ⟨n, hn⟩ := atomicNumber_known ha
  obtain ⟨m, hm⟩ := atomicNumber_known hb
  have hk : n = m := by simpa [elemKey, hn, hm] using h
  obtain ⟨i, rfl, hi⟩ := atomicNumber_ok hn
  obtain ⟨j, hj', hj⟩ := atomicNumber_ok hm
  have : i = j := by omega
  subst this
  rw [hi] at hj
  exact Option.some.inj hj

theorem fill_forward (l : List Str) : ∀ (m : EMap) (i : Nat) (s : Str), l.Nodup →
    (m.fill i l).forward.find? s =
      if s ∈ l then some (i + l.idxOf s) else m.forward.find? s := by
  induction l with
  | nil => intro m i s _; simp [EMap.fill]
  | cons e es ih =>
    intro m i s hnd
    rw [List.nodup_cons] at hnd
    rw [EMap.fill, ih _ _ _ hnd.2]
    by_cases hs : s ∈ es
    · have hne : e ≠ s := fun h => hnd.1 (h ▸ hs)
      simp only [hs, if_true, List.mem_cons, or_true]
      rw [List.idxOf_cons_ne _ hne]
      congr 1; omega
    · simp only [hs, if_false, List.mem_cons, or_false, CMap.find?_set]
      by_cases he : e = s
      · subst he; simp
      · have : ¬ s = e := fun h => he h.symm
        simp [he, this]

theorem fill_reverse (l : List Str) : ∀ (m : EMap) (i k : Nat),
    (m.fill i l).reverse.find? k =
      if i ≤ k ∧ k < i + l.length then l[k - i]? else m.reverse.find? k := by
  induction l with
  | nil =>
    intro m i k
    have : ¬ (i ≤ k ∧ k < i + ([] : List Str).length) := by simp
    rw [if_neg this]; rfl
  | cons e es ih =>
    intro m i k
    rw [EMap.fill, ih]
    by_cases h1 : i + 1 ≤ k ∧ k < i + 1 + es.length
    · rw [if_pos h1, if_pos (by simp; omega)]
      have : k - i = (k - (i + 1)) + 1 := by omega
      rw [this]; simp
    · rw [if_neg h1, CMap.find?_set]
      by_cases h2 : i = k
      · subst h2; simp
      · rw [if_neg h2, if_neg (by simp; omega)]

theorem fill_size (l : List Str) : ∀ (m : EMap) (i : Nat), l.Nodup →
    (∀ s ∈ l, m.forward.find? s = none) →
    (m.fill i l).forward.size = m.forward.size + l.length := by
  induction l with
  | nil => intro m i _ _; simp [EMap.fill]
  | cons e es ih =>
    intro m i hnd hf
    rw [List.nodup_cons] at hnd
    rw [EMap.fill, ih _ _ hnd.2]
    · rw [CMap.size_set, hf e (by simp)]
      simp; omega
    · intro s hs
      have hne : ¬ e = s := fun h => hnd.1 (h ▸ hs)
      rw [CMap.find?_set, if_neg hne]
      exact hf s (by simp [hs])

theorem any_unknown_false {es : List Str} (h : ∀ e ∈ es, e ∈ knownElements) :
    es.any (fun e => (knownElements.findIdx? (· == e)).isNone) = false := by
  rw [List.any_eq_false]
  intro e he hn
  rw [Option.isNone_iff_eq_none, List.findIdx?_eq_none_iff] at hn
  have := hn e (h e he)
  simp at this

/-- The sorted element list. -/
def sortedElements (es : List Str) : List Str :=
  es.mergeSort (fun a b => decide (elemKey a ≤ elemKey b))

theorem sortedElements_perm (es : List Str) : (sortedElements es).Perm es :=
  List.mergeSort_perm _ _

theorem sortedElements_pairwise (es : List Str) :
    (sortedElements es).Pairwise (fun a b => elemKey a ≤ elemKey b) := by
  have := List.pairwise_mergeSort (le := fun a b => decide (elemKey a ≤ elemKey b))
    (fun a b c h1 h2 => by simp at *; omega) (fun a b => by simp; omega) es
  exact this.imp (by simp)

theorem sortedElements_unique {es fs : List Str} (h : es.Perm fs)
    (hk : ∀ e ∈ es, e ∈ knownElements) : sortedElements es = sortedElements fs := by
  have hp : (sortedElements es).Perm (sortedElements fs) :=
    (sortedElements_perm es).trans (h.trans (sortedElements_perm fs).symm)
  refine List.Perm.eq_of_pairwise (le := fun a b => elemKey a ≤ elemKey b) ?_
    (sortedElements_pairwise es) (sortedElements_pairwise fs) hp
  intro a b ha hb h1 h2
  have ha' : a ∈ es := (sortedElements_perm es).mem_iff.1 ha
  have hb' : b ∈ es := h.mem_iff.2 ((sortedElements_perm fs).mem_iff.1 hb)
  exact elemKey_inj (hk a ha') (hk b hb') (by omega)

theorem register_eq {line : Str} (hk : ∀ e ∈ split (reduce line), e ∈ knownElements) :
    EMap.empty.registerElements line =
      .ok (EMap.empty.fill 0 (sortedElements (split (reduce line))),
        (EMap.empty.fill 0 (sortedElements (split (reduce line)))).forward.size) := by
  unfold EMap.registerElements
  simp only [any_unknown_false hk, Bool.false_eq_true, and_false, if_false]
  rfl

end N2P2
