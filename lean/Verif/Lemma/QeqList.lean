import Verif.Spec.Electrostatics
import Verif.Lemma.NeighborRebuild
import Verif.Lemma.ModeList
import Verif.Lemma.Qeq

/-! The neighbour lists needed for electrostatics come from the code. -/

namespace N2P2

theorem calculateNeighborListCutoffs_sorted {srt : List Neighbor → List Neighbor} {s s' : Structure}
    {rc : ℝ} {cutoffs : List (List ℝ)}
    (h : s.calculateNeighborListCutoffs srt rc cutoffs = some s') :
    s'.neighborListIsSorted = true := by
  unfold Structure.calculateNeighborListCutoffs at h
  obtain ⟨t, -, h⟩ := Option.bind_eq_some_iff.1 h
  unfold Structure.setupNeighborCutoffMap at h
  by_cases hs : t.neighborListIsSorted = true
  · rw [if_neg (by simp [hs])] at h
    obtain ⟨atoms, -, rfl⟩ := Option.map_eq_some_iff.1 h
    exact hs
  · rw [if_pos hs] at h
    cases h

theorem countP_of_sorted {l : List Neighbor} (h : l.Pairwise fun x y => x.d ≤ y.d) {k : ℕ}
    {nb : Neighbor} (hk : l[k]? = some nb) {R : ℝ} [DecidablePred fun n : Neighbor => n.d ≤ R]
    (hd : nb.d ≤ R) : k < l.countP fun n => decide (n.d ≤ R) := by
  have hk' := (List.getElem?_eq_some_iff.1 hk).1
  have h1 : (l.take (k + 1)).countP (fun n => decide (n.d ≤ R)) = k + 1 := by
    rw [List.countP_eq_length.2]
    · rw [List.length_take]; omega
    · intro x hx
      obtain ⟨j, hj⟩ := List.getElem?_of_mem hx
      rw [List.getElem?_take] at hj
      split_ifs at hj with hjk
      rcases Nat.lt_or_ge j k with hlt | hge
      · obtain ⟨hj1, hj2⟩ := List.getElem?_eq_some_iff.1 hj
        have := List.pairwise_iff_getElem.1 h j k hj1 hk' hlt
        rw [hj2, (List.getElem?_eq_some_iff.1 hk).2] at this
        simpa using this.trans hd
      · have : j = k := by omega
        subst this
        rw [hk] at hj
        cases hj
        simpa using hd
  calc k < k + 1 := by omega
    _ = _ := h1.symm
    _ ≤ _ := (List.take_sublist _ _).countP_le

/-- A sorted neighbour list built with `calculateNeighborList(rc, cutoffs)` on atoms without
neighbours and stored counts serves for every radius up to its own. -/
theorem stored_of_build {srt : List Neighbor → List Neighbor} (hsrt : IsSort srt) {s : Structure}
    {rc : ℝ} (hrc : 0 ≤ max rc s.maxCutoffRadiusOverall) (hb : Boxed s)
    (hcl : ∀ a ∈ s.atoms, Cleared a) (hfr : ∀ a ∈ s.atoms, a.neighborCutoffs = [])
    {cutoffs : List (List ℝ)} (hc : ∀ a ∈ s.atoms, a.element < cutoffs.length) :
    ∃ s' full, s.calculateNeighborListCutoffs srt rc cutoffs = some s' ∧ SameShape s s' ∧
      s'.Listed full ∧ ∀ R ≤ max rc s.maxCutoffRadiusOverall, s'.Stored full R
        (fun i => (full i).take ((s'.atom i).getStoredMinNumNeighbors R)) := by
  classical
  obtain ⟨s', e, hsame, hat⟩ := build_cutoffs hsrt hrc hb hcl hc
  have hlen : s'.atoms.length = s.atoms.length := by
    have := congrArg List.length hsame.atoms
    simpa using this
  have hA : ∀ i < s.atoms.length, s'.atoms[i]? = some (s'.atom i) := fun i hi =>
    Structure.atom_get (hlen ▸ hi)
  have hat' : ∀ i < s.atoms.length, (s'.atom i).r = s.position i ∧
      (s'.atom i).neighbors.Pairwise (fun x y => x.d ≤ y.d) ∧
      ListOk s (max rc s.maxCutoffRadiusOverall) i (s'.atom i) ∧
      ∀ c, (s'.atom i).neighborCutoffs.find? c =
          some ((s'.atom i).neighbors.countP (fun nb => decide (nb.d ≤ c))) ∨
        (s'.atom i).neighborCutoffs.find? c = none := by
    intro i hi
    obtain ⟨a', h1, h2, -, h4, h5, cut, -, h7⟩ := hat i _ (Structure.atom_get hi)
    have : a' = s'.atom i := by rw [hA i hi] at h1; exact (Option.some.inj h1).symm
    subst this
    refine ⟨by rw [h2, Structure.atom_r], h4, h5, fun c => ?_⟩
    rw [h7 c, hfr _ (Structure.atom_mem hi)]
    show (if _ then _ else _) = _ ∨ (if _ then _ else _) = _
    split_ifs
    · left
      congr 1
    · exact Or.inr rfl
  have himg : ∀ i, ∃ imgs : List (ℕ × (Fin 3 → ℤ)), i < s.atoms.length → imgs.Nodup ∧
      (∀ p, p ∈ imgs ↔ IsImage s (max rc s.maxCutoffRadiusOverall) i p) ∧
      List.Forall₂ (fun nb p => nb.Describes s.box s.atoms (s'.atom i).r p.1 p.2)
        (s'.atom i).neighbors imgs := by
    intro i
    by_cases hi : i < s.atoms.length
    · obtain ⟨imgs, h⟩ := (hat' i hi).2.2.1.imgs
      exact ⟨imgs, fun _ => h⟩
    · exact ⟨[], fun h => absurd h hi⟩
  choose full hfull using himg
  have hdes : ∀ i < s.atoms.length, List.Forall₂
      (fun nb p => nb.Describes s'.box s'.atoms (s'.atom i).r p.1 p.2)
      (s'.atom i).neighbors (full i) := fun i hi =>
    (hfull i hi).2.2.imp fun nb p h => hsame.describes h
  have hst : ∀ i < s.atoms.length, ∀ R, (s'.atom i).getStoredMinNumNeighbors R =
      (s'.atom i).neighbors.countP (fun nb => decide (nb.d ≤ R)) ∨
      (s'.atom i).getStoredMinNumNeighbors R = (s'.atom i).neighbors.length := by
    intro i hi R
    unfold Atom.getStoredMinNumNeighbors
    rcases (hat' i hi).2.2.2 R with h | h
    · rw [h]; exact Or.inl rfl
    · rw [h]; exact Or.inr (hat' i hi).2.2.1.num
  have hpart : ∀ i < s.atoms.length, ∀ p ∈ full i, s'.IsPartner i p ∧
      len (s'.separation i p) ≤ max rc s.maxCutoffRadiusOverall := by
    intro i hi p hp
    exact (isImage_iff s' _ (by rw [hlen]; exact hi) p).1
      (hsame.isImage (((hfull i hi).2.1 p).1 hp))
  refine ⟨s', full, e, hsame, ⟨calculateNeighborListCutoffs_sorted e, ?_, ?_, ?_, ?_, ?_⟩,
    fun R hR => ?_⟩
  · intro a ha
    obtain ⟨i, hi⟩ := List.getElem?_of_mem ha
    have hil := (List.getElem?_eq_some_iff.1 hi).1
    rw [hlen] at hil
    rw [hA i hil] at hi
    cases hi
    exact (hat' i hil).2.2.1.num
  · intro i a hi
    have hil := (List.getElem?_eq_some_iff.1 hi).1
    rw [hlen] at hil
    rw [hA i hil] at hi
    cases hi
    exact hdes i hil
  · intro a ha
    obtain ⟨i, hi⟩ := List.getElem?_of_mem ha
    have hil := (List.getElem?_eq_some_iff.1 hi).1
    rw [hlen] at hil
    rw [hA i hil] at hi
    cases hi
    exact (hat' i hil).2.1
  · exact fun i hi => (hfull i (hlen ▸ hi)).1
  · exact fun i hi p hp => (hpart i (hlen ▸ hi) p hp).1
  · have hle : ∀ i < s.atoms.length,
        (s'.atom i).getStoredMinNumNeighbors R ≤ (s'.atom i).neighbors.length := by
      intro i hi
      rcases hst i hi R with h | h <;> rw [h]
      exact List.countP_le_length
    refine ⟨?_, fun i _ => rfl, fun i hi => ?_, fun i hi p hp => ?_, fun i hi p hp hd => ?_⟩
    · intro a ha
      obtain ⟨i, hi⟩ := List.getElem?_of_mem ha
      have hil := (List.getElem?_eq_some_iff.1 hi).1
      rw [hlen] at hil
      rw [hA i hil] at hi
      cases hi
      exact hle i hil
    · rw [hlen] at hi
      exact ((hfull i hi).1).sublist (List.take_sublist _ _)
    · rw [hlen] at hi
      exact (hpart i hi p (List.mem_of_mem_take hp)).1
    · rw [hlen] at hi
      have hmem : p ∈ full i := by
        rw [(hfull i hi).2.1]
        exact hsame.symm.isImage ((isImage_iff s' _ (by rw [hlen]; exact hi) p).2
          ⟨hp, hd.trans hR⟩)
      obtain ⟨k, hk⟩ := List.getElem?_of_mem hmem
      have hk' := (List.getElem?_eq_some_iff.1 hk).1
      have hl := (hdes i hi).length_eq
      have hnb := List.getElem?_eq_getElem (hl ▸ hk')
      have hds := (List.forall₂_iff_get.1 (hdes i hi)).2 k (hl ▸ hk') hk'
      rw [List.get_eq_getElem, List.get_eq_getElem, (List.getElem?_eq_some_iff.1 hk).2] at hds
      have hdd := (describes_at hds).2.2.2
      rw [List.mem_take_iff_getElem]
      refine ⟨k, ?_, (List.getElem?_eq_some_iff.1 hk).2⟩
      rw [lt_min_iff]
      refine ⟨?_, hk'⟩
      rcases hst i hi R with h | h
      · rw [h]
        exact countP_of_sorted (hat' i hi).2.1 hnb (by rw [hdd]; exact hd)
      · rw [h, hl]
        exact hk'

end N2P2
