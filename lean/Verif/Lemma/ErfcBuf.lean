import Verif.Lemma.Erf

/-! The buffer of values of the complementary error function. -/

namespace N2P2

/-- What the buffer holds: nothing or the right value. -/
structure ErfcBuf.Holds (b : ErfcBuf) (atoms : List Atom) (vpp : ℕ) (X : ℕ → ℕ → ℕ → ℝ) : Prop where
  values : b.numValuesPerPair = vpp
  row : ∀ (i : ℕ) a, atoms[i]? = some a → ∃ row, b.f[i]? = some row ∧
    ∀ k < a.numNeighbors, ∀ v < vpp,
      row[k * vpp + v]? = some (-1) ∨ row[k * vpp + v]? = some (erfc (X i k v))

theorem pair_index_lt {k n v w : ℕ} (hk : k < n) (hv : v < w) : k * w + v < n * w := by
  calc k * w + v < k * w + w := by omega
    _ = (k + 1) * w := by ring
    _ ≤ n * w := Nat.mul_le_mul_right w hk

theorem pair_index_inj {k k' v v' w : ℕ} (hv : v < w) (hv' : v' < w)
    (h : k * w + v = k' * w + v') : k = k' ∧ v = v' := by
  have hw : 0 < w := by omega
  have h1 : (k * w + v) / w = k := by
    rw [mul_comm, Nat.mul_add_div hw, Nat.div_eq_of_lt hv, add_zero]
  have h2 : (k' * w + v') / w = k' := by
    rw [mul_comm, Nat.mul_add_div hw, Nat.div_eq_of_lt hv', add_zero]
  have : k = k' := by rw [← h1, ← h2, h]
  subst this
  exact ⟨rfl, by omega⟩

theorem ErfcBuf.reset_holds (b : ErfcBuf) (atoms : List Atom) (vpp : ℕ) (X : ℕ → ℕ → ℕ → ℝ) :
    (b.reset atoms vpp).Holds atoms vpp X := by
  refine ⟨rfl, fun i a ha => ⟨List.replicate (a.numNeighbors * vpp) (-1),
    by simp [ErfcBuf.reset, ha], fun k hk v hv => Or.inl ?_⟩⟩
  rw [List.getElem?_replicate, if_pos (pair_index_lt hk hv)]

theorem ErfcBuf.Holds.getf {b : ErfcBuf} {atoms : List Atom} {vpp : ℕ} {X : ℕ → ℕ → ℕ → ℝ}
    (h : b.Holds atoms vpp X) {i k v : ℕ} {a : Atom} (ha : atoms[i]? = some a)
    (hk : k < a.numNeighbors) (hv : v < vpp) :
    ∃ b', b.getf i k v (X i k v) = some (erfc (X i k v), b') ∧ b'.Holds atoms vpp X := by
  obtain ⟨row, hr, hh⟩ := h.row i a ha
  unfold ErfcBuf.getf
  rw [h.values]
  simp only [hr, Option.bind_eq_bind, Option.bind_some]
  rcases hh k hk v hv with e | e
  · rw [e]
    simp only [Option.bind_some, if_true]
    refine ⟨_, rfl, rfl, fun i' a' ha' => ?_⟩
    by_cases hi : i' = i
    · subst hi
      rw [ha] at ha'
      cases ha'
      refine ⟨row.set (k * vpp + v) (erfc (X i' k v)), ?_, fun k' hk' v' hv' => ?_⟩
      · rw [List.getElem?_set_self (List.getElem?_eq_some_iff.1 hr).1]
      · by_cases hj : k' * vpp + v' = k * vpp + v
        · obtain ⟨rfl, rfl⟩ := pair_index_inj hv' hv hj
          right
          rw [List.getElem?_set_self (List.getElem?_eq_some_iff.1 e).1]
        · rw [List.getElem?_set_ne (Ne.symm hj)]
          exact hh k' hk' v' hv'
    · obtain ⟨row', hr', hh'⟩ := h.row i' a' ha'
      exact ⟨row', by rw [List.getElem?_set_ne (Ne.symm hi)]; exact hr', hh'⟩
  · rw [e]
    simp only [Option.bind_some]
    rw [if_neg (erfc_ne _)]
    exact ⟨_, rfl, h⟩

end N2P2
