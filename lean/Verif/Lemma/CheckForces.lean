import Verif.Spec.CheckForces
import Verif.Lemma.Prediction
import Verif.Lemma.Dataset
import Verif.Lemma.ModeInvariance
import Verif.Lemma.Normalization
import Verif.Props.Mode

/-! Lemmas for nnp-checkf. -/

namespace N2P2

/-! ### Tables -/

theorem fillTable_acc (n : ℕ) (g : ℕ → ℝ → CheckEntry) : ∀ (l : List (ℕ × ℝ)) (t : ℕ → CheckEntry),
    (∀ e ∈ l, e.1 < n) → (l.map Prod.fst).Nodup → (∀ e ∈ l, t e.1 = 0) →
    l.foldlM (fun t e => if e.1 < n then some (Function.update t e.1 (g e.1 e.2)) else none) t =
      some (t + (l.map fun e => Pi.single e.1 (g e.1 e.2)).sum)
  | [], t, _, _, _ => by simp
  | e :: l, t, h1, h2, h3 => by
    rw [List.map_cons, List.nodup_cons] at h2
    rw [List.foldlM_cons, if_pos (h1 e List.mem_cons_self)]
    show List.foldlM _ (Function.update t e.1 (g e.1 e.2)) l = _
    rw [fillTable_acc n g l _ (fun x hx => h1 x (List.mem_cons_of_mem _ hx)) h2.2 (fun x hx => by
      have : x.1 ≠ e.1 := fun h => h2.1 (by rw [← h]; exact List.mem_map.2 ⟨x, hx, rfl⟩)
      rw [Function.update_of_ne this]
      exact h3 x (List.mem_cons_of_mem _ hx))]
    rw [List.map_cons, List.sum_cons, ← add_assoc]
    congr 2
    funext c
    by_cases h : c = e.1
    · subst h
      rw [Function.update_self, Pi.add_apply, h3 e List.mem_cons_self, Pi.single_eq_same, zero_add]
    · rw [Function.update_of_ne h, Pi.add_apply, Pi.single_eq_of_ne h, add_zero]

/-- The entry for copy `c` with energy `x`. -/
noncomputable def entryOf (c : ℕ) (x : ℝ) : CheckEntry := (x, c / 6, c % 3, numericSign c)

theorem fillTable_eq (n : ℕ) (l : List (ℕ × ℝ)) (h1 : ∀ e ∈ l, e.1 < n) (h2 : (l.map Prod.fst).Nodup) :
    fillTable n l = some ((l.map fun e => Pi.single e.1 (entryOf e.1 e.2)).sum) := by
  have := fillTable_acc n entryOf l 0 h1 h2 (fun _ _ => rfl)
  rw [zero_add] at this
  exact this

theorem sum_single_above (v : ℕ → CheckEntry) (c k : ℕ) (hk : k ≤ c) :
    (((List.range k).map fun c => (Pi.single c (v c) : ℕ → CheckEntry)).sum) c = 0 := by
  induction k with
  | zero => rfl
  | succ k ih =>
    rw [List.range_succ, List.map_append, List.sum_append, Pi.add_apply, List.map_singleton, List.sum_singleton,
      ih (by omega), Pi.single_eq_of_ne (by omega), add_zero]

theorem sum_single_range (v : ℕ → CheckEntry) (n : ℕ) {c : ℕ} (hc : c < n) :
    (((List.range n).map fun c => (Pi.single c (v c) : ℕ → CheckEntry)).sum) c = v c := by
  induction n with
  | zero => omega
  | succ n ih =>
    rw [List.range_succ, List.map_append, List.sum_append, Pi.add_apply, List.map_singleton, List.sum_singleton]
    by_cases h : c = n
    · subst h
      rw [Pi.single_eq_same]
      rw [sum_single_above v c c le_rfl, zero_add]
    · rw [Pi.single_eq_of_ne h, add_zero, ih (by omega)]

/-- The copies of process `p`. -/
def copyNumbers (total P p : ℕ) : List ℕ :=
  (List.range (numericPerProc total P p - (if p = 0 then 1 else 0))).map (numericCount total P p + ·)

theorem copyNumbers_flat (total P k : ℕ) :
    (List.range k).flatMap (copyNumbers total P) = List.range (numericCount total P k) := by
  induction k with
  | zero => rfl
  | succ k ih =>
    rw [List.range_succ, List.flatMap_append, ih, List.flatMap_singleton, numericCount, List.range_add]
    rfl

theorem copyNumbers_all {N P : ℕ} (hP : 0 < P) : numericCount (1 + 6 * N) P P = 6 * N := by
  have h1 := numericCount_eq (1 + 6 * N) P hP (by omega) P hP
  rw [sum_numericPerProc _ _ hP] at h1
  omega

theorem copyNumbers_lt {N P p c : ℕ} (hp : p < P) (h : c ∈ copyNumbers (1 + 6 * N) P p) : c < 6 * N := by
  have : c ∈ (List.range P).flatMap (copyNumbers (1 + 6 * N) P) :=
    List.mem_flatMap.2 ⟨p, List.mem_range.2 hp, h⟩
  rw [copyNumbers_flat, copyNumbers_all (by omega)] at this
  exact List.mem_range.1 this

theorem copyNumbers_nodup (total P p : ℕ) : (copyNumbers total P p).Nodup :=
  List.nodup_range.map fun _ _ h => Nat.add_left_cancel h

/-! ### Storing the energies -/

theorem store_step {t : ℕ → CheckEntry} {X : ℕ → ℝ} {c : ℕ} (ht : t c = entryOf c (X c)) {atoms : List Atom}
    (hc : c / 6 < atoms.length) :
    storeEnergy t atoms c = some (atoms.set (c / 6)
      (if c % 6 / 3 = 1 then
        { atoms[c / 6] with fRef := Function.update atoms[c / 6].fRef ⟨c % 3, Nat.mod_lt _ (by decide)⟩ (X c) }
      else { atoms[c / 6] with f := Function.update atoms[c / 6].f ⟨c % 3, Nat.mod_lt _ (by decide)⟩ (X c) })) := by
  unfold storeEnergy
  rw [ht]
  unfold entryOf
  dsimp only
  rw [List.getElem?_eq_getElem hc]
  show (if h : c % 3 < 3 then _ else _) = _
  rw [dif_pos (Nat.mod_lt _ (by decide))]
  by_cases h : c % 6 / 3 = 1
  · rw [if_pos h, if_pos (by unfold numericSign; rw [h]; norm_num)]
  · have h0 : c % 6 / 3 = 0 := by omega
    rw [if_neg h, if_neg (by unfold numericSign; rw [h0]; norm_num), if_pos (by unfold numericSign; rw [h0]; norm_num)]

theorem store_all {t : ℕ → CheckEntry} {X : ℕ → ℝ} {atoms : List Atom} (n : ℕ) (hn : n ≤ 6 * atoms.length)
    (ht : ∀ c < n, t c = entryOf c (X c)) :
    ∃ as, (List.range n).foldlM (storeEnergy t) atoms = some as ∧ as.length = atoms.length ∧
      ∀ i (a : Atom), as[i]? = some a → ∀ j : Fin 3, (6 * i + j < n → a.f j = X (6 * i + j)) ∧
        (6 * i + 3 + j < n → a.fRef j = X (6 * i + 3 + j)) := by
  induction n with
  | zero => exact ⟨atoms, rfl, rfl, fun i a _ j => ⟨fun h => absurd h (by omega), fun h => absurd h (by omega)⟩⟩
  | succ n ih =>
    obtain ⟨as, h1, h2, h3⟩ := ih (by omega) (fun c hc => ht c (by omega))
    have hl : n / 6 < as.length := by omega
    have hstep : (List.range (n + 1)).foldlM (storeEnergy t) atoms = storeEnergy t as n := by
      rw [List.range_succ, List.foldlM_append, h1]
      show ([n].foldlM (storeEnergy t) as) = _
      rw [List.foldlM_cons]
      exact bind_pure _
    refine ⟨_, hstep.trans (store_step (ht n (by omega)) hl), ?_, ?_⟩
    · rw [List.length_set, h2]
    · intro i a ha j
      rw [List.getElem?_set] at ha
      have hj := j.2
      by_cases hi : n / 6 = i
      · subst hi
        rw [if_pos rfl, if_pos hl] at ha
        have ha := Option.some.inj ha
        obtain ⟨k1, k2⟩ := h3 (n / 6) as[n / 6] (List.getElem?_eq_getElem hl) j
        by_cases hs : n % 6 / 3 = 1
        · rw [if_pos hs] at ha
          subst ha
          dsimp only
          refine ⟨fun h => k1 (by omega), fun h => ?_⟩
          by_cases hjn : (⟨n % 3, Nat.mod_lt _ (by decide)⟩ : Fin 3) = j
          · subst hjn
            rw [Function.update_self]
            congr 1
            show n = 6 * (n / 6) + 3 + n % 3
            omega
          · rw [Function.update_of_ne (Ne.symm hjn)]
            refine k2 ?_
            have : n % 3 ≠ j := fun e => hjn (Fin.ext e)
            omega
        · rw [if_neg hs] at ha
          subst ha
          dsimp only
          refine ⟨fun h => ?_, fun h => k2 (by omega)⟩
          by_cases hjn : (⟨n % 3, Nat.mod_lt _ (by decide)⟩ : Fin 3) = j
          · subst hjn
            rw [Function.update_self]
            congr 1
            show n = 6 * (n / 6) + n % 3
            omega
          · rw [Function.update_of_ne (Ne.symm hjn)]
            refine k1 ?_
            have : n % 3 ≠ j := fun e => hjn (Fin.ext e)
            omega
      · rw [if_neg hi] at ha
        obtain ⟨k1, k2⟩ := h3 i a ha j
        exact ⟨fun h => k1 (by omega), fun h => k2 (by omega)⟩

end N2P2
