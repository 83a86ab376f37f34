import Verif.Model.Units
import Mathlib.Logic.Function.Iterate
import Mathlib.Tactic.FieldSimp
import Mathlib.Tactic.Ring
import Mathlib.Tactic.Linarith

namespace N2P2

theorem onPrefix_getElem? {α : Type} (n : Nat) (g : α → α) (l : List α) (i : Nat) :
    (onPrefix n g l)[i]? = l[i]?.map (fun x => if i < n then g x else x) := by
  unfold onPrefix
  rw [List.getElem?_append, List.length_map, List.length_take]
  by_cases h : i < n
  · by_cases h2 : i < l.length
    · rw [if_pos (by omega), List.getElem?_map, List.getElem?_take, if_pos h]
      simp [h]
    · rw [if_neg (by omega), List.getElem?_drop]
      rw [List.getElem?_eq_none (by omega), List.getElem?_eq_none (by omega)]
      rfl
  · by_cases h2 : i < l.length
    · rw [if_neg (by omega), List.getElem?_drop]
      have : n + (i - min n l.length) = i := by omega
      rw [this]; simp [h]
    · rw [if_neg (by omega), List.getElem?_drop]
      rw [List.getElem?_eq_none (by omega), List.getElem?_eq_none (by omega)]
      rfl

theorem onPrefix_length {α : Type} (n : Nat) (g : α → α) (l : List α) :
    (onPrefix n g l).length = l.length := by
  unfold onPrefix
  simp only [List.length_append, List.length_map, List.length_take, List.length_drop]
  omega

theorem foldl_map_iterate {α β : Type} (h : α → α) (ns : List β) (l : List α) :
    ns.foldl (fun g _ => g.map h) l = l.map (h^[ns.length]) := by
  induction ns generalizing l with
  | nil => simp
  | cons n ns ih => simp [ih, Function.iterate_succ]

theorem div_smul_id {c : ℝ} (hc : c ≠ 0) (v : Vec3) : Vec3.div (c • v) c = v := by
  unfold Vec3.div
  rw [smul_smul]
  have : 1 / c * c = 1 := by field_simp
  rw [this, one_smul]

theorem smul_div_id {c : ℝ} (hc : c ≠ 0) (v : Vec3) : c • Vec3.div v c = v := by
  unfold Vec3.div
  rw [smul_smul]
  have : c * (1 / c) = 1 := by field_simp
  rw [this, one_smul]

/-- Applying the inverse operation the same number of times (prefix and whole list). -/
theorem undo_dGdr {α : Type} (A B : α → α) (h : ∀ x, A (B x) = x) (n k : Nat) (l : List α) :
    (onPrefix n A ((onPrefix n B l).map (B^[k]))).map (A^[k]) = l := by
  have hk : ∀ k x, A^[k] (B^[k] x) = x := fun k => Function.LeftInverse.iterate h k
  apply List.ext_getElem?
  intro i
  rw [List.getElem?_map, onPrefix_getElem?, List.getElem?_map, onPrefix_getElem?]
  cases l[i]? with
  | none => rfl
  | some x =>
    simp only [Option.map_some]
    split
    · have : A^[k] (A (B^[k] (B x))) = A^[k + 1] (B^[k + 1] x) := by
        rw [Function.iterate_succ_apply, Function.iterate_succ_apply]
      rw [this, hk]
    · rw [hk]

theorem undo_prefix {α : Type} (A B : α → α) (h : ∀ x, A (B x) = x) (n : Nat) (l : List α) :
    onPrefix n A (onPrefix n B l) = l := by
  apply List.ext_getElem?
  intro i
  rw [onPrefix_getElem?, onPrefix_getElem?]
  cases l[i]? with
  | none => rfl
  | some x => simp only [Option.map_some]; split <;> simp [h]

theorem undo_prefix_modify {α : Type} (A B C D : α → α) (h : ∀ x, A (B x) = x)
    (h' : ∀ x, C (D x) = x) (n : Nat) (l : List α) :
    (onPrefix n A ((onPrefix n B l).modify n D)).modify n C = l := by
  apply List.ext_getElem?
  intro i
  rw [List.getElem?_modify, onPrefix_getElem?, List.getElem?_modify, onPrefix_getElem?]
  cases l[i]? with
  | none => simp
  | some x =>
    by_cases h1 : n = i
    · subst h1; simp [h']
    · by_cases h2 : i < n <;> simp [h1, h2, h]

theorem mapM_inverse {α : Type} {f g : α → Option α} (hfg : ∀ a b, f a = some b → g b = some a) :
    ∀ (l l' : List α), l.mapM f = some l' → l'.mapM g = some l := by
  intro l
  induction l with
  | nil => intro l' h; simp at h; subst h; rfl
  | cons a as ih =>
    intro l' h
    rw [List.mapM_cons] at h
    cases ha : f a with
    | none => rw [ha] at h; simp at h
    | some b =>
      rw [ha] at h
      cases has : as.mapM f with
      | none => rw [has] at h; simp at h
      | some bs =>
        rw [has] at h
        have hl : b :: bs = l' := by simpa using h
        subst hl
        rw [List.mapM_cons, hfg a b ha, ih bs has]
        rfl

theorem Atom.normalize_physical (a b : Atom) (cE cL cQ : ℝ) (hE : cE ≠ 0) (hL : cL ≠ 0)
    (hQ : cQ ≠ 0) (h : a.toNormalizedUnits cE cL cQ = some b) :
    b.toPhysicalUnits cE cL cQ = some a := by
  have hEL : cE / cL ≠ 0 := div_ne_zero hE hL
  have hEQ : cE / cQ ≠ 0 := div_ne_zero hE hQ
  unfold Atom.toNormalizedUnits at h
  split at h
  case isFalse => cases h
  case isTrue hd =>
    injection h with h
    unfold Atom.toPhysicalUnits
    have hd' : b.derivativesAllocated = true := by
      rw [← hd, ← h]
      unfold Atom.derivativesAllocated
      simp only
      cases a.hasSymmetryFunctionDerivatives <;> cases a.useChargeNeuron <;>
        cases a.hasNeighborList <;>
        simp [onPrefix_length, List.length_modify, foldl_map_iterate]
    rw [if_pos hd']
    subst h
    rcases a with ⟨hNL, sorted, hSF, hSFD, uCN, index, iS, tag, el, nN, nU, nSF, en, dE, chi, ch,
      chR, r, f, fE, fR, pE, nUq, nPE, nSFD, cS, G, dEdG, dQdG, dChidG, dGdr, dQdr, dAdrQ, nb, nc⟩
    simp only [Option.some.injEq, Atom.mk.injEq, true_and, and_true]
    refine ⟨by field_simp, by field_simp, by field_simp, div_smul_id hL r, div_smul_id hEL f,
      div_smul_id hEL fR, ?_, ?_, ?_⟩
    · cases hSFD
      · rfl
      · cases uCN
        · exact undo_prefix _ _ (fun x => by field_simp) _ _
        · exact undo_prefix_modify _ _ _ _ (fun x => by field_simp) (fun x => by field_simp) _ _
    · cases hSFD
      · simp
      · cases hNL
        · simp only [Bool.false_and, Bool.false_eq_true, if_false, if_true]
          exact undo_prefix _ _ (smul_div_id hL) _ _
        · simp only [Bool.true_and, if_true, foldl_map_iterate, List.length_map]
          exact undo_dGdr _ _ (smul_div_id hL) _ _ _
    · cases hNL
      · simp
      · simp only [if_true, List.map_map]
        conv_rhs => rw [← List.map_id nb]
        apply List.map_congr_left
        intro n _
        simp only [Function.comp_apply, id_eq, div_smul_id hL]
        have : n.d * cL / cL = n.d := by field_simp
        rw [this]

theorem Atom.physical_normalize (a b : Atom) (cE cL cQ : ℝ) (hE : cE ≠ 0) (hL : cL ≠ 0)
    (hQ : cQ ≠ 0) (h : a.toPhysicalUnits cE cL cQ = some b) :
    b.toNormalizedUnits cE cL cQ = some a := by
  have hEL : cE / cL ≠ 0 := div_ne_zero hE hL
  have hEQ : cE / cQ ≠ 0 := div_ne_zero hE hQ
  unfold Atom.toPhysicalUnits at h
  split at h
  case isFalse => cases h
  case isTrue hd =>
    injection h with h
    unfold Atom.toNormalizedUnits
    have hd' : b.derivativesAllocated = true := by
      rw [← hd, ← h]
      unfold Atom.derivativesAllocated
      simp only
      cases a.hasSymmetryFunctionDerivatives <;> cases a.useChargeNeuron <;>
        cases a.hasNeighborList <;>
        simp [onPrefix_length, List.length_modify, foldl_map_iterate]
    rw [if_pos hd']
    subst h
    rcases a with ⟨hNL, sorted, hSF, hSFD, uCN, index, iS, tag, el, nN, nU, nSF, en, dE, chi, ch,
      chR, r, f, fE, fR, pE, nUq, nPE, nSFD, cS, G, dEdG, dQdG, dChidG, dGdr, dQdr, dAdrQ, nb, nc⟩
    simp only [Option.some.injEq, Atom.mk.injEq, true_and, and_true]
    refine ⟨by field_simp, by field_simp, by field_simp, smul_div_id hL r, smul_div_id hEL f,
      smul_div_id hEL fR, ?_, ?_, ?_⟩
    · cases hSFD
      · rfl
      · cases uCN
        · exact undo_prefix _ _ (fun x => by field_simp) _ _
        · exact undo_prefix_modify _ _ _ _ (fun x => by field_simp) (fun x => by field_simp) _ _
    · cases hSFD
      · simp
      · cases hNL
        · simp only [Bool.false_and, Bool.false_eq_true, if_false, if_true]
          exact undo_prefix _ _ (div_smul_id hL) _ _
        · simp only [Bool.true_and, if_true, foldl_map_iterate, List.length_map]
          exact undo_dGdr _ _ (div_smul_id hL) _ _ _
    · cases hNL
      · simp
      · simp only [if_true, List.map_map]
        conv_rhs => rw [← List.map_id nb]
        apply List.map_congr_left
        intro n _
        simp only [Function.comp_apply, id_eq, smul_div_id hL]
        have : n.d / cL * cL = n.d := by field_simp
        rw [this]

theorem foldl_offset_add (l : List (Nat × ℝ)) (e : ℝ) :
    l.foldl (fun e p => e + (p.1 : ℝ) * p.2) e = e + (l.map (fun p => (p.1 : ℝ) * p.2)).sum := by
  induction l generalizing e with
  | nil => simp
  | cons p l ih => simp only [List.foldl_cons, ih, List.map_cons, List.sum_cons]; ring

theorem foldl_offset_sub (l : List (Nat × ℝ)) (e : ℝ) :
    l.foldl (fun e p => e - (p.1 : ℝ) * p.2) e = e - (l.map (fun p => (p.1 : ℝ) * p.2)).sum := by
  induction l generalizing e with
  | nil => simp
  | cons p l ih => simp only [List.foldl_cons, ih, List.map_cons, List.sum_cons]; ring

end N2P2
