import Verif.Spec.Distribution
import Verif.Lemma.NeighborRebuild

/-! Histograms as sums. -/

namespace N2P2

theorem pairKey_some {k i j : ℕ} (hi : i < k) (hj : j < k) : pairKey k i j = some (min i j, max i j) := if_pos ⟨hi, hj⟩

/-- One entry. -/
noncomputable def unitTable (e : ℕ × ℕ) (n : ℕ) (x : ℝ) : PairTable := fun e' n' => if e' = e ∧ n' = n then x else 0

theorem add_some (t : PairTable) {bins : ℕ} (e : ℕ × ℕ) {n : ℕ} (x : ℝ) (h : n < bins) :
    t.add bins e n x = some (t + unitTable e n x) := by
  unfold PairTable.add
  rw [if_pos h]
  congr 1
  funext e' n'
  show _ = t e' n' + unitTable e n x e' n'
  unfold unitTable
  by_cases he : e' = e
  · subst he
    rw [Function.update_self]
    by_cases hn : n' = n
    · subst hn
      rw [Function.update_self, if_pos ⟨rfl, rfl⟩]
    · rw [Function.update_of_ne hn, if_neg fun h => hn h.2, add_zero]
  · rw [Function.update_of_ne he, if_neg fun h => he h.1, add_zero]

theorem add_none (t : PairTable) {bins : ℕ} (e : ℕ × ℕ) {n : ℕ} (x : ℝ) (h : bins ≤ n) : t.add bins e n x = none :=
  if_neg (by omega)

theorem foldlM_adds {α M : Type} [AddCommMonoid M] {f : M → α → Option M} {F : α → M} :
    ∀ (l : List α), (∀ x ∈ l, ∀ t, f t x = some (t + F x)) → ∀ t, l.foldlM f t = some (t + (l.map F).sum)
  | [], _, t => by simp
  | x :: l, h, t => by
    rw [List.foldlM_cons, h x List.mem_cons_self]
    refine (foldlM_adds l (fun y hy => h y (List.mem_cons_of_mem _ hy)) _).trans ?_
    rw [List.map_cons, List.sum_cons, add_assoc]

theorem foldlM_stuck {α β : Type} {f : β → α → Option β} {x : α} :
    ∀ (l : List α), x ∈ l → (∀ t, f t x = none) → ∀ t, l.foldlM f t = none
  | y :: l, hx, h, t => by
    rw [List.foldlM_cons]
    rcases List.mem_cons.1 hx with rfl | hx
    · rw [h]
      rfl
    · cases f t y with
      | none => rfl
      | some t' => exact foldlM_stuck l hx h t'

/-- Sum over the pairs of a list. -/
def couplesSum {α M : Type} [AddCommMonoid M] (F : α → α → M) : List α → M
  | [] => 0
  | x :: l => (l.map (F x)).sum + couplesSum F l

theorem couplesSum_apply {α : Type} (F : α → α → PairTable) (l : List α) (e : ℕ × ℕ) (n : ℕ) :
    couplesSum F l e n = couplesSum (fun x y => F x y e n) l := by
  induction l with
  | nil => rfl
  | cons x l ih =>
    show (l.map (F x)).sum e n + couplesSum F l e n = _
    rw [ih]
    show _ = (l.map fun y => F x y e n).sum + _
    congr 1
    clear ih
    induction l with
    | nil => rfl
    | cons y l ih =>
      rw [List.map_cons, List.sum_cons, List.map_cons, List.sum_cons, ← ih]
      rfl

theorem sum_apply {α : Type} (F : α → PairTable) (l : List α) (e : ℕ × ℕ) (n : ℕ) :
    (l.map F).sum e n = (l.map fun x => F x e n).sum := by
  induction l with
  | nil => rfl
  | cons y l ih =>
    rw [List.map_cons, List.sum_cons, List.map_cons, List.sum_cons, ← ih]
    rfl

theorem sum_forall₂ {α β M : Type} [AddCommMonoid M] {R : α → β → Prop} {F : α → M} {G : β → M} {l : List α} {m : List β}
    (h : List.Forall₂ R l m) (hF : ∀ x a, R x a → F x = G a) : (l.map F).sum = (m.map G).sum := by
  induction h with
  | nil => rfl
  | cons h1 _ ih => rw [List.map_cons, List.sum_cons, List.map_cons, List.sum_cons, ih, hF _ _ h1]

theorem couplesSum_forall₂ {α β M : Type} [AddCommMonoid M] {R : α → β → Prop} {F : α → α → M} {G : β → β → M} {l : List α}
    {m : List β} (h : List.Forall₂ R l m) (hF : ∀ x y a b, R x a → R y b → F x y = G a b) : couplesSum F l = couplesSum G m := by
  induction h with
  | nil => rfl
  | cons h1 h2 ih =>
    unfold couplesSum
    rw [ih, sum_forall₂ h2 fun y b hy => hF _ _ _ _ h1 hy]

theorem couplesSum_congr {α M : Type} [AddCommMonoid M] {F G : α → α → M} {l : List α}
    (hF : ∀ x ∈ l, ∀ y ∈ l, F x y = G x y) : couplesSum F l = couplesSum G l := by
  induction l with
  | nil => rfl
  | cons x l ih =>
    unfold couplesSum
    rw [ih fun a ha b hb => hF a (List.mem_cons_of_mem _ ha) b (List.mem_cons_of_mem _ hb)]
    congr 2
    exact List.map_congr_left fun y hy => hF x List.mem_cons_self y (List.mem_cons_of_mem _ hy)

theorem couplesSum_ordered {α : Type} [DecidableEq α] (H : α → α → ℝ) : ∀ (l : List α), l.Nodup →
    couplesSum (fun x y => H x y + H y x) l = (l.map fun x => (l.map fun y => if x = y then 0 else H x y).sum).sum
  | [], _ => rfl
  | x :: l, hl => by
    have hx := (List.nodup_cons.1 hl).1
    show (l.map fun y => H x y + H y x).sum + couplesSum _ l = _
    rw [couplesSum_ordered H l (List.nodup_cons.1 hl).2, List.map_cons, List.sum_cons, List.map_cons, List.sum_cons, if_pos rfl,
      zero_add]
    have h1 : (l.map fun y => if x = y then 0 else H x y) = l.map fun y => H x y :=
      List.map_congr_left fun y hy => if_neg (by rintro rfl; exact hx hy)
    have h2 : (l.map fun y => ((x :: l).map fun z => if y = z then 0 else H y z).sum) =
        l.map fun y => H y x + (l.map fun z => if y = z then 0 else H y z).sum := by
      refine List.map_congr_left fun y hy => ?_
      rw [List.map_cons, List.sum_cons, if_neg (by rintro rfl; exact hx hy)]
    rw [h1, h2, List.sum_map_add, List.sum_map_add]
    ring

theorem sum_indicator {α : Type} (T : List α) (hT : T.Nodup) (P : α → Prop) [DecidablePred P] :
    (T.map fun x => if P x then (1 : ℝ) else 0).sum = ({x | x ∈ T ∧ P x}.ncard : ℝ) := by
  classical
  have h1 : {x | x ∈ T ∧ P x} = ((T.filter fun x => decide (P x)).toFinset : Set α) := by
    ext x
    simp
  rw [h1, Set.ncard_coe_finset, List.toFinset_card_of_nodup (hT.filter _)]
  clear h1 hT
  induction T with
  | nil => simp
  | cons x T ih =>
    rw [List.map_cons, List.sum_cons, ih, List.filter_cons]
    by_cases hx : P x
    · rw [if_pos hx, if_pos (by simpa using hx), List.length_cons]
      push_cast
      ring
    · rw [if_neg hx, if_neg (by simpa using hx), zero_add]

/-! ### Pairs of elements -/

theorem mem_elementPairs {k : ℕ} {e : ℕ × ℕ} : e ∈ elementPairs k ↔ e.1 ≤ e.2 ∧ e.2 < k := by
  obtain ⟨i, j⟩ := e
  unfold elementPairs
  rw [List.mem_flatMap]
  constructor
  · rintro ⟨a, ha, h⟩
    obtain ⟨b, hb, h⟩ := List.mem_map.1 h
    cases h
    rw [List.mem_range'_1] at hb
    have := List.mem_range.1 ha
    dsimp only
    omega
  · rintro ⟨h1, h2⟩
    dsimp only at h1 h2
    exact ⟨i, List.mem_range.2 (by omega), List.mem_map.2 ⟨j, List.mem_range'_1.2 (by omega), rfl⟩⟩

theorem nodup_elementPairs (k : ℕ) : (elementPairs k).Nodup := by
  unfold elementPairs
  rw [List.nodup_flatMap]
  refine ⟨fun i _ => (List.nodup_range' ..).map fun a b h => (Prod.mk.inj h).2, ?_⟩
  refine List.nodup_range.imp fun {a b} hab => ?_
  intro e h1 h2
  obtain ⟨x, -, rfl⟩ := List.mem_map.1 h1
  obtain ⟨y, -, h⟩ := List.mem_map.1 h2
  exact hab (Prod.mk.inj h).1.symm

theorem length_elementPairs (k : ℕ) : 2 * (elementPairs k).length = k * (k + 1) := by
  have key : ∀ n ≤ k, 2 * ((List.range n).flatMap fun i => (List.range' i (k - i)).map fun j => (i, j)).length + n * n =
      2 * n * k + n := by
    intro n
    induction n with
    | zero => intro _; simp
    | succ n ih =>
      intro hn
      have h1 := ih (by omega)
      rw [List.range_succ, List.flatMap_append, List.length_append, List.flatMap_singleton, List.length_map, List.length_range']
      obtain ⟨d, rfl⟩ : ∃ d, k = n + d := ⟨k - n, by omega⟩
      rw [Nat.add_sub_cancel_left]
      nlinarith
  have := key k le_rfl
  unfold elementPairs
  nlinarith

end N2P2
