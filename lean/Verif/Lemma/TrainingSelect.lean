import Verif.Spec.Training
import Mathlib.Data.List.Count
import Mathlib.Data.List.Range
import Mathlib.Tactic.Ring
import Mathlib.Tactic.Linarith

/-! Lemmas on the epoch schedule and the choice of update candidates. -/

namespace N2P2

namespace Training

/-! ### Epoch schedule -/

theorem foldl_append_count (f : ℕ → List ℕ) (l : List ℕ) (acc : List ℕ) (x : ℕ) :
    (l.foldl (fun s i => s ++ f i) acc).count x = acc.count x + (l.map fun i => (f i).count x).sum := by
  induction l generalizing acc with
  | nil => simp
  | cons a l ih => rw [List.foldl_cons, ih]; simp [List.count_append, add_assoc]

theorem sum_replicate_count (g : ℕ → ℕ) (n x : ℕ) :
    ((List.range n).map fun i => (List.replicate (g i) i).count x).sum = if x < n then g x else 0 := by
  induction n with
  | zero => simp
  | succ n ih =>
    rw [List.range_succ, List.map_append, List.sum_append, ih]
    simp only [List.map_cons, List.map_nil, List.sum_cons, List.sum_nil, add_zero,
      List.count_replicate]
    by_cases h : x < n
    · have h1 : ¬ n = x := by omega
      have h2 : x < n + 1 := by omega
      simp [h, h1, h2]
    · by_cases h1 : x = n
      · subst h1; simp
      · have h2 : ¬ x < n + 1 := by omega
        simp [h, h2, Ne.symm h1]

theorem count_buildSchedule (nu : List ℕ) (x : ℕ) : (buildSchedule nu).count x = nu.getD x 0 := by
  unfold buildSchedule
  rw [foldl_append_count, List.map_reverse, List.sum_reverse, sum_replicate_count]
  simp only [List.count_nil, zero_add]
  by_cases h : x < nu.length
  · rw [if_pos h]
  · rw [if_neg h, List.getD_eq_getElem?_getD, List.getElem?_eq_none (by omega)]; rfl

theorem foldl_counts (sched : List ℕ) (c : ℕ → ℕ) (x : ℕ) :
    sched.foldl (fun count i => Function.update count i (count i + 1)) c x = c x + sched.count x := by
  induction sched generalizing c with
  | nil => simp
  | cons a l ih =>
    rw [List.foldl_cons, ih, List.count_cons]
    by_cases h : a = x
    · subst h; simp; omega
    · have : ¬ x = a := fun e => h e.symm
      simp [this, h]

/-! ### Cyclic positions -/

theorem cyclic_lt {size : ℕ} (h : 0 < size) (pos j : ℕ) : cyclic size pos j < size :=
  Nat.mod_lt _ h

theorem cyclic_zero {size : ℕ} (h : 0 < size) (pos : ℕ) :
    cyclic size pos 0 = if size ≤ pos then 0 else pos := by
  unfold cyclic
  split_ifs with h1
  · simp
  · rw [add_zero, Nat.mod_eq_of_lt (by omega)]

theorem cyclic_shift {size : ℕ} (h : 0 < size) (pos j : ℕ) :
    cyclic size ((if size ≤ pos then 0 else pos) + 1) j = cyclic size pos (j + 1) := by
  unfold cyclic
  generalize hp : (if size ≤ pos then 0 else pos) = p
  have hlt : p < size := by rw [← hp]; split_ifs <;> omega
  by_cases h1 : size ≤ p + 1
  · rw [if_pos h1]
    have e : p + (j + 1) = j + size := by omega
    rw [e, Nat.add_mod_right, zero_add]
  · rw [if_neg h1]; congr 1; omega

theorem cyclic_add {size : ℕ} (h : 0 < size) (pos b : ℕ) :
    ∃ pos', ∀ j, cyclic size pos' j = cyclic size pos (b + j) := by
  induction b with
  | zero => exact ⟨pos, fun j => by rw [zero_add]⟩
  | succ b ih =>
    obtain ⟨p, hp⟩ := ih
    refine ⟨(if size ≤ p then 0 else p) + 1, fun j => ?_⟩
    rw [cyclic_shift h, hp]
    congr 1; omega

/-! ### One choice -/

theorem choose_plain {mode : SelectionMode} (hm : mode ≠ .threshold) {size : ℕ} (h : 0 < size)
    (rmse : ℕ → ℝ) (thr : ℝ) (trials pos : ℕ) :
    choose mode size rmse thr trials pos
      = .ok ⟨cyclic size pos 0, cyclic size pos 0, 0, cyclic size pos 0 + 1⟩ := by
  have h0 := cyclic_zero h pos
  have h2 : ¬ size ≤ (if size ≤ pos then 0 else pos) := by split_ifs <;> omega
  unfold choose
  simp only [if_neg hm, trialLoop, if_neg h2]
  simp [hm, h0]

theorem choose_empty (mode : SelectionMode) (rmse : ℕ → ℝ) (thr : ℝ) (trials pos : ℕ)
    (h : mode = .threshold → 0 < trials) :
    choose mode 0 rmse thr trials pos = .error .outOfRange := by
  unfold choose
  by_cases hm : mode = .threshold
  · obtain ⟨n, rfl⟩ := Nat.exists_eq_succ_of_ne_zero (h hm).ne'
    simp [hm, trialLoop]
  · simp [hm, trialLoop]

theorem trialLoop_none {size : ℕ} (h : 0 < size) (rmse : ℕ → ℝ) (thr : ℝ) (n : ℕ) (t : Trial)
    (hall : ∀ j < n, rmse (cyclic size t.pos j) ≤ thr) :
    ∃ t', trialLoop .threshold size rmse thr n t = .ok t' ∧
      t'.il = t.il + n ∧
      (t'.used = if n = 0 then t.used else some (cyclic size t.pos (n - 1))) ∧
      t.best ≤ t'.best ∧ (∀ j < n, rmse (cyclic size t.pos j) ≤ t'.best) ∧
      ((t'.best = t.best ∧ t'.indexBest = t.indexBest) ∨
        (t.best < t'.best ∧ ∃ j < n, t'.indexBest = cyclic size t.pos j ∧
          rmse t'.indexBest = t'.best)) := by
  induction n generalizing t with
  | zero => exact ⟨t, rfl, by simp⟩
  | succ n ih =>
    have h2 : ¬ size ≤ (if size ≤ t.pos then 0 else t.pos) := by split_ifs <;> omega
    have h3 : ¬ thr < rmse (if size ≤ t.pos then 0 else t.pos) := by
      rw [← cyclic_zero h]; exact not_lt.mpr (hall 0 (by omega))
    simp only [trialLoop, if_neg h2, if_true, if_neg h3]
    generalize hp : (if size ≤ t.pos then 0 else t.pos) = p
    have hc0 : cyclic size t.pos 0 = p := by rw [cyclic_zero h, hp]
    have hsh : ∀ j, cyclic size (p + 1) j = cyclic size t.pos (j + 1) := by
      intro j; rw [← hp, cyclic_shift h]
    obtain ⟨t', e, h4, h5, h6, h7, h8⟩ := ih
      { pos := p + 1, used := some p, current := p, il := t.il + 1
        indexBest := if t.best < rmse p then p else t.indexBest
        best := if t.best < rmse p then rmse p else t.best }
      (fun j hj => by
        change rmse (cyclic size (p + 1) j) ≤ thr
        rw [hsh]; exact hall _ (by omega))
    simp only at h4 h5 h6 h7 h8
    refine ⟨t', e, by omega, ?_, ?_, ?_, ?_⟩
    · rw [h5]
      by_cases hn : n = 0
      · subst hn; simp [hc0]
      · rw [if_neg hn, if_neg (by omega), hsh]
        congr 2; omega
    · refine le_trans ?_ h6
      split_ifs with hb
      · exact hb.le
      · exact le_rfl
    · intro j hj
      cases j with
      | zero =>
        rw [hc0]
        refine le_trans ?_ h6
        split_ifs with hb
        · exact le_rfl
        · exact not_lt.mp hb
      | succ j => rw [← hsh]; exact h7 j (by omega)
    · rcases h8 with ⟨h9, h10⟩ | ⟨h9, j, hj, h10, h11⟩
      · by_cases hb : t.best < rmse p
        · rw [if_pos hb] at h9 h10
          exact Or.inr ⟨by rw [h9]; exact hb, 0, by omega, by rw [h10, hc0], by rw [h10, h9]⟩
        · rw [if_neg hb] at h9 h10
          exact Or.inl ⟨h9, h10⟩
      · refine Or.inr ⟨lt_of_le_of_lt ?_ h9, j + 1, by omega, by rw [h10, hsh], h11⟩
        split_ifs with hb
        · exact hb.le
        · exact le_rfl

theorem trialLoop_found {size : ℕ} (h : 0 < size) (rmse : ℕ → ℝ) (thr : ℝ) (n m : ℕ) (t : Trial)
    (hm : m < n) (hbefore : ∀ j < m, rmse (cyclic size t.pos j) ≤ thr)
    (hfound : thr < rmse (cyclic size t.pos m)) :
    ∃ t', trialLoop .threshold size rmse thr n t = .ok t' ∧ t'.il = t.il + m ∧
      t'.used = some (cyclic size t.pos m) ∧ t'.current = cyclic size t.pos m ∧
      t'.pos = cyclic size t.pos m + 1 := by
  induction m generalizing n t with
  | zero =>
    obtain ⟨n, rfl⟩ := Nat.exists_eq_succ_of_ne_zero (by omega : n ≠ 0)
    have h2 : ¬ size ≤ (if size ≤ t.pos then 0 else t.pos) := by split_ifs <;> omega
    have h3 := cyclic_zero h t.pos
    rw [h3] at hfound
    simp only [trialLoop, if_neg h2, if_true, if_pos hfound, h3]
    exact ⟨_, rfl, rfl, rfl, rfl, rfl⟩
  | succ m ih =>
    obtain ⟨n, rfl⟩ := Nat.exists_eq_succ_of_ne_zero (by omega : n ≠ 0)
    have h2 : ¬ size ≤ (if size ≤ t.pos then 0 else t.pos) := by split_ifs <;> omega
    have h3 : ¬ thr < rmse (if size ≤ t.pos then 0 else t.pos) := by
      rw [← cyclic_zero h]; exact not_lt.mpr (hbefore 0 (by omega))
    simp only [trialLoop, if_neg h2, if_true, if_neg h3]
    generalize hp : (if size ≤ t.pos then 0 else t.pos) = p
    have hsh : ∀ j, cyclic size (p + 1) j = cyclic size t.pos (j + 1) := by
      intro j; rw [← hp, cyclic_shift h]
    obtain ⟨t', e, h4, h5, h6, h7⟩ := ih n
      { pos := p + 1, used := some p, current := p, il := t.il + 1
        indexBest := if t.best < rmse p then p else t.indexBest
        best := if t.best < rmse p then rmse p else t.best } (by omega)
      (fun j hj => by
        change rmse (cyclic size (p + 1) j) ≤ thr
        rw [hsh]; exact hbefore _ (by omega))
      (by
        change thr < rmse (cyclic size (p + 1) m)
        rw [hsh]; exact hfound)
    simp only [hsh] at h4 h5 h6 h7
    exact ⟨t', e, by omega, h5, h6, h7⟩

/-! ### Batches and epochs -/

theorem chooseBatch_eq {size : ℕ} (h : 0 < size) (b pos : ℕ) :
    ∃ pos', chooseBatch size b pos = .ok ((List.range b).map (cyclic size pos), pos') ∧
      ∀ j, cyclic size pos' j = cyclic size pos (b + j) := by
  induction b generalizing pos with
  | zero => exact ⟨pos, rfl, fun j => by rw [zero_add]⟩
  | succ b ih =>
    have h0 := cyclic_zero h pos
    obtain ⟨pos', e, hs⟩ := ih (cyclic size pos 0 + 1)
    have hsh : ∀ j, cyclic size (cyclic size pos 0 + 1) j = cyclic size pos (j + 1) := by
      intro j; rw [h0, cyclic_shift h]
    refine ⟨pos', ?_, fun j => ?_⟩
    · simp only [chooseBatch, choose_plain (by decide : SelectionMode.random ≠ .threshold) h, e]
      congr 2
      rw [List.range_succ_eq_map, List.map_cons, List.map_map]
      congr 1
      exact List.map_congr_left fun j _ => hsh j
    · rw [hs, hsh]; congr 1; omega

theorem chooseEpochFrom_eq {α : Type} {cands : List α} (h : cands ≠ []) (batches : List ℕ)
    (pos : ℕ) : chooseEpochFrom cands batches pos
      = .ok ((List.range batches.sum).filterMap fun j => cands[cyclic cands.length pos j]?) := by
  have hl : 0 < cands.length := List.length_pos_iff.mpr h
  induction batches generalizing pos with
  | nil => simp [chooseEpochFrom]
  | cons b rest ih =>
    obtain ⟨pos', e, hs⟩ := chooseBatch_eq hl b pos
    simp only [chooseEpochFrom, e, ih]
    congr 1
    rw [List.sum_cons, List.range_add, List.filterMap_append, List.filterMap_map,
      List.filterMap_map]
    congr 1
    exact List.filterMap_congr fun j _ => by simp [hs]

theorem range_filterMap_getElem? {α : Type} (l : List α) (n : ℕ) :
    (List.range n).filterMap (fun j => l[j]?) = l.take n := by
  induction n with
  | zero => simp
  | succ n ih =>
    rw [List.range_succ, List.filterMap_append, ih, List.take_add_one]
    cases h : l[n]? <;> simp [h]

theorem length_filterMap_some {α β : Type} (f : α → Option β) (l : List α)
    (h : ∀ x ∈ l, (f x).isSome) : (l.filterMap f).length = l.length := by
  induction l with
  | nil => rfl
  | cons a l ih =>
    have h1 := h a (by simp)
    obtain ⟨b, hb⟩ := Option.isSome_iff_exists.mp h1
    simp [hb, ih fun x hx => h x (by simp [hx])]

/-- The `pass`-th pass over the candidates goes through the list from the front. -/
theorem epoch_pass {α : Type} {cands : List α} (h : cands ≠ []) (m pass : ℕ) :
    ((((List.range m).filterMap fun j => cands[cyclic cands.length 0 j]?).drop
      (pass * cands.length)).take cands.length) = cands.take (m - pass * cands.length) := by
  have hl : 0 < cands.length := List.length_pos_iff.mpr h
  have hc : ∀ j, cyclic cands.length 0 j = j % cands.length := by
    intro j; unfold cyclic; split_ifs <;> simp
  simp only [hc]
  have hlen : ∀ k, ((List.range k).filterMap fun j => cands[j % cands.length]?).length = k := by
    intro k
    rw [length_filterMap_some _ _ (fun x _ => by simp [Nat.mod_lt _ hl]), List.length_range]
  by_cases hm : m ≤ pass * cands.length
  · rw [List.drop_eq_nil_of_le (by rw [hlen]; exact hm)]
    have : m - pass * cands.length = 0 := by omega
    simp [this]
  · obtain ⟨r, rfl⟩ : ∃ r, m = pass * cands.length + r := ⟨m - pass * cands.length, by omega⟩
    rw [List.range_add, List.filterMap_append, List.drop_append, hlen, Nat.sub_self,
      List.drop_zero, List.drop_eq_nil_of_le (by rw [hlen]), List.nil_append, List.filterMap_map]
    have e : ∀ j, ((fun j => cands[j % cands.length]?) ∘ fun x => pass * cands.length + x) j
        = cands[j % cands.length]? := by
      intro j
      simp only [Function.comp]
      rw [Nat.mul_comm, Nat.mul_add_mod]
    rw [List.filterMap_congr fun j _ => e j, Nat.add_sub_cancel_left]
    -- The first `cands.length` entries of the rest.
    by_cases hr : r ≤ cands.length
    · rw [List.take_of_length_le (by rw [hlen]; exact hr), ← range_filterMap_getElem?]
      refine List.filterMap_congr fun j hj => ?_
      rw [List.mem_range] at hj
      rw [Nat.mod_eq_of_lt (by omega)]
    · obtain ⟨q, rfl⟩ : ∃ q, r = cands.length + q := ⟨r - cands.length, by omega⟩
      rw [List.range_add, List.filterMap_append,
        List.take_append_of_le_length (by rw [hlen]), List.take_of_length_le (by rw [hlen]),
        List.take_of_length_le (by omega)]
      conv_rhs => rw [← List.take_length (l := cands), ← range_filterMap_getElem?]
      refine List.filterMap_congr fun j hj => ?_
      rw [List.mem_range] at hj
      rw [Nat.mod_eq_of_lt hj]

/-! ### Grouped candidates -/

/-- Relation between picks made so far and the counters: the sub-candidates used of each candidate
are 0, 1, 2, ... cyclically, and the counter continues there. -/
def GroupInv (nsub : ℕ → ℕ) (picks : List (ℕ × ℕ)) (sub : ℕ → ℕ) : Prop :=
  ∀ c, 0 < nsub c →
    ∃ m, ((picks.filter fun x => decide (x.1 = c)).map Prod.snd
      = (List.range m).map (· % nsub c)) ∧ ∀ j, cyclic (nsub c) (sub c) j = (m + j) % nsub c

theorem groupStep_inv {size : ℕ} {nsub gs : ℕ → ℕ} {g g' : Group} {x : ℕ × ℕ}
    {picks : List (ℕ × ℕ)} (hi : GroupInv nsub picks g.sub)
    (h : groupStep size nsub gs g = .ok (x, g')) :
    GroupInv nsub (picks ++ [x]) g'.sub ∧ x.1 < size ∧ x.2 < nsub x.1 := by
  unfold groupStep at h
  generalize hp : (if size ≤ g.pos then 0 else g.pos) = p at h
  simp only at h
  by_cases h1 : size ≤ p
  · rw [if_pos h1] at h; cases h
  rw [if_neg h1] at h
  by_cases h2 : nsub p ≤ (if nsub p ≤ g.sub p then 0 else g.sub p)
  · rw [if_pos h2] at h; cases h
  rw [if_neg h2] at h
  obtain ⟨hx, hg⟩ := Prod.mk.inj (Except.ok.inj h)
  subst hx
  have hsub : g'.sub = Function.update g.sub p
      ((if nsub p ≤ g.sub p then 0 else g.sub p) + 1) := by rw [← hg]
  rw [hsub]
  have hpos : 0 < nsub p := by omega
  refine ⟨fun c hc => ?_, not_le.mp h1, not_le.mp h2⟩
  obtain ⟨m, hm, hs⟩ := hi c hc
  by_cases hcp : p = c
  · subst hcp
    refine ⟨m + 1, ?_, fun j => ?_⟩
    · rw [List.filter_append, List.map_append, hm, List.range_succ, List.map_append]
      have h0 := hs 0
      rw [cyclic_zero hpos] at h0
      simp only [List.filter_cons, decide_true, if_true, List.filter_nil, List.map_cons,
        List.map_nil]
      rw [h0, add_zero]
    · rw [Function.update_self, cyclic_shift hpos, hs]
      congr 1; omega
  · refine ⟨m, ?_, fun j => ?_⟩
    · rw [List.filter_append, List.map_append, hm]
      simp [hcp]
    · rw [Function.update_of_ne (fun e => hcp e.symm)]
      exact hs j

theorem groupBatch_inv {size : ℕ} {nsub gs : ℕ → ℕ} (b : ℕ) {g g' : Group} {l : List (ℕ × ℕ)}
    {picks : List (ℕ × ℕ)} (hi : GroupInv nsub picks g.sub)
    (h : groupBatch size nsub gs b g = .ok (l, g')) :
    GroupInv nsub (picks ++ l) g'.sub ∧ l.length = b ∧ ∀ x ∈ l, x.1 < size ∧ x.2 < nsub x.1 := by
  induction b generalizing g l picks with
  | zero => cases h; simpa using hi
  | succ b ih =>
    simp only [groupBatch] at h
    split at h
    · cases h
    · rename_i x g1 h1
      split at h
      · cases h
      · rename_i l2 g2 h2
        cases h
        obtain ⟨h3, h4⟩ := groupStep_inv hi h1
        obtain ⟨h5, h6, h7⟩ := ih h3 h2
        refine ⟨by simpa using h5, by simp [h6], ?_⟩
        intro y hy
        rcases List.mem_cons.mp hy with rfl | hy
        · exact h4
        · exact h7 y hy

theorem groupAdvance_sub (g : Group) : (groupAdvance g).sub = g.sub := by
  unfold groupAdvance; split_ifs <;> rfl

theorem groupEpochFrom_inv {size : ℕ} {nsub gs : ℕ → ℕ} (batches : List ℕ) {g g' : Group}
    {l : List (ℕ × ℕ)} {picks : List (ℕ × ℕ)} (hi : GroupInv nsub picks g.sub)
    (h : groupEpochFrom size nsub gs batches g = .ok (l, g')) :
    GroupInv nsub (picks ++ l) g'.sub ∧ l.length = batches.sum ∧
      ∀ x ∈ l, x.1 < size ∧ x.2 < nsub x.1 := by
  induction batches generalizing g l picks with
  | nil => cases h; simpa using hi
  | cons b rest ih =>
    simp only [groupEpochFrom] at h
    split at h
    · cases h
    · rename_i l1 g1 h1
      split at h
      · cases h
      · rename_i l2 g2 h2
        cases h
        obtain ⟨h3, h4, h5⟩ := groupBatch_inv b hi h1
        rw [← groupAdvance_sub] at h3
        obtain ⟨h6, h7, h8⟩ := ih h3 h2
        refine ⟨by simpa using h6, by simp [h4, h7], fun x hx => ?_⟩
        rcases List.mem_append.mp hx with hx | hx
        · exact h5 x hx
        · exact h8 x hx

theorem groupStep_ok {size : ℕ} {nsub : ℕ → ℕ} (gs : ℕ → ℕ) (g : Group) (h : 0 < size)
    (hn : ∀ c < size, 0 < nsub c) : ∃ r, groupStep size nsub gs g = .ok r := by
  unfold groupStep
  generalize hp : (if size ≤ g.pos then 0 else g.pos) = p
  have h1 : p < size := by rw [← hp]; split_ifs <;> omega
  have h2 := hn p h1
  simp only [if_neg (not_le.mpr h1)]
  rw [if_neg (by split_ifs <;> omega)]
  exact ⟨_, rfl⟩

theorem groupBatch_ok {size : ℕ} {nsub : ℕ → ℕ} (gs : ℕ → ℕ) (b : ℕ) (g : Group) (h : 0 < size)
    (hn : ∀ c < size, 0 < nsub c) : ∃ r, groupBatch size nsub gs b g = .ok r := by
  induction b generalizing g with
  | zero => exact ⟨_, rfl⟩
  | succ b ih =>
    obtain ⟨⟨x, g1⟩, h1⟩ := groupStep_ok gs g h hn
    obtain ⟨⟨l, g2⟩, h2⟩ := ih g1
    exact ⟨(x :: l, g2), by simp only [groupBatch, h1, h2]⟩

theorem groupEpochFrom_ok {size : ℕ} {nsub : ℕ → ℕ} (gs : ℕ → ℕ) (batches : List ℕ) (g : Group)
    (h : 0 < size) (hn : ∀ c < size, 0 < nsub c) :
    ∃ r, groupEpochFrom size nsub gs batches g = .ok r := by
  induction batches generalizing g with
  | nil => exact ⟨_, rfl⟩
  | cons b rest ih =>
    obtain ⟨⟨l, g1⟩, h1⟩ := groupBatch_ok gs b g h hn
    obtain ⟨⟨l', g2⟩, h2⟩ := ih (groupAdvance g1)
    exact ⟨(l ++ l', g2), by simp only [groupEpochFrom, h1, h2]⟩

end Training

end N2P2
