import Verif.Model.Dataset
import Verif.Lemma.Scaling
import Mathlib.Algebra.BigOperators.Intervals
import Mathlib.Algebra.Order.BigOperators.Group.Finset

namespace N2P2

open Finset in
/-- The quotas add up. -/
theorem sum_quota (N P : Nat) (excl : Bool) (q : Nat → Nat)
    (h : structuresPerProc N P excl = .ok q) (hP : 0 < P) :
    ∑ p ∈ range P, q p = N := by
  unfold structuresPerProc at h
  by_cases hx : (excl && P == 1) = true
  · rw [if_pos hx] at h; cases h
  rw [if_neg hx] at h
  simp only at h
  generalize hR : (if excl = true then P - 1 else P) = R at h
  by_cases hNR : N < R
  · rw [if_pos hNR] at h; cases h
  rw [if_neg hNR] at h
  injection h with h
  subst h
  subst hR
  obtain ⟨k, rfl⟩ : ∃ k, P = k + 1 := ⟨P - 1, by omega⟩
  have hsum : ∀ R Q r : Nat, r ≤ R →
      ∑ i ∈ range R, (if r > 0 ∧ i + 1 > 0 ∧ i + 1 ≤ r then Q + 1 else Q) = R * Q + r := by
    intro R Q r hr
    have : ∀ i ∈ range R, (if r > 0 ∧ i + 1 > 0 ∧ i + 1 ≤ r then Q + 1 else Q) =
        Q + (if i < r then 1 else 0) := by
      intro i _
      by_cases hi : i < r
      · rw [if_pos (by omega), if_pos hi]
      · rw [if_neg (by omega), if_neg hi, Nat.add_zero]
    rw [sum_congr rfl this, sum_add_distrib, sum_const, card_range, smul_eq_mul, ← sum_filter,
      sum_const, smul_eq_mul, mul_one]
    congr 1
    have : (range R).filter (· < r) = range r := by
      ext i; simp only [mem_filter, mem_range]; omega
    rw [this, card_range]
  rw [sum_range_succ']
  have hstep : ∀ (Q r : Nat), ∑ i ∈ range k, (if i + 1 < k + 1 then
        if i + 1 ≠ 0 ∨ excl = false then
          if r > 0 ∧ i + 1 > 0 ∧ i + 1 ≤ r then Q + 1 else Q
        else 0 else 0) =
      ∑ i ∈ range k, (if r > 0 ∧ i + 1 > 0 ∧ i + 1 ≤ r then Q + 1 else Q) := by
    intro Q r
    apply sum_congr rfl
    intro i hi
    rw [mem_range] at hi
    rw [if_pos (by omega), if_pos (by omega)]
  cases excl with
  | false =>
    rw [show (if false = true then k + 1 - 1 else k + 1) = k + 1 from rfl, hstep, hsum]
    · simp
      have := Nat.div_add_mod N (k + 1)
      have h2 : (k + 1) * (N / (k + 1)) = k * (N / (k + 1)) + N / (k + 1) := by ring
      omega
    · have := Nat.mod_lt N (show 0 < k + 1 by omega); omega
  | true =>
    have hk : 0 < k := by
      simp at hx; omega
    rw [show (if true = true then k + 1 - 1 else k + 1) = k from rfl, hstep, hsum]
    · simp
      have := Nat.div_add_mod N k
      omega
    · have := Nat.mod_lt N hk; omega

/-- Invariant of handing out structures. -/
structure DistInv (P : Nat) (quota : Nat → Nat) (s : DistState) : Prop where
  len : ∀ p, (s.held p).length = s.perProc p
  le : ∀ p, s.perProc p ≤ quota p
  perm : ((List.range P).flatMap s.held).Perm (List.range s.count)

theorem flatMap_update_perm (P : Nat) (held : Nat → List Nat) (p k : Nat) (hp : p < P) :
    ((List.range P).flatMap (Function.update held p (held p ++ [k]))).Perm
      ((List.range P).flatMap held ++ [k]) := by
  induction P with
  | zero => omega
  | succ P ih =>
    rw [List.range_succ, List.flatMap_append, List.flatMap_append, List.flatMap_singleton,
      List.flatMap_singleton]
    by_cases h : p = P
    · subst h
      rw [Function.update_self]
      have : (List.range p).flatMap (Function.update held p (held p ++ [k])) =
          (List.range p).flatMap held := by
        rw [List.flatMap_def, List.flatMap_def]
        congr 1
        apply List.map_congr_left
        intro i hi
        rw [Function.update_of_ne]
        have := List.mem_range.1 hi; omega
      rw [this, List.append_assoc]
    · rw [Function.update_of_ne (Ne.symm h)]
      have h1 := ih (by omega)
      refine (h1.append_right _).trans ?_
      rw [List.append_assoc, List.append_assoc]
      exact List.Perm.append_left _ List.perm_append_comm

theorem DistInv.give {P : Nat} {quota : Nat → Nat} {s : DistState} (h : DistInv P quota s)
    {p : Nat} (hp : p < P) (hq : s.perProc p < quota p) : DistInv P quota (s.give p) := by
  constructor
  · intro i
    by_cases hi : i = p
    · subst hi; simp [DistState.give, h.len]
    · simp [DistState.give, Function.update_of_ne hi, h.len]
  · intro i
    by_cases hi : i = p
    · subst hi; simp [DistState.give]; omega
    · simp [DistState.give, Function.update_of_ne hi, h.le]
  · refine (flatMap_update_perm P s.held p s.count hp).trans ?_
    have : List.range (s.give p).count = List.range s.count ++ [s.count] := List.range_succ
    rw [this]
    exact h.perm.append_right _

theorem DistInv.init (P : Nat) (quota : Nat → Nat) : DistInv P quota DistState.init := by
  constructor
  · intro p; rfl
  · intro p; exact Nat.zero_le _
  · have : (List.range P).flatMap DistState.init.held = [] := by
      simp [DistState.init]
    rw [this]; rfl

open Finset in
theorem DistInv.count_eq {P : Nat} {quota : Nat → Nat} {s : DistState} (h : DistInv P quota s) :
    ∑ p ∈ range P, s.perProc p = s.count := by
  have := h.perm.length_eq
  rw [List.length_range, List.length_flatMap] at this
  rw [← this, Finset.sum_range, ← List.sum_ofFn]
  congr 1
  apply List.ext_getElem <;> simp [h.len]

open Finset in
theorem DistInv.full {P : Nat} {quota : Nat → Nat} {s : DistState} (h : DistInv P quota s)
    (hN : ∑ p ∈ range P, quota p ≤ s.count) : ∀ p < P, s.perProc p = quota p := by
  have h1 := h.count_eq
  intro p hp
  have h2 := Finset.sum_le_sum (fun i (_ : i ∈ range P) => h.le i)
  have h3 : ∑ i ∈ range P, s.perProc i = ∑ i ∈ range P, quota i := by omega
  exact (Finset.sum_eq_sum_iff_of_le (fun i _ => h.le i)).1 h3 p (by simpa using hp)

theorem random_inv (N P : Nat) (quota : Nat → Nat) (ds : List Nat) (hd : ∀ p ∈ ds, p < P) :
    ∀ s t, DistInv P quota s → distributeRandom N quota ds s = some t →
      s.count ≤ N → DistInv P quota t ∧ t.count = N := by
  induction ds with
  | nil =>
    intro s t hs h hc
    unfold distributeRandom at h
    split at h
    · cases h
    · injection h with h; subst h; exact ⟨hs, by omega⟩
  | cons p ds ih =>
    intro s t hs h hc
    unfold distributeRandom at h
    split at h
    · rename_i hlt
      split at h
      · rename_i hq
        exact ih (fun x hx => hd x (by simp [hx])) _ t (hs.give (hd p (by simp)) hq) h
          (by show s.count + 1 ≤ N; omega)
      · exact ih (fun x hx => hd x (by simp [hx])) s t hs h hc
    · injection h with h; subst h; exact ⟨hs, by omega⟩

open Finset in
theorem random_terminates (N P : Nat) (quota : Nat → Nat) (hN : ∑ p ∈ range P, quota p = N)
    (ds : List Nat) (hd : ∀ p ∈ ds, p < P) :
    ∀ s, DistInv P quota s → (∀ p < P, quota p ≤ s.perProc p + ds.count p) →
      (distributeRandom N quota ds s).isSome := by
  induction ds with
  | nil =>
    intro s hs hq
    unfold distributeRandom
    have h1 := hs.count_eq
    have h2 := Finset.sum_le_sum (f := quota) (g := s.perProc) (s := range P)
      (fun i hi => by have := hq i (by simpa using hi); simpa using this)
    rw [if_neg (by omega)]; rfl
  | cons p ds ih =>
    intro s hs hq
    unfold distributeRandom
    split
    · split
      · rename_i hlt hpq
        apply ih (fun x hx => hd x (by simp [hx])) _ (hs.give (hd p (by simp)) hpq)
        intro i hi
        have := hq i hi
        rw [List.count_cons] at this
        by_cases hip : i = p
        · subst hip
          simp [DistState.give] at this ⊢; omega
        · have hpi : ¬ p = i := fun e => hip e.symm
          simp [DistState.give, Function.update_of_ne hip, hpi] at this ⊢; omega
      · rename_i hlt hpq
        apply ih (fun x hx => hd x (by simp [hx])) _ hs
        intro i hi
        have := hq i hi
        rw [List.count_cons] at this
        by_cases hip : i = p
        · subst hip; omega
        · have hpi : ¬ p = i := fun e => hip e.symm
          simp [hpi] at this; omega
    · rfl

theorem ordered_inner (P : Nat) (quota : Nat → Nat) (p : Nat) (hp : p < P) : ∀ (n : Nat) s,
    DistInv P quota s → s.perProc p + n ≤ quota p →
    let t := (List.range n).foldl (fun s _ => s.give p) s
    DistInv P quota t ∧ t.perProc p = s.perProc p + n ∧ ∀ i, i ≠ p → t.perProc i = s.perProc i := by
  intro n
  induction n with
  | zero => intro s hs _; exact ⟨hs, rfl, fun _ _ => rfl⟩
  | succ n ih =>
    intro s hs hq
    obtain ⟨i1, i2, i3⟩ := ih s hs (by omega)
    rw [List.range_succ, List.foldl_append]
    simp only [List.foldl_cons, List.foldl_nil]
    refine ⟨i1.give hp (by omega), ?_, ?_⟩
    · show Function.update _ p _ p = _
      rw [Function.update_self]
      omega
    · intro i hi
      show Function.update _ p _ i = _
      rw [Function.update_of_ne hi]; exact i3 i hi

theorem ordered_inv (P : Nat) (quota : Nat → Nat) :
    DistInv P quota (distributeOrdered P quota) ∧
    ∀ p < P, (distributeOrdered P quota).perProc p = quota p := by
  have key : ∀ n ≤ P, DistInv P quota ((List.range n).foldl
      (fun s proc => (List.range (quota proc)).foldl (fun s _ => s.give proc) s) DistState.init) ∧
      (∀ p < n, ((List.range n).foldl
      (fun s proc => (List.range (quota proc)).foldl (fun s _ => s.give proc) s)
        DistState.init).perProc p = quota p) ∧
      (∀ p, n ≤ p → ((List.range n).foldl
      (fun s proc => (List.range (quota proc)).foldl (fun s _ => s.give proc) s)
        DistState.init).perProc p = 0) := by
    intro n
    induction n with
    | zero => intro _; exact ⟨DistInv.init P quota, by simp, fun p _ => rfl⟩
    | succ n ih =>
      intro hn
      obtain ⟨i1, i2, i3⟩ := ih (by omega)
      rw [List.range_succ, List.foldl_append]
      simp only [List.foldl_cons, List.foldl_nil]
      obtain ⟨a1, a2, a3⟩ := ordered_inner P quota n (by omega) (quota n) _ i1
        (by rw [i3 n le_rfl]; omega)
      refine ⟨a1, ?_, ?_⟩
      · intro p hp
        by_cases h : p = n
        · subst h; rw [a2, i3 p le_rfl]; omega
        · rw [a3 p h]; exact i2 p (by omega)
      · intro p hp
        rw [a3 p (by omega)]; exact i3 p (by omega)
  obtain ⟨h1, h2, _⟩ := key P le_rfl
  exact ⟨h1, h2⟩

/-! ### numeric forces -/

open Finset in
theorem sum_numericPerProc (M P : Nat) (hP : 0 < P) : ∑ p ∈ range P, numericPerProc M P p = M := by
  have : ∀ i ∈ range P, numericPerProc M P i = M / P + (if i < M % P then 1 else 0) := by
    intro i _
    unfold numericPerProc
    simp only
    generalize M / P = Q
    generalize M % P = r
    by_cases hi : i < r
    · rw [if_pos (by omega), if_pos hi]
    · rw [if_neg (by omega), if_neg hi, Nat.add_zero]
  rw [sum_congr rfl this, sum_add_distrib, sum_const, card_range, smul_eq_mul, ← sum_filter,
    sum_const, smul_eq_mul, mul_one]
  have h2 : (range P).filter (· < M % P) = range (M % P) := by
    ext i; simp only [mem_filter, mem_range]
    have := Nat.mod_lt M hP; omega
  rw [h2, card_range]
  exact Nat.div_add_mod M P

theorem numericPerProc_zero_pos (M P : Nat) (_hP : 0 < P) (hM : 0 < M) : 1 ≤ numericPerProc M P 0 := by
  unfold numericPerProc
  simp only
  by_cases h : M % P > 0
  · rw [if_pos ⟨h, h⟩]; exact Nat.le_add_left _ _
  · rw [if_neg (fun hh => h hh.1)]
    have := Nat.div_add_mod M P
    by_contra hc
    have h0 : M / P = 0 := Nat.lt_one_iff.1 (Nat.lt_of_not_le hc)
    rw [h0] at this; simp at this; omega

open Finset in
theorem numericCount_eq (M P : Nat) (hP : 0 < P) (hM : 0 < M) (p : Nat) (hp : 0 < p) :
    numericCount M P p + 1 = ∑ i ∈ range p, numericPerProc M P i := by
  induction p with
  | zero => omega
  | succ p ih =>
    rw [sum_range_succ, numericCount]
    by_cases h : p = 0
    · subst h
      have := numericPerProc_zero_pos M P hP hM
      simp [numericCount]; omega
    · have := ih (by omega)
      rw [if_neg h]; omega

theorem numericJobs_flat (N P : Nat) (p : Nat) (hp : 0 < p) :
    (List.range p).flatMap (numericJobs N P) =
      NumericJob.original :: (List.range (numericCount (1 + 6 * N) P p)).map numericJob := by
  induction p with
  | zero => omega
  | succ p ih =>
    rw [List.range_succ, List.flatMap_append, List.flatMap_singleton]
    by_cases h : p = 0
    · subst h; simp [numericJobs, numericCount]
    · rw [ih (by omega)]
      simp only [numericJobs, h, if_false, List.nil_append, List.cons_append]
      rw [numericCount, if_neg h, List.range_add, List.map_append, List.map_map]
      rfl

theorem numericJob_inj : Function.Injective numericJob := by
  intro a b h
  unfold numericJob at h
  injection h with h1 h2 h3
  have ha := Nat.div_add_mod a 6
  have hb := Nat.div_add_mod b 6
  omega

/-! ### statistics -/

theorem localStatistics_absorbed (M : ℝ) (vs : List ℝ) :
    Absorbed (StatContainer.init M) (localStatistics M vs) vs [] := by
  have key : ∀ (vs : List ℝ) (d : StatData), Absorbed (d.at M 0)
      ((vs.foldl (fun d v => StatData.addValue M d 0 v) d).at M 0) vs [] := by
    intro vs
    induction vs with
    | nil => intro d; exact Absorbed.refl _
    | cons v vs ih =>
      intro d
      have h1 := absorbed_addValue M d 0 0 v
      rw [if_pos rfl] at h1
      exact h1.trans (ih (d.addValue M 0 v))
  exact key vs []

theorem foldl_min_flatten (M : ℝ) (parts : List (List ℝ)) : ∀ a, a ≤ M →
    (parts.map (fun p => p.foldl Min.min M)).foldl Min.min a = parts.flatten.foldl Min.min a := by
  have hc : ∀ (p : List ℝ) (a b : ℝ), p.foldl Min.min (Min.min a b) =
      Min.min a (p.foldl Min.min b) := by
    intro p
    induction p with
    | nil => intro a b; rfl
    | cons x p ih => intro a b; simp only [List.foldl_cons]; rw [min_assoc, ih]
  induction parts with
  | nil => intro a _; rfl
  | cons p ps ih =>
    intro a ha
    simp only [List.map_cons, List.foldl_cons, List.flatten_cons, List.foldl_append]
    rw [← hc, min_eq_left ha]
    apply ih
    have := (foldl_min_le p a).1
    linarith

theorem foldl_max_flatten (M : ℝ) (parts : List (List ℝ)) : ∀ a, M ≤ a →
    (parts.map (fun p => p.foldl Max.max M)).foldl Max.max a = parts.flatten.foldl Max.max a := by
  have hc : ∀ (p : List ℝ) (a b : ℝ), p.foldl Max.max (Max.max a b) =
      Max.max a (p.foldl Max.max b) := by
    intro p
    induction p with
    | nil => intro a b; rfl
    | cons x p ih => intro a b; simp only [List.foldl_cons]; rw [max_assoc, ih]
  induction parts with
  | nil => intro a _; rfl
  | cons p ps ih =>
    intro a ha
    simp only [List.map_cons, List.foldl_cons, List.flatten_cons, List.foldl_append]
    rw [← hc, max_eq_left ha]
    apply ih
    have := (le_foldl_max p a).1
    linarith

theorem allMin_parts (M : ℝ) (parts : List (List ℝ)) (h : parts ≠ []) :
    allMin (parts.map (fun p => p.foldl Min.min M)) = parts.flatten.foldl Min.min M := by
  cases parts with
  | nil => exact absurd rfl h
  | cons p ps =>
    simp only [List.map_cons, allMin, List.flatten_cons, List.foldl_append]
    exact foldl_min_flatten M ps _ (foldl_min_le p M).1

theorem allMax_parts (M : ℝ) (parts : List (List ℝ)) (h : parts ≠ []) :
    allMax (parts.map (fun p => p.foldl Max.max M)) = parts.flatten.foldl Max.max M := by
  cases parts with
  | nil => exact absurd rfl h
  | cons p ps =>
    simp only [List.map_cons, allMax, List.flatten_cons, List.foldl_append]
    exact foldl_max_flatten M ps _ (le_foldl_max p M).1

theorem sum_map_flatten {α : Type} (f : α → ℝ) (parts : List (List α)) :
    (parts.map (fun p => (p.map f).sum)).sum = (parts.flatten.map f).sum := by
  induction parts with
  | nil => rfl
  | cons p ps ih => simp [ih]

theorem variance_formula (vs : List ℝ) (hn : vs ≠ []) :
    (vs.map (fun x => x * x)).sum - vs.sum * vs.sum / vs.length =
      (vs.map (fun x => (x - vs.sum / vs.length) ^ 2)).sum := by
  have hl : (vs.length : ℝ) ≠ 0 := by
    simpa using hn
  have key : ∀ (m : ℝ) (l : List ℝ), (l.map (fun x => (x - m) ^ 2)).sum =
      (l.map (fun x => x * x)).sum - 2 * m * l.sum + l.length * m ^ 2 := by
    intro m l
    induction l with
    | nil => simp
    | cons x l ih => simp only [List.map_cons, List.sum_cons, ih, List.length_cons]; push_cast; ring
  rw [key]
  field_simp
  ring

/-! ### errors -/

theorem foldl_updateErrorEnergy (ss : List Structure) : ∀ e : ErrAcc,
    ss.foldl updateErrorEnergy e =
      { count := e.count + ss.length
        RMSEpa := e.RMSEpa + (ss.map (fun s => ((s.energyRef - s.energy) / (s.numAtoms : ℝ)) ^ 2)).sum
        RMSE := e.RMSE + (ss.map (fun s => (s.energyRef - s.energy) ^ 2)).sum
        MAEpa := e.MAEpa + (ss.map (fun s => |s.energyRef - s.energy| / (s.numAtoms : ℝ))).sum
        MAE := e.MAE + (ss.map (fun s => |s.energyRef - s.energy|)).sum } := by
  induction ss with
  | nil => intro e; simp
  | cons s ss ih =>
    intro e
    rw [List.foldl_cons, ih]
    simp only [updateErrorEnergy, List.length_cons, List.map_cons, List.sum_cons, ErrAcc.mk.injEq]
    refine ⟨by omega, ?_, by ring, by ring, by ring⟩
    push_cast
    rw [div_pow]
    ring

theorem foldl_updateErrorForce (ss : List Structure) : ∀ e : ErrAcc,
    ss.foldl updateErrorForce e =
      { e with
        count := e.count + 3 * (ss.flatMap (·.atoms)).length
        RMSE := e.RMSE + ((ss.flatMap (·.atoms)).map (fun a => (a.fRef 0 - a.f 0) ^ 2 +
          (a.fRef 1 - a.f 1) ^ 2 + (a.fRef 2 - a.f 2) ^ 2)).sum
        MAE := e.MAE + ((ss.flatMap (·.atoms)).map (fun a => |a.fRef 0 - a.f 0| +
          |a.fRef 1 - a.f 1| + |a.fRef 2 - a.f 2|)).sum } := by
  have ha : ∀ (as : List Atom) (e : ErrAcc), as.foldl Atom.updateErrorForce e =
      { e with
        count := e.count + 3 * as.length
        RMSE := e.RMSE + (as.map (fun a => (a.fRef 0 - a.f 0) ^ 2 +
          (a.fRef 1 - a.f 1) ^ 2 + (a.fRef 2 - a.f 2) ^ 2)).sum
        MAE := e.MAE + (as.map (fun a => |a.fRef 0 - a.f 0| +
          |a.fRef 1 - a.f 1| + |a.fRef 2 - a.f 2|)).sum } := by
    intro as
    induction as with
    | nil => intro e; simp
    | cons a as ih =>
      intro e
      rw [List.foldl_cons, ih]
      simp only [Atom.updateErrorForce, List.length_cons, List.map_cons, List.sum_cons,
        ErrAcc.mk.injEq, Pi.sub_apply]
      exact ⟨by ring, trivial, by ring, trivial, by ring⟩
  induction ss with
  | nil => intro e; simp
  | cons s ss ih =>
    intro e
    rw [List.foldl_cons, ih]
    unfold updateErrorForce
    rw [ha]
    simp only [List.flatMap_cons, List.length_append, List.map_append, List.sum_append,
      ErrAcc.mk.injEq]
    exact ⟨by ring, trivial, by ring, trivial, by ring⟩

theorem foldl_updateErrorCharge (ss : List Structure) : ∀ e : ErrAcc,
    ss.foldl updateErrorCharge e =
      { e with
        count := e.count + (ss.flatMap (·.atoms)).length
        RMSE := e.RMSE + ((ss.flatMap (·.atoms)).map (fun a => (a.chargeRef - a.charge) ^ 2)).sum
        MAE := e.MAE + ((ss.flatMap (·.atoms)).map (fun a => |a.chargeRef - a.charge|)).sum } := by
  have ha : ∀ (as : List Atom) (e : ErrAcc), as.foldl Atom.updateErrorCharge e =
      { e with
        count := e.count + as.length
        RMSE := e.RMSE + (as.map (fun a => (a.chargeRef - a.charge) ^ 2)).sum
        MAE := e.MAE + (as.map (fun a => |a.chargeRef - a.charge|)).sum } := by
    intro as
    induction as with
    | nil => intro e; simp
    | cons a as ih =>
      intro e
      rw [List.foldl_cons, ih]
      simp only [Atom.updateErrorCharge, List.length_cons, List.map_cons, List.sum_cons,
        ErrAcc.mk.injEq]
      exact ⟨by ring, trivial, by ring, trivial, by ring⟩
  induction ss with
  | nil => intro e; simp
  | cons s ss ih =>
    intro e
    rw [List.foldl_cons, ih]
    unfold updateErrorCharge
    rw [ha]
    simp only [List.flatMap_cons, List.length_append, List.map_append, List.sum_append,
      ErrAcc.mk.injEq]
    exact ⟨by ring, trivial, by ring, trivial, by ring⟩

end N2P2
