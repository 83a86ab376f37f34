import Verif.Spec.Stopwatch
import Mathlib.Data.List.Induction
import Mathlib.Tactic.Ring
import Mathlib.Tactic.NormNum
import Mathlib.Tactic.Linarith

/-! Measured times. -/

namespace N2P2

theorem runningTime_snoc (l : List StopwatchEvent) (a b : StopwatchEvent) :
    runningTime (l ++ [a, b]) = runningTime (l ++ [a]) + if a.1.IsStart then b.2.seconds - a.2.seconds else 0 := by
  induction l with
  | nil => simp [runningTime]
  | cons x l ih =>
    cases l with
    | nil => simp [runningTime]
    | cons y l =>
      simp only [List.cons_append, runningTime] at ih ⊢
      rw [ih]
      ring

theorem runningTime_last (l : List StopwatchEvent) (o o' : StopwatchOp) (t : Timespec) :
    runningTime (l ++ [(o, t)]) = runningTime (l ++ [(o', t)]) := by
  induction l with
  | nil => simp [runningTime]
  | cons x l ih =>
    cases l with
    | nil => simp [runningTime]
    | cons y l =>
      simp only [List.cons_append, runningTime] at ih ⊢
      rw [ih]

namespace Stopwatch

/-- Time since the start. -/
noncomputable def pending (s : Stopwatch) (t : Timespec) : ℝ := if s.running then t.seconds - s.time.seconds else 0

theorem stopTime_eq (s : Stopwatch) (t : Timespec) : (s.stopTime t).running = false ∧
    (s.stopTime t).timeTotal = s.timeTotal + s.pending t ∧ (s.stopTime t).timeLoop = s.timeLoop + s.pending t := by
  unfold stopTime updateTime pending Timespec.seconds
  cases s.running with
  | false => norm_num
  | true =>
    simp only [if_true, true_and]
    push_cast
    constructor <;> (norm_num; ring)

theorem start_eq (s : Stopwatch) (b : Bool) (u t : Timespec) : (s.start b u).running = true ∧
    (s.start b u).timeTotal = s.timeTotal ∧ (s.start b u).pending t = s.pending u + (t.seconds - u.seconds) ∧
    ((b = true → s.running = true) → (s.start b u).timeLoop = s.timeLoop) ∧
    (b = true → s.running = false → (s.start b u).timeLoop = 0) := by
  unfold start pending
  cases h : s.running with
  | false => cases b <;> norm_num
  | true => simp [h]

theorem running_eq (es : List StopwatchEvent) :
    (Stopwatch.after es).running = (es.getLast?.map fun a => a.1.IsStart).getD false := by
  induction es using List.reverseRecOn with
  | nil => rfl
  | append_singleton l a ih =>
    unfold Stopwatch.after at *
    rw [List.foldl_append, List.foldl_cons, List.foldl_nil, List.getLast?_concat, Option.map_some, Option.getD_some]
    obtain ⟨o, t⟩ := a
    cases o with
    | start b => exact (start_eq _ b t t).1
    | stop => exact (stopTime_eq _ t).1
    | loop => exact (stopTime_eq _ t).1
    | reset => rfl

/-- A time which is kept by `start` and increased by the other calls. -/
theorem measured (f : Stopwatch → ℝ) (hf : ∀ s t, f (s.stopTime t) = f s + s.pending t) (pre : List StopwatchEvent)
    (done post : List StopwatchEvent) (hr : ∀ a ∈ post, a.1 ≠ .reset)
    (hs : ∀ q u b, q <+: post → q ++ [(.start b, u)] <+: post →
      f ((Stopwatch.after (pre ++ q)).start b u) = f (Stopwatch.after (pre ++ q)))
    (h0 : ∀ t, f (Stopwatch.after pre) + (Stopwatch.after pre).pending t = runningTime (done ++ [(.stop, t)]))
    (t : Timespec) :
    f (Stopwatch.after (pre ++ post)) + (Stopwatch.after (pre ++ post)).pending t =
      runningTime (done ++ post ++ [(.stop, t)]) := by
  induction post using List.reverseRecOn generalizing t with
  | nil => simpa using h0 t
  | append_singleton l a ih =>
    have ih := ih (fun b hb => hr b (by simp [hb])) fun q u b h2 h3 => hs q u b (h2.trans (List.prefix_append _ _))
      (h3.trans (List.prefix_append _ _))
    have hstart := fun u b (h : a = (.start b, u)) => hs l u b (List.prefix_append _ _) (by rw [h]; exact List.prefix_rfl)
    have e : Stopwatch.after (pre ++ (l ++ [a])) = (Stopwatch.after (pre ++ l)).apply a := by
      unfold Stopwatch.after
      rw [← List.append_assoc, List.foldl_append, List.foldl_cons, List.foldl_nil]
    have hr' := hr a (by simp)
    rw [e, ← List.append_assoc, List.append_assoc, List.singleton_append, runningTime_snoc]
    obtain ⟨o, u⟩ := a
    rw [runningTime_last _ o .stop u, ← ih u]
    cases o with
    | start b =>
      obtain ⟨g1, -, g3, -⟩ := start_eq (Stopwatch.after (pre ++ l)) b u t
      change f ((Stopwatch.after (pre ++ l)).start b u) + ((Stopwatch.after (pre ++ l)).start b u).pending t = _
      rw [hstart u b rfl, g3]
      simp [StopwatchOp.IsStart]
      ring
    | stop =>
      change f ((Stopwatch.after (pre ++ l)).stopTime u) + ((Stopwatch.after (pre ++ l)).stopTime u).pending t = _
      rw [hf]
      simp [StopwatchOp.IsStart, pending, (stopTime_eq _ _).1]
    | loop =>
      change f ((Stopwatch.after (pre ++ l)).stopTime u) + ((Stopwatch.after (pre ++ l)).stopTime u).pending t = _
      rw [hf]
      simp [StopwatchOp.IsStart, pending, (stopTime_eq _ _).1]
    | reset => exact absurd rfl hr'

end Stopwatch

end N2P2
