import Verif.Model.Stopwatch

/-! What is expected from a stopwatch. -/

namespace N2P2

/-- Time in seconds. -/
noncomputable def Timespec.seconds (t : Timespec) : ℝ := t.sec + t.nsec / 10 ^ 9

/-- Calls of the member functions. -/
inductive StopwatchOp
  | start (newLoop : Bool) | stop | loop | reset

def StopwatchOp.IsStart : StopwatchOp → Bool
  | .start _ => true
  | _ => false

/-- A call at some time. -/
abbrev StopwatchEvent := StopwatchOp × Timespec

noncomputable def Stopwatch.apply (s : Stopwatch) (e : StopwatchEvent) : Stopwatch :=
  match e.1 with
  | .start b => s.start b e.2
  | .stop => (s.stop e.2).2
  | .loop => (s.loop e.2).2
  | .reset => s.reset

/-- The stopwatch after a history of calls. -/
noncomputable def Stopwatch.after (es : List StopwatchEvent) : Stopwatch := es.foldl Stopwatch.apply .init

/-- Sum of all times between a call of `start` and the next call of any kind. -/
noncomputable def runningTime : List StopwatchEvent → ℝ
  | a :: b :: l => (if a.1.IsStart then b.2.seconds - a.2.seconds else 0) + runningTime (b :: l)
  | _ => 0

/-- All calls after the last reset. -/
structure SinceReset (es post : List StopwatchEvent) : Prop where
  history : ∃ pre, es = pre ++ post ∧ ∀ a, pre.getLast? = some a → a.1 = .reset
  none : ∀ a ∈ post, a.1 ≠ .reset

/-- All calls from the last beginning of a loop: `start` of a stopwatch which does not run, with the option for
a new loop. -/
structure SinceLoop (es post : List StopwatchEvent) : Prop where
  history : ∃ pre, es = pre ++ post ∧ ∀ a, pre.getLast? = some a → a.1.IsStart = false
  begin : ∃ t rest, post = (.start true, t) :: rest
  none : ∀ a ∈ post, a.1 ≠ .reset
  later : ∀ a b, [a, b] <:+: post → b.1 = .start true → a.1.IsStart = true

end N2P2
