import Mathlib.Data.Real.Basic

/-! Stopwatch (Stopwatch.h, Stopwatch.cpp), in the version for Linux. -/

namespace N2P2

/-- `timespec` as given by the monotonic clock. -/
structure Timespec where
  sec : ℤ
  nsec : ℤ

/-- Members of `Stopwatch` (Stopwatch.h:62-81). -/
structure Stopwatch where
  running : Bool
  timeTotal : ℝ
  timeLoop : ℝ
  time : Timespec

namespace Stopwatch

/-- Stopwatch.cpp:24-38. -/
noncomputable def init : Stopwatch := ⟨false, 0.0, 0.0, ⟨0, 0⟩⟩

/-- Stopwatch.cpp:40-60 `start`; `now` is the reading of the clock. -/
noncomputable def start (s : Stopwatch) (newLoop : Bool) (now : Timespec) : Stopwatch :=
  if !s.running then { s with time := now, timeLoop := if newLoop then 0.0 else s.timeLoop, running := true } else s

/-- Stopwatch.cpp:102-130 `updateTime`: the interval and the new object. -/
noncomputable def updateTime (s : Stopwatch) (now : Timespec) : ℝ × Stopwatch :=
  if s.running then
    (((now.sec - s.time.sec : ℤ) : ℝ) + ((now.nsec - s.time.nsec : ℤ) : ℝ) * 1E-9, { s with time := now })
  else (0.0, s)

/-- Stopwatch.cpp:92-100 `stopTime`. -/
noncomputable def stopTime (s : Stopwatch) (now : Timespec) : Stopwatch :=
  let u := s.updateTime now
  { u.2 with timeLoop := u.2.timeLoop + u.1, timeTotal := u.2.timeTotal + u.1, running := false }

/-- Stopwatch.cpp:62-67 `stop`. -/
noncomputable def stop (s : Stopwatch) (now : Timespec) : ℝ × Stopwatch :=
  let s := s.stopTime now
  (s.timeTotal, s)

/-- Stopwatch.cpp:69-74 `loop`. -/
noncomputable def loop (s : Stopwatch) (now : Timespec) : ℝ × Stopwatch :=
  let s := s.stopTime now
  (s.timeLoop, s)

/-- Stopwatch.cpp:76-90 `reset`. -/
noncomputable def reset (_ : Stopwatch) : Stopwatch := ⟨false, 0.0, 0.0, ⟨0, 0⟩⟩

end Stopwatch

end N2P2
