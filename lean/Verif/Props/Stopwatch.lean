import Verif.Lemma.Stopwatch

/-! Property C112: measured times. -/

namespace N2P2

/-- C112: `stop` returns the time during which the stopwatch has been running since the last reset, for all
histories of calls. -/
theorem C112_total (es post : List StopwatchEvent) (h : SinceReset es post) (t : Timespec) :
    ((Stopwatch.after es).stop t).1 = runningTime (post ++ [(.stop, t)]) := by
  obtain ⟨⟨pre, rfl, hpre⟩, hn⟩ := h
  have hinit : Stopwatch.after pre = .init ∨ Stopwatch.after pre = ⟨false, 0.0, 0.0, ⟨0, 0⟩⟩ := by
    rcases List.eq_nil_or_concat pre with rfl | ⟨l, a, rfl⟩
    · exact Or.inl rfl
    · right
      rw [List.concat_eq_append] at hpre ⊢
      have := hpre a List.getLast?_concat
      unfold Stopwatch.after
      rw [List.foldl_append, List.foldl_cons, List.foldl_nil]
      unfold Stopwatch.apply
      rw [this]
      rfl
  have h0 : (Stopwatch.after pre).timeTotal = 0 ∧ (Stopwatch.after pre).running = false := by
    rcases hinit with e | e <;> rw [e] <;> exact ⟨by norm_num [Stopwatch.init], rfl⟩
  have key := Stopwatch.measured (·.timeTotal) (fun s t => (s.stopTime_eq t).2.1) pre [] post hn
    (fun q u b _ _ => (Stopwatch.start_eq _ b u u).2.1) (fun t => by simp [h0.1, Stopwatch.pending, h0.2, runningTime]) t
  rw [List.nil_append] at key
  rw [← key]
  exact (Stopwatch.stopTime_eq _ t).2.1

/-- C112: `loop` returns the time during which the stopwatch has been running since the beginning of the loop. -/
theorem C112_loop (es post : List StopwatchEvent) (h : SinceLoop es post) (t : Timespec) :
    ((Stopwatch.after es).loop t).1 = runningTime (post ++ [(.loop, t)]) := by
  obtain ⟨⟨pre, rfl, hpre⟩, ⟨t0, rest, rfl⟩, hn, hl⟩ := h
  have hrun : (Stopwatch.after pre).running = false := by
    rw [Stopwatch.running_eq]
    cases e : pre.getLast? with
    | none => rfl
    | some a => exact hpre a e
  obtain ⟨-, -, g3, -, g5⟩ := Stopwatch.start_eq (Stopwatch.after pre) true t0 t0
  have e0 : Stopwatch.after (pre ++ [(.start true, t0)]) = (Stopwatch.after pre).start true t0 := by
    unfold Stopwatch.after
    rw [List.foldl_append]
    rfl
  have key := Stopwatch.measured (·.timeLoop) (fun s t => (s.stopTime_eq t).2.2) (pre ++ [(.start true, t0)])
    [(.start true, t0)] rest (fun a ha => hn a (by simp [ha])) ?_ ?_ t
  · rw [List.append_assoc, List.singleton_append] at key
    rw [runningTime_last _ .loop .stop t]
    refine Eq.trans ?_ key
    exact (Stopwatch.stopTime_eq _ t).2.2
  · intro q u b _ hq
    refine (Stopwatch.start_eq _ b u u).2.2.2.1 ?_
    rintro rfl
    obtain ⟨r, hr⟩ := hq
    rw [Stopwatch.running_eq]
    rcases List.eq_nil_or_concat q with rfl | ⟨q', a, rfl⟩
    · simp [StopwatchOp.IsStart]
    · rw [List.concat_eq_append] at hr ⊢
      have := hl a (.start true, u) ⟨(.start true, t0) :: q', r, by rw [← hr]; simp⟩ rfl
      rw [← List.append_assoc, List.getLast?_concat]
      exact this
  · intro t
    have g := Stopwatch.start_eq (Stopwatch.after pre) true t0 t
    rw [e0, g5 rfl hrun, g.2.2.1]
    simp [Stopwatch.pending, hrun, runningTime, StopwatchOp.IsStart]

/-- C112: every history has calls since the last reset, so that `C112_total` always applies. -/
theorem C112_reset_exists (es : List StopwatchEvent) : ∃ post, SinceReset es post := by
  induction es using List.reverseRecOn with
  | nil => exact ⟨[], ⟨[], rfl, by simp⟩, by simp⟩
  | append_singleton l a ih =>
    by_cases h : a.1 = .reset
    · exact ⟨[], ⟨l ++ [a], by simp, fun b hb => by rw [List.getLast?_concat] at hb; rw [← Option.some.inj hb]; exact h⟩,
        by simp⟩
    · obtain ⟨post, ⟨pre, rfl, h1⟩, h2⟩ := ih
      refine ⟨post ++ [a], ⟨pre, by simp, h1⟩, fun b hb => ?_⟩
      rcases List.mem_append.1 hb with hb | hb
      · exact h2 b hb
      · rw [List.mem_singleton.1 hb]; exact h

theorem runningTime_nonneg {es : List StopwatchEvent} (h : es.Pairwise fun a b => a.2.seconds ≤ b.2.seconds) :
    0 ≤ runningTime es := by
  induction es with
  | nil => exact le_rfl
  | cons a l ih =>
    cases l with
    | nil => exact le_rfl
    | cons b l =>
      rw [List.pairwise_cons] at h
      have h1 := h.1 b (by simp)
      have h2 := ih h.2
      unfold runningTime
      split_ifs
      · linarith
      · linarith

/-- C112: with a clock which never goes back no time is negative. -/
theorem C112_nonneg (es : List StopwatchEvent) (t : Timespec)
    (h : (es ++ [(StopwatchOp.stop, t)]).Pairwise fun a b => a.2.seconds ≤ b.2.seconds) :
    0 ≤ ((Stopwatch.after es).stop t).1 := by
  obtain ⟨post, hp⟩ := C112_reset_exists es
  rw [C112_total es post hp t]
  obtain ⟨pre, rfl, -⟩ := hp.history
  rw [List.append_assoc, List.pairwise_append] at h
  exact runningTime_nonneg h.2.1

/-! ### Example -/

/-- Calls at 1, 3, 4, 6.5 and 8 seconds: two loops, of which the second is interrupted. -/
def exCalls : List StopwatchEvent :=
  [(.start true, ⟨1, 0⟩), (.stop, ⟨3, 0⟩), (.start true, ⟨4, 0⟩), (.stop, ⟨6, 500000000⟩), (.start false, ⟨8, 0⟩)]

example : ((Stopwatch.after exCalls).stop ⟨9, 0⟩).1 = 5.5 ∧ ((Stopwatch.after exCalls).loop ⟨9, 0⟩).1 = 3.5 := by
  constructor
  · rw [C112_total exCalls exCalls ⟨⟨[], rfl, by simp⟩, by simp [exCalls]⟩]
    norm_num [exCalls, runningTime, StopwatchOp.IsStart, Timespec.seconds]
  · rw [C112_loop exCalls (exCalls.drop 2) ⟨⟨exCalls.take 2, rfl, ?_⟩, ⟨_, _, rfl⟩, by simp [exCalls], ?_⟩]
    · norm_num [exCalls, runningTime, StopwatchOp.IsStart, Timespec.seconds]
    · intro a ha
      have : a = (.stop, ⟨3, 0⟩) := (Option.some.inj ha).symm
      rw [this]
      rfl
    · rintro a b ⟨p, q, h⟩ hb
      rcases p with _ | ⟨x, _ | ⟨y, p⟩⟩ <;> simp [exCalls] at h
      · obtain ⟨-, rfl, -⟩ := h
        cases hb
      · obtain ⟨-, -, rfl, -⟩ := h
        cases hb
      · have := congrArg List.length h.2.2
        simp at this
        omega

end N2P2
