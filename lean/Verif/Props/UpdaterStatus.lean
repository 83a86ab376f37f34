import Verif.Lemma.UpdaterStatus
import Verif.Props.Updater
import Verif.Props.Sensitivity

/-! Properties of the status files of weight updaters. -/

namespace N2P2

attribute [local irreducible] StatusUpdater.header

/-- C115: during training each updater has its own status file, with one line for the initial state and for each
epoch up to `n`, in this order: number of updates, means of the absolute values of diagonal, off-diagonal and
asymmetric parts of the covariance and of the gain, and the current parameters (for Adam: decay rates and means of
both moments). Other files are unchanged. -/
theorem C115_files {F : FloatText} (hF : F.Data) (stage : Option ℕ) {Zs : List ℕ} (hZ : Zs.Nodup)
    (H : ℕ → List (ℕ × StatusUpdater)) (hH : ∀ e, (H e).map Prod.fst = Zs) (n : ℕ) (fs : Files) :
    ∃ fs', statusOfEpochs F stage H n fs = some fs' ∧
      (∀ (i Z : ℕ) (u : ℕ → StatusUpdater), (∀ e, (H e)[i]? = some (Z, u e)) →
        ∃ text, fs' (updaterName stage Z) = some text ∧
          fileTable text = (List.range (n + 1)).map fun e => (u e).row F e) ∧
      ∀ x, (∀ Z ∈ Zs, x ≠ updaterName stage Z) → fs' x = fs x := by
  have hnames : ∀ e, ((H e).map fun p => updaterName stage p.1).Nodup := by
    intro e
    have : ((H e).map fun p => updaterName stage p.1) = Zs.map (updaterName stage) := by
      rw [← hH e, List.map_map]
      rfl
    rw [this]
    exact hZ.map fun _ _ => updaterName_inj
  have hout : ∀ e x, (∀ Z ∈ Zs, x ≠ updaterName stage Z) → x ∉ (H e).map fun p => updaterName stage p.1 := by
    intro e x hx h
    obtain ⟨p, hp, rfl⟩ := List.mem_map.1 h
    exact hx p.1 (hH e ▸ List.mem_map.2 ⟨p, hp, rfl⟩) rfl
  suffices ∃ fs', statusOfEpochs F stage H n fs = some fs' ∧
      (∀ (i Z : ℕ) (u : ℕ → StatusUpdater), (∀ e, (H e)[i]? = some (Z, u e)) →
        ∃ text, fs' (updaterName stage Z) = some text ∧
          Tabled text ((List.range (n + 1)).map fun e => (u e).row F e)) ∧
      ∀ x, (∀ Z ∈ Zs, x ≠ updaterName stage Z) → fs' x = fs x by
    obtain ⟨fs', h1, h2, h3⟩ := this
    refine ⟨fs', h1, fun i Z u hu => ?_, h3⟩
    obtain ⟨text, e1, e2⟩ := h2 i Z u hu
    exact ⟨text, e1, e2.table⟩
  induction n with
  | zero =>
    obtain ⟨fs', h1, h2, h3⟩ := foldlM_write (writeStatus F false stage 0) (fun p => updaterName stage p.1)
      (fun p _ => (p.2.header.getD []).flatten ++ p.2.status F 0) (by
        intro fs p
        obtain ⟨h, e, -⟩ := status_header p.2
        exact writeStatus_new F stage 0 fs p e) (H 0) fs (hnames 0)
    refine ⟨fs', by rw [statusOfEpochs]; exact h1, fun i Z u hu => ?_, fun x hx => h3 x (hout 0 x hx)⟩
    have h2' : fs' (updaterName stage Z) = some (((u 0).header.getD []).flatten ++ (u 0).status F 0) :=
      h2 (Z, u 0) (List.mem_of_getElem? (hu 0))
    refine ⟨_, h2', ?_⟩
    obtain ⟨h, e, hc⟩ := status_header (u 0)
    obtain ⟨hs, e2, hb⟩ := header_bodies hc
    rw [e, Option.getD_some, e2]
    exact ⟨hs, (u 0).status F 0, rfl, hb, status_rows hF 0 (u 0)⟩
  | succ n ih =>
    obtain ⟨fs1, g1, g2, g3⟩ := ih
    obtain ⟨fs', h1, h2, h3⟩ := foldlM_write (writeStatus F true stage (n + 1)) (fun p => updaterName stage p.1)
      (fun p t => t.getD [] ++ p.2.status F (n + 1)) (fun _ _ => rfl) (H (n + 1)) fs1 (hnames (n + 1))
    refine ⟨fs', ?_, fun i Z u hu => ?_, fun x hx => (h3 x (hout _ x hx)).trans (g3 x hx)⟩
    · unfold statusOfEpochs
      rw [g1]
      exact h1
    · obtain ⟨text, e1, hs, t, e2, e3, e4⟩ := g2 i Z u hu
      have h2' : fs' (updaterName stage Z) =
          some ((fs1 (updaterName stage Z)).getD [] ++ (u (n + 1)).status F (n + 1)) :=
        h2 (Z, u (n + 1)) (List.mem_of_getElem? (hu (n + 1)))
      refine ⟨_, h2', hs, t ++ (u (n + 1)).status F (n + 1), ?_, e3, ?_⟩
      · rw [e1, Option.getD_some, e2, List.append_assoc]
      · rw [List.range_succ, List.map_append]
        exact rows_append e4 (status_rows hF _ _)

open KalmanFilter in
/-- C115: the asymmetry reported for a Kalman filter is zero after any number of updates, and the mean of the diagonal
is the mean variance, which is positive. -/
theorem C115_symmetric (N t : ℕ) (hN : 0 < N) (k k' : KalmanFilter N)
    (hk : (∃ p : StdParams, p.Valid ∧ StartsStandard p k) ∨ ∃ p : FadParams, p.Valid ∧ StartsFading p k)
    (hr : Run k t k') :
    (meanMagnitude Finset.univ fun p : Fin N × Fin N => (k'.P p.1 p.2 - k'.P p.2 p.1) / 2) = some 0 ∧
    ∃ x, 0 < x ∧ (meanMagnitude Finset.univ fun i : Fin N => k'.P i i) = some x ∧ x = Matrix.trace k'.P / N := by
  have h : k'.P.IsSymm ∧ ∀ x : Fin N → ℝ, x ≠ 0 → 0 < dotProduct x (k'.P.mulVec x) := by
    rcases hk with ⟨p, hp, hs⟩ | ⟨p, hp, hs⟩
    · exact ⟨(C44_standard N t p hp k k' hs hr).1, (C44_standard N t p hp k k' hs hr).2.1⟩
    · exact ⟨(C44_fading N t p hp k k' hs hr).1, (C44_fading N t p hp k k' hs hr).2.1⟩
  have hd : ∀ i, 0 < k'.P i i := by
    intro i
    have := h.2 (Pi.single i 1) (fun e => by simpa using congrFun e i)
    simpa using this
  have : Nonempty (Fin N) := ⟨⟨0, hN⟩⟩
  constructor
  · unfold meanMagnitude
    rw [if_neg (Finset.univ_nonempty.ne_empty)]
    congr 1
    rw [Finset.sum_eq_zero, zero_div]
    intro p _
    show |(k'.P p.1 p.2 - k'.P p.2 p.1) / 2| = 0
    rw [h.1.apply p.2 p.1, sub_self, zero_div, abs_zero]
  · have hN' : (0 : ℝ) < N := Nat.cast_pos.2 hN
    refine ⟨Matrix.trace k'.P / N, div_pos ?_ hN', ?_, rfl⟩
    · exact Finset.sum_pos (fun i _ => hd i) Finset.univ_nonempty
    · unfold meanMagnitude
      rw [if_neg (Finset.univ_nonempty.ne_empty), Finset.card_univ, Fintype.card_fin]
      congr 2
      exact Finset.sum_congr rfl fun i _ => abs_of_pos (hd i)

/-- C115: the decay rates reported for Adam after `t` updates are the powers `t + 1`, those of the next update,
whereas the header announces the powers `t`. -/
theorem C115_decay (N t : ℕ) (s0 : Fin N → ℝ) (c α β1 β2 ε : ℝ) (u : GradientDescent N)
    (hu : GradientDescent.create .ADAM s0 c = some u) (e : ℕ → ℝ) (g : ℕ → Fin N → ℝ) :
    ((u.setParametersAdam α β1 β2 ε).after e g t).beta1t = β1 ^ (t + 1) ∧
    ((u.setParametersAdam α β1 β2 ε).after e g t).beta2t = β2 ^ (t + 1) := by
  unfold GradientDescent.create at hu
  by_cases hN : N < 1
  · rw [if_pos hN] at hu
    cases hu
  rw [if_neg hN] at hu
  have h0 : u.type = .ADAM := by rw [← Option.some.inj hu]
  have key : ∀ t, let a := (u.setParametersAdam α β1 β2 ε).after e g t
      a.type = .ADAM ∧ a.beta1 = β1 ∧ a.beta2 = β2 ∧ a.beta1t = β1 ^ (t + 1) ∧ a.beta2t = β2 ^ (t + 1) := by
    intro t
    induction t with
    | zero => exact ⟨h0, rfl, rfl, (pow_one _).symm, (pow_one _).symm⟩
    | succ t ih =>
      obtain ⟨h1, h2, h3, h4, h5⟩ := ih
      simp only [GradientDescent.after, GradientDescent.update, h1]
      exact ⟨trivial, h2, h3, by rw [h4, h2, ← pow_succ], by rw [h5, h3, ← pow_succ]⟩
  exact ⟨(key t).2.2.2.1, (key t).2.2.2.2⟩

/-- C115: a state of one parameter has no off-diagonal entries; their column then never has a number. -/
theorem C115_single {F : FloatText} (hF : F.Data) (stage : Option ℕ) (Z M : ℕ) (k : ℕ → KalmanFilter 1)
    (K : ℕ → Matrix (Fin 1) (Fin M) ℝ) (n : ℕ) (fs : Files) :
    ∃ fs' text, statusOfEpochs F stage (fun e => [(Z, .kalman (k e) (K e))]) n fs = some fs' ∧
      fs' (updaterName stage Z) = some text ∧ (fileTable text).length = n + 1 ∧
      ∀ r ∈ fileTable text, r[3]? = some (F.print none) := by
  obtain ⟨fs', h1, h2, -⟩ := C115_files hF stage (Zs := [Z]) (List.nodup_singleton Z)
    (fun e => [(Z, .kalman (k e) (K e))]) (fun _ => rfl) n fs
  obtain ⟨text, e1, e2⟩ := h2 0 Z (fun e => .kalman (k e) (K e)) (fun _ => rfl)
  refine ⟨fs', text, h1, e1, by rw [e2, List.length_map, List.length_range], ?_⟩
  rw [e2]
  intro r hr
  obtain ⟨e, -, rfl⟩ := List.mem_map.1 hr
  unfold StatusUpdater.row meanMagnitude
  simp

/-! ### Examples -/

open KalmanFilter in
/-- Two updates of a filter. -/
example : ∃ k k' : KalmanFilter 2, Run k 2 k' ∧
    (meanMagnitude Finset.univ fun p : Fin 2 × Fin 2 => (k'.P p.1 p.2 - k'.P p.2 p.1) / 2) = some 0 :=
  ⟨_, _, .step ![1, 2, 3] !![1, 2, 3; 4, 5, 6] (.step ![1] !![1; 2] .start),
    (C115_symmetric 2 2 (by decide) _ _ (.inl ⟨exampleStd, by norm_num [exampleStd, StdParams.Valid], fun _ => 1, _, rfl, rfl⟩)
      (.step ![1, 2, 3] !![1, 2, 3; 4, 5, 6] (.step ![1] !![1; 2] .start))).1⟩

/-- The decay rate shown after one update, with rate 1/2, is 1/4. -/
example : ∃ u : GradientDescent 2, GradientDescent.create .ADAM ![1, 2] 0 = some u ∧
    ((u.setParametersAdam 1 (1 / 2) (1 / 3) 1).after (fun _ => 1) (fun _ _ => 1) 1).beta1t = 1 / 4 := by
  refine ⟨_, rfl, (C115_decay 2 1 ![1, 2] 0 1 (1 / 2) (1 / 3) 1 _ rfl _ _).1.trans ?_⟩
  norm_num

/-- Updaters for hydrogen and oxygen, with one update in each epoch, during three epochs. -/
noncomputable def exStatus (e : ℕ) : List (ℕ × StatusUpdater) :=
  [(1, .descent (GradientDescent.after ⟨.ADAM, 1, 1 / 2, 1 / 3, 1, 1, 1 / 2, 1 / 3, ![1, 2], 0, 0⟩
      (fun _ => 1) (fun _ _ => 1) e)),
    (8, .kalman (M := 1) (⟨.STANDARD, e, 1, 0, 0, 0, 0, 1, 1, 0, 1, 0, 0, 0, ![1, 2], 1⟩ : KalmanFilter 2) !![1; 2])]

example : ∃ fs' text, statusOfEpochs exFloat (some 2) exStatus 3 (fun _ => none) = some fs' ∧
    fs' "updater.008.out.stage-2".toList = some text ∧ (fileTable text).length = 4 ∧
    ((fileTable text)[2]?.bind fun r => r[1]?) = some "2".toList := by
  obtain ⟨fs', h1, h2, -⟩ := C115_files exFloat_data (some 2) (Zs := [1, 8]) (by decide) exStatus (fun _ => rfl) 3
    (fun _ => none)
  obtain ⟨text, e1, e2⟩ := h2 1 8 _ (fun e => rfl)
  refine ⟨fs', text, h1, e1, ?_, ?_⟩
  · rw [e2]
    rfl
  · rw [e2]
    rfl

/-- A filter of one parameter during two epochs. -/
example : ∃ fs' text, statusOfEpochs exFloat none (fun e => [(0, .kalman (M := 1)
      (⟨.STANDARD, e, 1, 0, 0, 0, 0, 1, 1, 0, 1, 0, 0, 0, ![1], 1⟩ : KalmanFilter 1) !![2])]) 2 (fun _ => none) = some fs' ∧
    fs' "updater.000.out".toList = some text ∧ (fileTable text).length = 3 ∧
    ∀ r ∈ fileTable text, r[3]? = some (exFloat.print none) :=
  C115_single exFloat_data none 0 1 _ _ 2 _

end N2P2
