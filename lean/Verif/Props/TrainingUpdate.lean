import Verif.Lemma.TrainingAssembly

/-! Properties C51, C63-C67: weight vector, numeric derivatives, update plan, error vector and
Jacobian. -/

namespace N2P2

namespace Training

open NetShape NeuralNetwork

/-- Two elements with the network of `exampleShape`, used in the examples. -/
theorem example_nets : ∃ els : List ElementNet, els.length = 2 ∧ Nets (fun _ => exampleShape) els ∧
    (∀ e ∈ els, e.hardness = 9 ∧ e.nn.normalizeNeurons = false) := by
  have h : ∃ nn0, create exampleShape.numLayers exampleShape.n exampleShape.af = some nn0 :=
    ⟨_, rfl⟩
  obtain ⟨nn0, h0⟩ := h
  have hn : nn0.normalizeNeurons = false := by
    cases Option.some.inj h0; rfl
  have hp : 0 < exampleShape.numParams := by
    simp [NetShape.numParams, exampleShape, Finset.sum_range_succ]
  refine ⟨[⟨nn0, 9⟩, ⟨nn0, 9⟩], rfl, ?_, by simp [hn]⟩
  intro i e hi
  have : e.nn = nn0 := by
    match i with
    | 0 => simp at hi; rw [← hi]
    | 1 => simp at hi; rw [← hi]
    | i + 2 => simp at hi
  rw [this]
  exact ⟨.create h0, hp⟩

/-! ### C51 -/

/-- C51: the element offsets and the length of the weight vector; each entry of the vector has
exactly one meaning and each parameter (hardness) exactly one place. -/
theorem C51_layout (T : ℕ → NetShape) (hard : Bool) (els : List ElementNet) (h : Nets T els) :
    (initializeWeightsMemory hard els).1.length = els.length ∧
    (∀ i < els.length, (initializeWeightsMemory hard els).1[i]? = some (base T hard i)) ∧
    (∀ s : Slot, s.Valid T hard els.length → s.pos T hard < (initializeWeightsMemory hard els).2) ∧
    (∀ m < (initializeWeightsMemory hard els).2,
      ∃! s : Slot, s.Valid T hard els.length ∧ s.pos T hard = m) := by
  rw [initializeWeightsMemory_eq h]
  refine ⟨by simp, fun i hi => by simp [hi], fun s hs => Slot.pos_lt hs, fun m hm => ?_⟩
  obtain ⟨s, hs, rfl⟩ := Slot.exists_pos hm
  exact ⟨s, ⟨hs, rfl⟩, fun t ht => Slot.pos_inj ht.1 hs ht.2⟩

example : ∃ els : List ElementNet, Nets (fun _ => exampleShape) els ∧
    (initializeWeightsMemory true els) = ([0, 14], 28) := by
  obtain ⟨els, hl, h, -⟩ := example_nets
  refine ⟨els, h, ?_⟩
  rw [initializeWeightsMemory_eq h, hl]
  simp [base, NetShape.numParams, exampleShape, Finset.sum_range_succ, List.range_succ]

/-- C51: the helper functions for the numbers of connections agree with the layout without
hardness. -/
theorem C51_connection_helpers (T : ℕ → NetShape) (els : List ElementNet) (h : Nets T els) :
    getNumConnections els = (initializeWeightsMemory false els).2 ∧
    getConnectionOffsets els = (initializeWeightsMemory false els).1 ∧
    getNumConnectionsPerElement els = (List.range els.length).map fun i => (T i).numParams := by
  rw [initializeWeightsMemory_eq h, getNumConnections_eq h, getConnectionOffsets_eq h]
  exact ⟨rfl, rfl, getNumConnectionsPerElement_eq h⟩

/-- C51, limit: with hardness entries `getConnectionOffsets` is not the layout of the weight vector
from the second element on. -/
theorem C51_offsets_without_hardness (T : ℕ → NetShape) (els : List ElementNet) (h : Nets T els)
    (i : ℕ) (hi : i < els.length) :
    ∃ a b, (getConnectionOffsets els)[i]? = some a ∧
      (initializeWeightsMemory true els).1[i]? = some b ∧ b = a + i := by
  rw [initializeWeightsMemory_eq h, getConnectionOffsets_eq h]
  refine ⟨base T false i, base T true i, by simp [hi], by simp [hi], ?_⟩
  simp [base, Finset.sum_add_distrib]

/-- C51: collecting succeeds, writes to each entry of the vector the value it stands for, and nothing
beyond the vector. Where the hardness is part of the vector it must not be negative. -/
theorem C51_get (T : ℕ → NetShape) (hard : Bool) (els : List ElementNet) (h : Nets T els)
    (_hh : hard = true → ∀ e ∈ els, 0 ≤ e.hardness) (w : Buf) :
    ∃ w', getWeights hard els w = some w' ∧
      (∀ s : Slot, s.Valid T hard els.length → s.value els = some (w' (s.pos T hard))) ∧
      ∀ m ≥ (initializeWeightsMemory hard els).2, w' m = w m := by
  obtain ⟨w', e1, e2, e3⟩ := getWeights_spec (hard := hard) h w
  refine ⟨w', e1, fun s hs => ?_, by rw [initializeWeightsMemory_eq h]; exact e2⟩
  cases s with
  | param i p =>
    have hi := List.getElem?_eq_getElem hs.1
    rw [Slot.value, hi, Slot.pos, (e3 i _ hi).1 p hs.2]; rfl
  | hardness i =>
    have hi := List.getElem?_eq_getElem hs.1
    rw [Slot.value, hi, Slot.pos, (e3 i _ hi).2 hs.2]; rfl

/-- C51: distributing succeeds and gives each parameter the value of its entry; the hardness becomes
the square of its entry, or stays if it is not part of the vector. -/
theorem C51_set (T : ℕ → NetShape) (hard : Bool) (els : List ElementNet) (h : Nets T els) (w : Buf) :
    ∃ els', setWeights hard els w = some els' ∧ els'.length = els.length ∧ Nets T els' ∧
      (∀ i p, (Slot.param i p).Valid T hard els.length →
        (Slot.param i p).value els' = some (w ((Slot.param i p).pos T hard))) ∧
      ∀ (i : ℕ) (e : ElementNet), els[i]? = some e → els'[i]?.map ElementNet.hardness
        = some (if hard then w ((Slot.hardness i).pos T hard) ^ 2 else e.hardness) := by
  obtain ⟨els', e1, e2, e3⟩ := setWeights_spec (hard := hard) h w
  refine ⟨els', e1, e2, h.setWeights e1, fun i p hp => ?_, fun i e hi => ?_⟩
  · have hi := List.getElem?_eq_getElem hp.1
    rw [Slot.value, e3 i _ hi]
    simp only [Option.map_some, Slot.pos]
    rw [read_setConnections (h i _ hi).1.hasShape _ hp.2]; rfl
  · rw [e3 i e hi]; rfl

/-- C51: collecting and distributing again changes nothing. Where the hardness is part of the vector
it must not be negative. -/
theorem C51_get_set (T : ℕ → NetShape) (hard : Bool) (els : List ElementNet) (h : Nets T els)
    (hh : hard = true → ∀ e ∈ els, 0 ≤ e.hardness) (target w : Buf)
    (hw : getWeights hard els target = some w) : setWeights hard els w = some els := by
  obtain ⟨w', e1, e2, e3⟩ := getWeights_spec (hard := hard) h target
  rw [hw] at e1; cases Option.some.inj e1
  obtain ⟨els', f1, f2, f3⟩ := setWeights_spec (hard := hard) h w
  rw [f1]
  congr 1
  refine List.ext_getElem? fun i => ?_
  by_cases hi : i < els.length
  · have e := List.getElem?_eq_getElem hi
    rw [f3 i _ e, e]
    obtain ⟨g1, g2⟩ := e3 i _ e
    rw [setConnections_self (h i _ e).1.hasShape (c := w.from (base T hard i)) g1]
    congr 1
    cases hard with
    | false => rfl
    | true =>
      rw [g2 rfl]
      simp only [if_true]
      rw [Real.sq_sqrt (hh rfl _ (List.getElem_mem hi))]
  · rw [List.getElem?_eq_none (by omega), List.getElem?_eq_none (by omega)]

/-- C51: distributing and collecting again returns the vector; of entries for the hardness the
absolute value. -/
theorem C51_set_get (T : ℕ → NetShape) (hard : Bool) (els els' : List ElementNet) (h : Nets T els)
    (w target : Buf) (hs : setWeights hard els w = some els') :
    ∃ w', getWeights hard els' target = some w' ∧
      (∀ i p, (Slot.param i p).Valid T hard els.length →
        w' ((Slot.param i p).pos T hard) = w ((Slot.param i p).pos T hard)) ∧
      ∀ i, (Slot.hardness i).Valid T hard els.length →
        w' ((Slot.hardness i).pos T hard) = |w ((Slot.hardness i).pos T hard)| := by
  obtain ⟨e2, f1, f2, f3, f4, f5⟩ := C51_set T hard els h w
  rw [hs] at f1; cases Option.some.inj f1
  have hh : hard = true → ∀ e ∈ els', 0 ≤ e.hardness := by
    intro hh e he
    obtain ⟨i, hi, rfl⟩ := List.getElem_of_mem he
    have := f5 i _ (List.getElem?_eq_getElem (show i < els.length by omega))
    rw [List.getElem?_eq_getElem hi, if_pos hh] at this
    simp only [Option.map_some, Option.some.injEq] at this
    rw [this]; positivity
  obtain ⟨w', g1, g2, -⟩ := C51_get T hard els' f3 hh target
  rw [f2] at g2
  refine ⟨w', g1, fun i p hp => ?_, fun i hi => ?_⟩
  · have := g2 _ hp
    rw [f4 i p hp] at this
    exact (Option.some.inj this).symm
  · have a1 := g2 _ hi
    have a2 := f5 i _ (List.getElem?_eq_getElem hi.1)
    rw [Slot.value] at a1
    have hl : i < els'.length := by rw [f2]; exact hi.1
    rw [List.getElem?_eq_getElem hl] at a1 a2
    simp only [Option.map_some, Option.some.injEq] at a1 a2
    rw [← a1, a2, if_pos hi.2, Real.sqrt_sq_eq_abs]

example : ∃ els : List ElementNet, Nets (fun _ => exampleShape) els ∧ els.length = 2 ∧
    ∀ e ∈ els, 0 < e.hardness := by
  obtain ⟨els, hl, h, hh⟩ := example_nets
  exact ⟨els, h, hl, fun e he => by rw [(hh e he).1]; norm_num⟩

/-- C51: one vector per element (`US_ELEMENT`). -/
theorem C51_element (T : ℕ → NetShape) (els : List ElementNet) (h : Nets T els) (ws : List Buf)
    (hw : ws.length = els.length) :
    setWeightsElement els (getWeightsElement els ws) = els ∧
    ∀ (i : ℕ) (w' w : Buf), (getWeightsElement (setWeightsElement els ws) ws)[i]? = some w' →
      ws[i]? = some w → w' = w := by
  constructor
  · refine List.ext_getElem? fun i => ?_
    by_cases hi : i < els.length
    · have e := List.getElem?_eq_getElem hi
      have e' := List.getElem?_eq_getElem (show i < ws.length by omega)
      simp only [setWeightsElement, getWeightsElement, List.getElem?_zipWith, e, e']
      rw [C17_get_set _ _ _ _ (h i _ e).1]
    · rw [List.getElem?_eq_none, List.getElem?_eq_none (by omega)]
      simp [setWeightsElement, getWeightsElement]; omega
  · intro i w' w h1 h2
    by_cases hi : i < els.length
    · have e := List.getElem?_eq_getElem hi
      simp only [setWeightsElement, getWeightsElement, List.getElem?_zipWith, e, h2,
        Option.some.injEq] at h1
      rw [← h1]
      funext m
      rw [C17_set_get _ _ _ _ (h i _ e).1]
      split_ifs <;> rfl
    · rw [List.getElem?_eq_none (by omega)] at h2; cases h2

/-! ### C63 -/

/-- C63: the numeric derivatives are the central differences of the energy, one for each entry of the
weight vector in order, and the weight vector is unchanged afterwards. -/
theorem C63_central_differences_partial (T : ℕ → NetShape) (els : List ElementNet) (h : Nets T els)
    (energy : List ElementNet → ℝ) (delta : ℝ) (w : Buf) :
    ∃ s, dPdcN energy delta els w = some s ∧ s.w = w ∧
      s.out.length = (initializeWeightsMemory false els).2 ∧
      ∀ m < (initializeWeightsMemory false els).2, ∃ hi lo,
        setWeights false els (Function.update w m (w m + delta)) = some hi ∧
        setWeights false els (Function.update w m (w m - delta)) = some lo ∧
        s.out[m]? = some ((energy hi - energy lo) / (2 * delta)) := by
  rw [initializeWeightsMemory_eq h]
  obtain ⟨s, e1, e2, -, -, e3, e4, -⟩ := dPdcN_loop h energy delta w (base T false els.length)
  refine ⟨s, ?_, e2, e3, e4⟩
  rw [dPdcN, dPdcNSlots_eq h]; exact e1

/-- C63, disagreement: the networks are not restored. If they agreed with the weight vector before,
afterwards the last parameter of the last network is too small by `delta`. -/
theorem C63_networks_perturbed (T : ℕ → NetShape) (els : List ElementNet) (h : Nets T els)
    (hne : els ≠ []) (energy : List ElementNet → ℝ) (delta : ℝ) (hd : delta ≠ 0) (w : Buf)
    (hw : setWeights false els w = some els) (s : DState) (hs : dPdcN energy delta els w = some s) :
    s.els ≠ els ∧ ∃ w', getWeights false s.els w = some w' ∧
      w' = Function.update w ((initializeWeightsMemory false els).2 - 1)
        (w ((initializeWeightsMemory false els).2 - 1) - delta) := by
  rw [initializeWeightsMemory_eq h]
  have hpos : 0 < base T false els.length := by
    obtain ⟨e, es, rfl⟩ := List.exists_cons_of_ne_nil hne
    rw [List.length_cons, base_shift]
    have := h.head.2.2
    omega
  obtain ⟨s', e1, -, -, -, -, -, -, e8⟩ := dPdcN_loop h energy delta w (base T false els.length)
  rw [dPdcN, dPdcNSlots_eq h] at hs
  rw [hs] at e1; cases Option.some.inj e1
  have e8 := e8 (base T false els.length - 1) (by omega)
  have hget : ∀ (v : Buf) (els' : List ElementNet), setWeights false els v = some els' →
      (∀ m ≥ base T false els.length, v m = w m) → getWeights false els' w = some v := by
    intro v els' hv hvm
    obtain ⟨els2, q1, q2, q3, q4, q5⟩ := C51_set T false els h v
    rw [hv] at q1; cases Option.some.inj q1
    obtain ⟨w', g1, g2, g3⟩ := C51_get T false els' q3 (by simp) w
    rw [g1]
    congr 1
    funext m
    by_cases hm : m < base T false els.length
    · obtain ⟨sl, hsl, rfl⟩ := Slot.exists_pos hm
      cases sl with
      | hardness i => cases hsl.2
      | param i p =>
        have := g2 (.param i p) (by rw [q2]; exact hsl)
        rw [q4 i p hsl] at this
        exact (Option.some.inj this).symm
    · rw [g3 m (by rw [initializeWeightsMemory_eq q3, q2]; simpa using hm), hvm m (by omega)]
  have hfin := hget _ _ e8 (fun m hm => by rw [Buf.set_apply, if_neg (by omega)])
  refine ⟨fun hc => ?_, _, hfin, rfl⟩
  have h0 := hget w els hw (fun _ _ => rfl)
  rw [hc, h0] at hfin
  have := congrFun (Option.some.inj hfin) (base T false els.length - 1)
  rw [Buf.set_apply, if_pos rfl] at this
  apply hd
  linarith

example : ∃ (els : List ElementNet) (w : Buf), Nets (fun _ => exampleShape) els ∧ els ≠ [] ∧
    setWeights false els w = some els := by
  obtain ⟨els, hl, h, -⟩ := example_nets
  obtain ⟨w, hw, -⟩ := C51_get _ false els h (by simp) (fun _ => 0)
  exact ⟨els, w, h, by rintro rfl; simp at hl,
    C51_get_set _ false els h (by simp) (fun _ => 0) w hw⟩

/-! ### C64 -/

/-- C64: with a batch size, the patterns used in an epoch by all processes are at most the requested
fraction of the training patterns, and one more update would exceed it. -/
theorem C64_updates_per_epoch (batch patterns procs : ℕ) (fraction : ℝ) (hb : 0 < batch)
    (hp : 0 < procs) (hf : 0 ≤ fraction) (numCandidates : ℕ) :
    patternsPerUpdate batch numCandidates fraction = batch ∧
    (numUpdates batch patterns procs fraction * (batch * procs) : ℝ) ≤ patterns * fraction ∧
    (patterns * fraction : ℝ) < (numUpdates batch patterns procs fraction + 1) * (batch * procs) := by
  have hb' : (0 : ℝ) < batch := by exact_mod_cast hb
  have hp' : (0 : ℝ) < procs := by exact_mod_cast hp
  have hx : (0 : ℝ) ≤ patterns * fraction / batch / procs := by positivity
  unfold patternsPerUpdate numUpdates
  rw [if_neg (by omega), if_neg (by omega)]
  refine ⟨rfl, ?_, ?_⟩
  · have := Nat.floor_le hx
    rw [div_div, le_div_iff₀ (by positivity)] at this
    rw [div_div]
    exact this
  · have := Nat.lt_floor_add_one ((patterns : ℝ) * fraction / batch / procs)
    rw [div_div, div_lt_iff₀ (by positivity)] at this
    rw [div_div]
    exact this

/-- C64, limit: a property whose requested fraction is less than one global batch is never
trained. -/
theorem C64_no_updates (batch patterns procs : ℕ) (fraction : ℝ) (hb : 0 < batch)
    (hp : 0 < procs) (hf : 0 ≤ fraction) :
    numUpdates batch patterns procs fraction = 0 ↔ (patterns * fraction : ℝ) < batch * procs := by
  obtain ⟨-, h1, h2⟩ := C64_updates_per_epoch batch patterns procs fraction hb hp hf 0
  constructor
  · intro h
    rw [h] at h2
    simpa using h2
  · intro h
    by_contra hne
    have h3 : (1 : ℝ) ≤ numUpdates batch patterns procs fraction := by
      exact_mod_cast Nat.one_le_iff_ne_zero.mpr hne
    have hb' : (0 : ℝ) < batch := by exact_mod_cast hb
    have hp' : (0 : ℝ) < procs := by exact_mod_cast hp
    have : (batch * procs : ℝ) ≤ numUpdates batch patterns procs fraction * (batch * procs) :=
      le_mul_of_one_le_left (by positivity) h3
    linarith

/-- C64: without batch size there is one update, with the requested fraction of the candidates of
each process, rounded down. -/
theorem C64_full_batch (candidates : List ℕ) (patterns procs : ℕ) (fraction : ℝ)
    (hf : 0 ≤ fraction) :
    numUpdates 0 patterns procs fraction = 1 ∧
    ((candidates.map fun n => patternsPerUpdate 0 n fraction).sum : ℝ) ≤ candidates.sum * fraction ∧
    (candidates.sum * fraction : ℝ)
      ≤ (candidates.map fun n => patternsPerUpdate 0 n fraction).sum + candidates.length := by
  refine ⟨rfl, ?_, ?_⟩
  · induction candidates with
    | nil => simp
    | cons n l ih =>
      simp only [List.map_cons, List.sum_cons, Nat.cast_add, add_mul]
      have := Nat.floor_le (show (0 : ℝ) ≤ n * fraction by positivity)
      have e : patternsPerUpdate 0 n fraction = ⌊(n : ℝ) * fraction⌋₊ := rfl
      rw [e]; linarith
  · induction candidates with
    | nil => simp
    | cons n l ih =>
      simp only [List.map_cons, List.sum_cons, Nat.cast_add, add_mul, List.length_cons, Nat.cast_one]
      have := Nat.lt_floor_add_one ((n : ℝ) * fraction)
      have e : patternsPerUpdate 0 n fraction = ⌊(n : ℝ) * fraction⌋₊ := rfl
      rw [e]; linarith

example : numUpdates 2 100 3 (1 / 2) = 8 := by
  rw [numUpdates, if_neg (by norm_num)]
  rw [Nat.floor_eq_iff (by norm_num)]
  norm_num

/-- C64: the places of the processes in the global error vector do not overlap and fill it. -/
theorem C64_error_slots (jm : JacobianMode) (ppu : List ℕ) :
    (errorsPerTask jm ppu).length = ppu.length ∧
    (offsetPerTask (errorsPerTask jm ppu)).1.length = ppu.length ∧
    ∀ g < (offsetPerTask (errorsPerTask jm ppu)).2, ∃! tk : ℕ × ℕ, ∃ cnt off,
      (errorsPerTask jm ppu)[tk.1]? = some cnt ∧
      (offsetPerTask (errorsPerTask jm ppu)).1[tk.1]? = some off ∧ tk.2 < cnt ∧ g = off + tk.2 := by
  have hl : (errorsPerTask jm ppu).length = ppu.length := by
    unfold errorsPerTask; split_ifs <;> simp
  refine ⟨hl, by rw [offsetPerTask_eq]; simp [hl], fun g hg => ?_⟩
  rw [offsetPerTask_eq] at hg
  obtain ⟨t, ht, k, hk, e⟩ := exists_task _ hg
  refine ⟨(t, k), ⟨_, _, List.getElem?_eq_getElem ht, offsetPerTask_get _ ht, hk, e⟩, ?_⟩
  rintro ⟨t', k'⟩ ⟨cnt, off, h1, h2, h3, h4⟩
  simp only at h1 h2 h3 h4
  obtain ⟨ht', e1⟩ := List.getElem?_eq_some_iff.mp h1
  rw [offsetPerTask_get _ ht'] at h2
  cases Option.some.inj h2
  obtain ⟨a, b⟩ := task_unique _ ht' ht (by rw [e1]; exact h3) hk (by omega)
  rw [a, b]

example : offsetPerTask (errorsPerTask .full [2, 0, 3]) = ([0, 2, 2], 5) := by decide

/-! ### C65 -/

/-- C65: what the updater gets, in both parallel modes. `ppu` holds the batch sizes of the processes,
`e t b` is the error of the candidate in batch position `b` of process `t`, `d t b m` its derivative
with respect to weight `m`, `c` the weight of the property.
Sum: one error and one row, the totals. Task: one error and row per process, the totals of each
process. Full: one error and row per candidate. The row of the Jacobian always belongs to the error
with the same number. -/
theorem C65_assembly_partial (pm : ParallelMode) (jm : JacobianMode) (ppu : List ℕ) (nw : ℕ) (c : ℝ)
    (e : ℕ → ℕ → ℝ) (d : ℕ → ℕ → ℕ → ℝ) (err jac : Buf) (cnt off : ℕ → ℕ)
    (hcnt : ∀ t < ppu.length, (errorsPerTask jm ppu)[t]? = some (cnt t))
    (hoff : ∀ t < ppu.length, (offsetPerTask (errorsPerTask jm ppu)).1[t]? = some (off t))
    (hc : Collected pm jm ppu.length nw cnt off
      (fun t => scaleBy c (localError false jm (rankBase pm jm off t) (ppu.getD t 0) (e t)))
      (fun t => scaleBy c (localJacobian jm (rankBase pm jm off t) nw (ppu.getD t 0) (d t)))
      err jac) :
    match jm with
    | .sum =>
      err 0 = c * ∑ t ∈ Finset.range ppu.length, ∑ b ∈ Finset.range (ppu.getD t 0), e t b ∧
      ∀ m < nw, jac m
        = c * ∑ t ∈ Finset.range ppu.length, ∑ b ∈ Finset.range (ppu.getD t 0), d t b m
    | .task => ∀ t < ppu.length,
      err t = c * ∑ b ∈ Finset.range (ppu.getD t 0), e t b ∧
      ∀ m < nw, jac (t * nw + m) = c * ∑ b ∈ Finset.range (ppu.getD t 0), d t b m
    | .full => ∀ t < ppu.length, ∀ b < ppu.getD t 0,
      err (off t + b) = c * e t b ∧ ∀ m < nw, jac ((off t + b) * nw + m) = c * d t b m := by
  cases jm with
  | sum =>
    obtain ⟨h1, h2⟩ := hc
    have hb : ∀ t, rankBase pm .sum off t = 0 := fun t => by simp [rankBase]
    constructor
    · rw [h1, Finset.mul_sum]
      refine Finset.sum_congr rfl fun t _ => ?_
      simp only [scaleBy]
      rw [hb, localError_sum (by simp), mul_comm]
    · intro m hm
      rw [h2 m hm, Finset.mul_sum]
      refine Finset.sum_congr rfl fun t _ => ?_
      have := localJacobian_sum (jm := .sum) (by simp) 0 nw (ppu.getD t 0) (d t) m hm
      simp only [Nat.zero_mul, Nat.zero_add] at this
      simp only [scaleBy]
      rw [hb, this, mul_comm]
  | task =>
    intro t ht
    obtain ⟨h1, h2⟩ := hc t ht
    have hofft : off t = t := by
      have := hoff t ht
      rw [offsetPerTask_get _ (by simpa [errorsPerTask] using ht)] at this
      rw [← Option.some.inj this]
      have : ∀ (l : List ℕ) (t : ℕ), t < l.length → ((l.map fun _ => 1).take t).sum = t := by
        intro l
        induction l with
        | nil => simp
        | cons a l ih =>
          intro t ht
          cases t with
          | zero => simp
          | succ t =>
            have := ih t (by simpa using ht)
            simp only [List.map_cons, List.take_succ_cons, List.sum_cons, this]; omega
      exact this ppu t ht
    have hb : rankBase pm .task off t = if pm = .trainAll then t else 0 := by
      by_cases hpm : pm = .trainAll <;> simp [rankBase, hpm, hofft]
    constructor
    · rw [h1]
      simp only [scaleBy]
      rw [hb, localError_sum (by simp), mul_comm]
    · intro m hm
      rw [h2 m hm]
      simp only [scaleBy]
      rw [hb, localJacobian_sum (by simp) _ _ _ _ m hm, mul_comm]
  | full =>
    intro t ht b hbt
    obtain ⟨h1, h2⟩ := hc t ht
    have hcntt : cnt t = ppu.getD t 0 := by
      have := hcnt t ht
      simp only [errorsPerTask, if_true] at this
      simp [List.getD_eq_getElem?_getD, this]
    have hb : rankBase pm .full off t = if pm = .trainAll then off t else 0 := by
      by_cases hpm : pm = .trainAll <;> simp [rankBase, hpm]
    constructor
    · rw [h1 b (by omega)]
      simp only [scaleBy]
      rw [hb, localError_full _ _ _ _ b hbt, mul_comm]
    · intro m hm
      have hlt : b * nw + m < cnt t * nw := by
        have : (b + 1) * nw ≤ cnt t * nw := Nat.mul_le_mul_right _ (by omega)
        rw [Nat.add_mul] at this; omega
      have := h2 (b * nw + m) hlt
      rw [Nat.add_mul, Nat.add_assoc, this]
      simp only [scaleBy]
      rw [hb, ← Nat.add_assoc, ← Nat.add_mul,
        localJacobian_full _ _ _ _ b hbt m hm, mul_comm]

/-- The situation of `C65_assembly_partial` exists: two processes with batches of two and one, full mode. -/
example : ∃ err jac : Buf, Collected .trainRk0 .full 2 1 (fun t => if t = 0 then 2 else 1)
    (fun t => if t = 0 then 0 else 2)
    (fun t => scaleBy 10 (localError false .full (rankBase .trainRk0 .full
      (fun t => if t = 0 then 0 else 2) t) ([2, 1].getD t 0) (fun b => t + b + 1)))
    (fun t => scaleBy 10 (localJacobian .full (rankBase .trainRk0 .full
      (fun t => if t = 0 then 0 else 2) t) 1 ([2, 1].getD t 0) (fun b _ => t + b + 2))) err jac ∧
    err 2 = 20 ∧ jac 1 = 30 := by
  refine ⟨fun g => if g = 0 then 10 else 20, fun g => if g = 0 then 20 else 30, ?_, by simp, by simp⟩
  intro t ht
  have : t = 0 ∨ t = 1 := by omega
  rcases this with rfl | rfl
  · refine ⟨fun k hk => ?_, fun k hk => ?_⟩ <;>
      (simp at hk; have : k = 0 ∨ k = 1 := by omega) <;>
      rcases this with rfl | rfl <;>
      simp [scaleBy, localError, localJacobian, loop, rankBase, Buf.set_apply] <;> norm_num
  · refine ⟨fun k hk => ?_, fun k hk => ?_⟩ <;>
      (simp at hk; subst hk) <;>
      simp [scaleBy, localError, localJacobian, loop, rankBase, Buf.set_apply] <;> norm_num

/-- C65, disagreement: for charges with HDNNP-4G the error is assigned instead of added, so with more
than one candidate per batch only the last one counts, while the Jacobian sums all of them. -/
theorem C65_charge_error_lost (jm : JacobianMode) (h : jm ≠ .full) (base nb nw : ℕ) (e : ℕ → ℝ)
    (d : ℕ → ℕ → ℝ) (m : ℕ) (hm : m < nw) :
    localError true jm base (nb + 1) e base = e nb ∧
    localJacobian jm base nw (nb + 1) d (base * nw + m) = ∑ b ∈ Finset.range (nb + 1), d b m :=
  ⟨localError_assign h base nb e, localJacobian_sum h base nw (nb + 1) d m hm⟩

/-! ### C66 and C67 -/

/-- C66: the Jacobian row of an energy update is the gradient of the total energy with respect to the
weight vector, and the stored atomic energies are the network outputs, whatever is left in the scratch
arrays and whatever was evaluated before. -/
theorem C66_energy_jacobian (T : ℕ → NetShape) (w : Buf) (els : List ElementNet)
    (hT : ∀ i < els.length, (T i).Sensible ∧ (T i).n (T i).out = 1) (hN : Nets T els)
    (hs : InSync T w els) (dXdc : ℕ → Buf) (atoms : List AtomIn)
    (hA : ∀ a ∈ atoms, a.Fits T els.length w) :
    ∃ s, energyJacobian (fun i => (initializeWeightsMemory false els).1.getD i 0) els dXdc atoms
        = some s ∧
      (∀ m, HasDerivAt (fun x => (atoms.map (atomEnergy T (Function.update w m x))).sum)
        (s.jac m) (w m)) ∧
      (∀ m ≥ (initializeWeightsMemory false els).2, s.jac m = 0) ∧
      s.energies = atoms.map (atomEnergy T w) ∧ InSync T w s.els := by
  have ho : ∀ i < els.length, (initializeWeightsMemory false els).1.getD i 0 = base T false i := by
    intro i hi
    rw [initializeWeightsMemory_eq hN]
    simp [List.getD_eq_getElem?_getD, hi]
  obtain ⟨s, e1, e2, -, e4, d, e5, e6, e7⟩ := jacobian_foldlM (atomEnergy T)
    (energyJacobianAtom _) (fun s a => energyJacobianAtom_spec (fun i hi => (hT i hi).1)
      (fun i hi => (hT i hi).2) _ ho s a) atoms hA ⟨els, dXdc, fun _ => 0, []⟩ hs rfl
  refine ⟨s, e1, fun m => ?_, fun m hm => ?_, ?_, e2⟩
  · rw [e5 m]; simpa using e7 m
  · rw [initializeWeightsMemory_eq hN] at hm
    rw [e5 m, e6 m hm, add_zero]
  · rw [e4, List.nil_append]
    refine List.map_congr_left fun a ha => ?_
    rw [atomEnergy, C20_energy _ _ _ (hT _ (hA a ha).1).2]

/-- C67: the Jacobian row of a force update is the gradient of the force component with respect to
the weight vector. -/
theorem C67_force_jacobian (T : ℕ → NetShape) (w : Buf) (els : List ElementNet)
    (hT : ∀ i < els.length, (T i).Sensible ∧ (T i).n (T i).out = 1) (hN : Nets T els)
    (hs : InSync T w els) (dXdc : ℕ → Buf) (atoms : List AtomIn)
    (hA : ∀ a ∈ atoms, a.Fits T els.length w) :
    ∃ s, forceJacobian (fun i => (initializeWeightsMemory false els).1.getD i 0) els dXdc atoms
        = some s ∧
      (∀ m, HasDerivAt (fun x => (atoms.map (atomForce T (Function.update w m x))).sum)
        (s.jac m) (w m)) ∧
      (∀ m ≥ (initializeWeightsMemory false els).2, s.jac m = 0) ∧
      s.energies = atoms.map (atomEnergy T w) ∧ InSync T w s.els := by
  have ho : ∀ i < els.length, (initializeWeightsMemory false els).1.getD i 0 = base T false i := by
    intro i hi
    rw [initializeWeightsMemory_eq hN]
    simp [List.getD_eq_getElem?_getD, hi]
  obtain ⟨s, e1, e2, -, e4, d, e5, e6, e7⟩ := jacobian_foldlM (atomForce T)
    (forceJacobianAtom _) (fun s a => forceJacobianAtom_spec (fun i hi => (hT i hi).1)
      (fun i hi => (hT i hi).2) _ ho s a) atoms hA ⟨els, dXdc, fun _ => 0, []⟩ hs rfl
  refine ⟨s, e1, fun m => ?_, fun m hm => ?_, ?_, e2⟩
  · rw [e5 m]; simpa using e7 m
  · rw [initializeWeightsMemory_eq hN] at hm
    rw [e5 m, e6 m hm, add_zero]
  · rw [e4, List.nil_append]
    refine List.map_congr_left fun a ha => ?_
    rw [atomEnergy, C20_energy _ _ _ (hT _ (hA a ha).1).2]

/-- C66, C67: the networks are in sync after distributing a weight vector. -/
theorem C66_setWeights_sync (T : ℕ → NetShape) (els els' : List ElementNet) (hN : Nets T els)
    (hn : ∀ (i : ℕ) (e : ElementNet), els[i]? = some e → e.nn.normalizeNeurons = (T i).norm)
    (w : Buf) (h : setWeights false els w = some els') : InSync T w els' ∧ Nets T els' := by
  refine ⟨?_, hN.setWeights h⟩
  obtain ⟨els2, e1, e2, e3⟩ := setWeights_spec (hard := false) hN w
  rw [h] at e1; cases Option.some.inj e1
  intro i e' hi
  have hlt : i < els.length := by rw [← e2]; exact (List.getElem?_eq_some_iff.mp hi).1
  have hg := List.getElem?_eq_getElem hlt
  have := e3 i _ hg
  rw [hi] at this
  cases Option.some.inj this
  exact ⟨hn i els[i] hg, _, (hN i _ hg).1, .refl _⟩

/-- Two elements, two atoms and inputs meeting the hypotheses of `C66_energy_jacobian`. -/
example : ∃ (T : ℕ → NetShape) (w : Buf) (els : List ElementNet) (atoms : List AtomIn),
    (∀ i < els.length, (T i).Sensible ∧ (T i).n (T i).out = 1) ∧ Nets T els ∧ InSync T w els ∧
    atoms.length = 2 ∧ ∀ a ∈ atoms, a.Fits T els.length w := by
  obtain ⟨els, hl, h, hh⟩ := example_nets
  have h' : Nets (fun _ => { exampleShape with norm := false }) els := h
  obtain ⟨els', e1, e2, -⟩ := setWeights_spec (hard := false) h' (fun m => m)
  obtain ⟨a, b⟩ := C66_setWeights_sync _ els els' h'
    (fun i e hi => (hh e (List.mem_of_getElem? hi)).2) _ e1
  refine ⟨fun _ => { exampleShape with norm := false }, _, els', [⟨0, 2, fun j => j, fun j => j⟩, ⟨1, 2, fun j => j + 1, fun j => j⟩],
    fun i _ => ⟨exampleShape_sensible, rfl⟩, b, a, rfl, ?_⟩
  intro x hx
  refine ⟨?_, ?_, ?_⟩
  · simp at hx; rcases hx with rfl | rfl <;> simp <;> omega
  · simp at hx; rcases hx with rfl | rfl <;> rfl
  · intro l _ k _
    simp only [exampleShape]
    split_ifs <;> trivial

end Training

end N2P2
