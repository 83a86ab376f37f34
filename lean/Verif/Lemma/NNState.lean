import Verif.Lemma.NNParam

/-! What the calls on a network object change: layer sizes never, weights and biases only in
setConnections and modifyConnections. -/

namespace N2P2

open NetShape

namespace NeuralNetwork

/-- Shape of a network made by the constructor. -/
structure HasShape (L : ℕ) (n : ℕ → ℕ) (af : ℕ → Activation) (nn : NeuralNetwork) : Prop where
  three : 3 ≤ L
  numLayers : nn.numLayers = L
  numHidden : nn.numHiddenLayers = L - 2
  size : ∀ i, (nn.layers i).numNeurons = n i
  prev : ∀ i, (nn.layers (i + 1)).numNeuronsPrevLayer = n i
  act : ∀ i, (nn.layers i).activationFunction = af i
  wOff : ∀ i, nn.weightOffset i = offset n i
  bOff : ∀ i, nn.biasOffset i = offset n i + n i * n (i + 1)
  boOff : ∀ i, nn.biasOnlyOffset i = ∑ l ∈ Finset.range i, n (l + 1)
  numConn : nn.numConnections = offset n (L - 1)
  numW : nn.numWeights = ∑ l ∈ Finset.range (L - 1), n l * n (l + 1)
  numB : nn.numBiases = ∑ l ∈ Finset.range (L - 1), n (l + 1)

/-- Only neurons and the normalisation switch differ. -/
structure SameTop (a b : NeuralNetwork) : Prop where
  numLayers : b.numLayers = a.numLayers
  numHidden : b.numHiddenLayers = a.numHiddenLayers
  size : ∀ i, (b.layers i).numNeurons = (a.layers i).numNeurons
  prev : ∀ i, (b.layers i).numNeuronsPrevLayer = (a.layers i).numNeuronsPrevLayer
  act : ∀ i, (b.layers i).activationFunction = (a.layers i).activationFunction
  wOff : b.weightOffset = a.weightOffset
  bOff : b.biasOffset = a.biasOffset
  boOff : b.biasOnlyOffset = a.biasOnlyOffset
  numConn : b.numConnections = a.numConnections
  numW : b.numWeights = a.numWeights
  numB : b.numBiases = a.numBiases

theorem HasShape.of_same {L : ℕ} {n : ℕ → ℕ} {af : ℕ → Activation} {a b : NeuralNetwork}
    (h : HasShape L n af a) (s : SameTop a b) : HasShape L n af b where
  three := h.three
  numLayers := s.numLayers.trans h.numLayers
  numHidden := s.numHidden.trans h.numHidden
  size i := (s.size i).trans (h.size i)
  prev i := (s.prev _).trans (h.prev i)
  act i := (s.act i).trans (h.act i)
  wOff i := by rw [s.wOff]; exact h.wOff i
  bOff i := by rw [s.bOff]; exact h.bOff i
  boOff i := by rw [s.boOff]; exact h.boOff i
  numConn := s.numConn.trans h.numConn
  numW := s.numW.trans h.numW
  numB := s.numB.trans h.numB

/-- The layers have the same sizes and activation functions. -/
def SameLayers (a b : ℕ → Layer) : Prop :=
  ∀ i, (b i).numNeurons = (a i).numNeurons ∧
    (b i).numNeuronsPrevLayer = (a i).numNeuronsPrevLayer ∧
    (b i).activationFunction = (a i).activationFunction

theorem SameLayers.refl (a : ℕ → Layer) : SameLayers a a := fun _ => ⟨rfl, rfl, rfl⟩

theorem SameLayers.trans {a b c : ℕ → Layer} (h : SameLayers a b) (k : SameLayers b c) :
    SameLayers a c := fun i =>
  ⟨(k i).1.trans (h i).1, (k i).2.1.trans (h i).2.1, (k i).2.2.trans (h i).2.2⟩

theorem SameLayers.top {nn : NeuralNetwork} {l : ℕ → Layer} {f : Bool}
    (h : SameLayers nn.layers l) :
    SameTop nn { nn with layers := l, normalizeNeurons := f } :=
  ⟨rfl, rfl, fun i => (h i).1, fun i => (h i).2.1, fun i => (h i).2.2, rfl, rfl, rfl, rfl, rfl, rfl⟩

theorem SameLayers.update {a b : ℕ → Layer} (h : SameLayers a b) (i : ℕ) (ns : ℕ → Neuron) :
    SameLayers a (Function.update b i { b i with neurons := ns }) := by
  intro i'
  by_cases e : i' = i
  · subst e; simpa using h i'
  · rw [Function.update_of_ne e]; exact h i'

theorem sameLayers_modifyNeuron {a b : ℕ → Layer} (h : SameLayers a b) (i k : ℕ)
    (f : Neuron → Neuron) : SameLayers a (modifyNeuron b i k f) := h.update i _

theorem mkWeightOffset_eq (n : ℕ → ℕ) (i : ℕ) : mkWeightOffset n i = offset n i := by
  induction i with
  | zero => simp [mkWeightOffset, offset]
  | succ i ih => rw [mkWeightOffset, ih, offset_succ]

theorem mkBiasOnlyOffset_eq (n : ℕ → ℕ) (i : ℕ) :
    mkBiasOnlyOffset n i = ∑ l ∈ Finset.range i, n (l + 1) := by
  induction i with
  | zero => simp [mkBiasOnlyOffset]
  | succ i ih => rw [mkBiasOnlyOffset, ih, Finset.sum_range_succ]

theorem hasShape_create {L : ℕ} {n : ℕ → ℕ} {af : ℕ → Activation} {nn : NeuralNetwork}
    (h : create L n af = some nn) : HasShape L n af nn := by
  unfold create at h
  by_cases hL : L < 3
  · rw [if_pos hL] at h; cases h
  · rw [if_neg hL] at h
    have h := Option.some.inj h
    subst h
    refine ⟨by omega, rfl, rfl, fun i => rfl, fun i => rfl, fun i => rfl,
      fun i => mkWeightOffset_eq n i, fun i => ?_, fun i => mkBiasOnlyOffset_eq n i, ?_, ?_, ?_⟩
    · simp only [mkWeightOffset_eq]; ring
    · simp only [loop_add, allocateLayer, Nat.add_eq_zero_iff, one_ne_zero, and_false, if_false,
        Nat.add_sub_cancel, zero_add]
      unfold offset
      rw [← Finset.sum_add_distrib]
      exact Finset.sum_congr rfl fun i _ => by ring
    · simp only [loop_add, allocateLayer, Nat.add_eq_zero_iff, one_ne_zero, and_false, if_false,
        Nat.add_sub_cancel, zero_add]
      exact Finset.sum_congr rfl fun i _ => by ring
    · simp only [loop_add, allocateLayer, zero_add]

/-! ### setConnections -/

/-- Body of the setConnections loop. -/
def putParam (c : Buf) (p : Param) (m : ℕ) (layers : ℕ → Layer) : ℕ → Layer :=
  match p with
  | .weight i j k => setWeight layers (i + 1) k j (c m)
  | .bias i k => setBias layers (i + 1) k (c m)

theorem setConnections_eq {L : ℕ} {n : ℕ → ℕ} {af : ℕ → Activation} {nn : NeuralNetwork}
    (h : HasShape L n af nn) (c : Buf) :
    nn.setConnections c = { nn with layers := (walk L n (putParam c) nn.layers).1 } := by
  unfold setConnections walk
  simp only [h.size, h.prev, h.numLayers]
  rfl

/-- Reading a parameter from layers. -/
def readL (layers : ℕ → Layer) : Param → ℝ
  | .weight i j k => ((layers (i + 1)).neurons k).weights j
  | .bias i k => ((layers (i + 1)).neurons k).bias

theorem readL_eq (nn : NeuralNetwork) : readL nn.layers = Param.read nn := by
  funext p; cases p <;> rfl

theorem readL_putParam (c : Buf) (p : Param) (m : ℕ) (layers : ℕ → Layer) (q : Param) :
    readL (putParam c p m layers) q = if q = p then c m else readL layers q := by
  cases p with
  | weight i j k =>
    cases q with
    | weight i' j' k' =>
      simp only [putParam, setWeight, modifyNeuron, readL, Param.weight.injEq]
      by_cases e1 : i' = i
      · subst e1
        by_cases e3 : k' = k
        · subst e3
          by_cases e2 : j' = j
          · subst e2; simp
          · simp [e2]
        · simp [e3]
      · simp [e1]
    | bias i' k' =>
      simp only [putParam, setWeight, modifyNeuron, readL]
      rw [if_neg (by simp)]
      by_cases e1 : i' = i
      · subst e1
        by_cases e3 : k' = k
        · subst e3; simp
        · simp [e3]
      · simp [e1]
  | bias i k =>
    cases q with
    | weight i' j' k' =>
      simp only [putParam, setBias, modifyNeuron, readL]
      rw [if_neg (by simp)]
      by_cases e1 : i' = i
      · subst e1
        by_cases e3 : k' = k
        · subst e3; simp
        · simp [e3]
      · simp [e1]
    | bias i' k' =>
      simp only [putParam, setBias, modifyNeuron, readL, Param.bias.injEq]
      by_cases e1 : i' = i
      · subst e1
        by_cases e3 : k' = k
        · subst e3; simp
        · simp [e3]
      · simp [e1]

theorem sameLayers_putParam {a b : ℕ → Layer} (h : SameLayers a b) (c : Buf) (p : Param) (m : ℕ) :
    SameLayers a (putParam c p m b) := by
  cases p <;> exact sameLayers_modifyNeuron h _ _ _

theorem sameTop_setConnections {L : ℕ} {n : ℕ → ℕ} {af : ℕ → Activation} {nn : NeuralNetwork}
    (h : HasShape L n af nn) (c : Buf) : SameTop nn (nn.setConnections c) := by
  rw [setConnections_eq h]
  refine SameLayers.top (f := nn.normalizeNeurons) ?_
  exact walk_induction (fun _ l => SameLayers nn.layers l) (SameLayers.refl _)
    (fun p _ t ht => sameLayers_putParam ht c p _)

theorem read_setConnections {L : ℕ} {n : ℕ → ℕ} {af : ℕ → Activation} {nn : NeuralNetwork}
    (h : HasShape L n af nn) (c : Buf) {p : Param} (hp : p.Valid L n) :
    p.read (nn.setConnections c) = c (p.pos n) := by
  rw [setConnections_eq h, ← readL_eq]
  refine walk_induction (P := fun m l => ∀ q : Param, q.Valid L n → q.pos n < m →
    readL l q = c (q.pos n)) (L := L) (n := n) (visit := putParam c) (s := nn.layers) ?_ ?_ p hp
    (Param.pos_lt_total hp)
  · intro q _ h; omega
  · intro p hp t ht q hq hlt
    rw [readL_putParam]
    by_cases e : q = p
    · rw [if_pos e, e]
    · rw [if_neg e]
      refine ht q hq ?_
      have : q.pos n ≠ p.pos n := fun e' => e (Param.pos_inj hq hp e')
      omega

/-- Everything in the neurons except weights and bias. -/
def _root_.N2P2.Neuron.rest (n : Neuron) : Neuron := { n with bias := 0, weights := fun _ => 0 }

theorem rest_setConnections {L : ℕ} {n : ℕ → ℕ} {af : ℕ → Activation} {nn : NeuralNetwork}
    (h : HasShape L n af nn) (c : Buf) (i k : ℕ) :
    (((nn.setConnections c).layers i).neurons k).rest = ((nn.layers i).neurons k).rest := by
  rw [setConnections_eq h]
  refine walk_induction (P := fun m l => ∀ i k, ((l i).neurons k).rest
    = ((nn.layers i).neurons k).rest) (L := L) (n := n) (visit := putParam c) (s := nn.layers)
    (fun _ _ => rfl) ?_ i k
  intro p hp t ht i' k'
  rw [← ht]
  cases p with
  | weight i j k =>
    simp only [putParam, setWeight, modifyNeuron]
    by_cases e1 : i' = i + 1
    · subst e1
      by_cases e3 : k' = k
      · subst e3; simp [Neuron.rest]
      · simp [e3]
    · simp [e1]
  | bias i k =>
    simp only [putParam, setBias, modifyNeuron]
    by_cases e1 : i' = i + 1
    · subst e1
      by_cases e3 : k' = k
      · subst e3; simp [Neuron.rest]
      · simp [e3]
    · simp [e1]

/-- Parameters which do not exist in the network are not written. -/
theorem read_setConnections_invalid {L : ℕ} {n : ℕ → ℕ} {af : ℕ → Activation} {nn : NeuralNetwork}
    (h : HasShape L n af nn) (c : Buf) {p : Param} (hp : ¬ p.Valid L n) :
    p.read (nn.setConnections c) = p.read nn := by
  rw [setConnections_eq h, ← readL_eq, ← readL_eq]
  refine walk_induction (P := fun m l => readL l p = readL nn.layers p) (L := L) (n := n)
    (visit := putParam c) (s := nn.layers) rfl ?_
  intro q hq t ht
  rw [readL_putParam, if_neg (fun e : p = q => hp (e ▸ hq)), ht]

/-! ### getConnections -/

theorem layer0_setConnections {L : ℕ} {n : ℕ → ℕ} {af : ℕ → Activation} {nn : NeuralNetwork}
    (h : HasShape L n af nn) (c : Buf) : (nn.setConnections c).layers 0 = nn.layers 0 := by
  rw [setConnections_eq h]
  refine walk_induction (P := fun _ l => l 0 = nn.layers 0) (L := L) (n := n)
    (visit := putParam c) (s := nn.layers) rfl ?_
  intro p _ t ht
  cases p <;>
    (simp only [putParam, setWeight, setBias, modifyNeuron]; rw [Function.update_of_ne (by omega)]) <;>
    exact ht

theorem getConnections_eq {L : ℕ} {n : ℕ → ℕ} {af : ℕ → Activation} {nn : NeuralNetwork}
    (h : HasShape L n af nn) (b : Buf) :
    nn.getConnections b = (walk L n (fun p m s => Buf.set s m (p.read nn)) b).1 := by
  unfold getConnections walk
  simp only [h.size, h.prev, h.numLayers]
  rfl

theorem getConnections_pos {L : ℕ} {n : ℕ → ℕ} {af : ℕ → Activation} {nn : NeuralNetwork}
    (h : HasShape L n af nn) (b : Buf) {p : Param} (hp : p.Valid L n) :
    nn.getConnections b (p.pos n) = p.read nn := by
  rw [getConnections_eq h]
  refine walk_induction (P := fun m l => ∀ q : Param, q.Valid L n → q.pos n < m →
    l (q.pos n) = q.read nn) (L := L) (n := n)
    (visit := fun p m s => Buf.set s m (p.read nn)) (s := b) ?_ ?_ p hp (Param.pos_lt_total hp)
  · intro q _ h; omega
  · intro p hp t ht q hq hlt
    rw [Param.set_pos hp hq]
    by_cases e : q = p
    · rw [if_pos e, e]
    · rw [if_neg e]
      refine ht q hq ?_
      have : q.pos n ≠ p.pos n := fun e' => e (Param.pos_inj hq hp e')
      omega

theorem getConnections_ge {L : ℕ} {n : ℕ → ℕ} {af : ℕ → Activation} {nn : NeuralNetwork}
    (h : HasShape L n af nn) (b : Buf) {m : ℕ} (hm : offset n (L - 1) ≤ m) :
    nn.getConnections b m = b m := by
  rw [getConnections_eq h]
  refine walk_induction (P := fun _ l => l m = b m) (L := L) (n := n)
    (visit := fun p m s => Buf.set s m (p.read nn)) (s := b) rfl ?_
  intro p hp t ht
  rw [Param.set_ge hp hm, ht]

/-! ### Evaluation keeps parameters -/

/-- Same shape and same parameters. -/
structure Keeps (a b : NeuralNetwork) : Prop where
  top : SameTop a b
  read : ∀ p : Param, p.read b = p.read a

theorem SameTop.refl (a : NeuralNetwork) : SameTop a a :=
  ⟨rfl, rfl, fun _ => rfl, fun _ => rfl, fun _ => rfl, rfl, rfl, rfl, rfl, rfl, rfl⟩

theorem SameTop.trans {a b c : NeuralNetwork} (h : SameTop a b) (k : SameTop b c) : SameTop a c :=
  ⟨k.numLayers.trans h.numLayers, k.numHidden.trans h.numHidden,
    fun i => (k.size i).trans (h.size i), fun i => (k.prev i).trans (h.prev i),
    fun i => (k.act i).trans (h.act i), k.wOff.trans h.wOff, k.bOff.trans h.bOff,
    k.boOff.trans h.boOff, k.numConn.trans h.numConn, k.numW.trans h.numW, k.numB.trans h.numB⟩

theorem Keeps.refl (a : NeuralNetwork) : Keeps a a := ⟨SameTop.refl a, fun _ => rfl⟩

theorem Keeps.trans {a b c : NeuralNetwork} (h : Keeps a b) (k : Keeps b c) : Keeps a c :=
  ⟨h.top.trans k.top, fun p => (k.read p).trans (h.read p)⟩

/-- Layers with the same sizes, weights and biases. -/
def KeepsL (a b : ℕ → Layer) : Prop :=
  SameLayers a b ∧ ∀ i k, ((b i).neurons k).weights = ((a i).neurons k).weights ∧
    ((b i).neurons k).bias = ((a i).neurons k).bias

theorem KeepsL.refl (a : ℕ → Layer) : KeepsL a a := ⟨SameLayers.refl a, fun _ _ => ⟨rfl, rfl⟩⟩

theorem KeepsL.keeps {nn : NeuralNetwork} {l : ℕ → Layer} {f : Bool} (h : KeepsL nn.layers l) :
    Keeps nn { nn with layers := l, normalizeNeurons := f } := by
  refine ⟨h.1.top, fun p => ?_⟩
  cases p with
  | weight i j k => simp only [Param.read]; rw [(h.2 _ _).1]
  | bias i k => simp only [Param.read]; rw [(h.2 _ _).2]

theorem KeepsL.update {a b : ℕ → Layer} (h : KeepsL a b) (i : ℕ) (ns : ℕ → Neuron)
    (hn : ∀ k, (ns k).weights = ((b i).neurons k).weights ∧ (ns k).bias = ((b i).neurons k).bias) :
    KeepsL a (Function.update b i { b i with neurons := ns }) := by
  refine ⟨h.1.update i ns, fun i' k => ?_⟩
  by_cases e : i' = i
  · subst e
    simp only [Function.update_self]
    rw [(hn k).1, (hn k).2]; exact h.2 _ _
  · rw [Function.update_of_ne e]; exact h.2 _ _

theorem keeps_setInput (nn : NeuralNetwork) (G : Buf) : Keeps nn (nn.setInput G) := by
  refine KeepsL.keeps (f := nn.normalizeNeurons) ((KeepsL.refl _).update 0 _ fun k => ?_)
  by_cases h : k < (nn.layers 0).numNeurons <;> simp [h, Neuron.updateStatistics]

theorem keeps_setInputAt (nn : NeuralNetwork) (i : ℕ) (v : ℝ) : Keeps nn (nn.setInputAt i v) := by
  refine KeepsL.keeps (f := nn.normalizeNeurons) ((KeepsL.refl _).update 0 _ fun k => ?_)
  by_cases h : k = i
  · subst h; simp [Neuron.updateStatistics]
  · simp [h]

theorem keeps_setNormalize (nn : NeuralNetwork) (f : Bool) : Keeps nn (nn.setNormalizeNeurons f) :=
  KeepsL.keeps (KeepsL.refl _)

theorem storeNeuron_keeps (n : Neuron) (a : Activation) (x : ℝ) :
    (storeNeuron n a x).weights = n.weights ∧ (storeNeuron n a x).bias = n.bias := by
  unfold storeNeuron
  cases a.eval x <;> simp [Neuron.updateStatistics]

theorem keepsL_propagate (norm : Bool) (a : ℕ → Layer) (m : ℕ) :
    KeepsL a (loop m (fun i' layers =>
      Function.update layers (i' + 1)
        (propagateLayer norm (layers (i' + 1)) (layers (i' + 1 - 1)))) a) := by
  refine loop_induction (fun _ l => KeepsL a l) (KeepsL.refl _) ?_
  intro i _ t ht
  refine ht.update (i + 1) _ fun k => ?_
  by_cases h : k < (t (i + 1)).numNeurons
  · simp only [h, if_true]; exact storeNeuron_keeps _ _ _
  · simp [h]

theorem keeps_propagate (nn : NeuralNetwork) : Keeps nn nn.propagate :=
  KeepsL.keeps (f := nn.normalizeNeurons) (keepsL_propagate _ _ _)

theorem keeps_resetNeuronStatistics (nn : NeuralNetwork) : Keeps nn nn.resetNeuronStatistics := by
  refine KeepsL.keeps (f := nn.normalizeNeurons) ⟨fun i => ?_, fun i k => ?_⟩
  · by_cases h : i < nn.numLayers <;> simp [h]
  · by_cases h : i < nn.numLayers
    · by_cases h' : k < (nn.layers i).numNeurons <;> simp [h, h']
    · simp [h]

/-- Layers which differ only in the `dxdG` fields. -/
def SameButDxdG (a b : ℕ → Layer) : Prop :=
  SameLayers a b ∧ ∀ i k, ∃ d, (b i).neurons k = { (a i).neurons k with dxdG := d }

theorem SameButDxdG.refl (a : ℕ → Layer) : SameButDxdG a a :=
  ⟨SameLayers.refl a, fun i k => ⟨((a i).neurons k).dxdG, rfl⟩⟩

theorem SameButDxdG.trans {a b c : ℕ → Layer} (h : SameButDxdG a b) (k : SameButDxdG b c) :
    SameButDxdG a c := by
  refine ⟨h.1.trans k.1, fun i j => ?_⟩
  obtain ⟨d, hd⟩ := h.2 i j
  obtain ⟨d', hd'⟩ := k.2 i j
  exact ⟨d', by rw [hd', hd]⟩

theorem SameButDxdG.update {a b : ℕ → Layer} (h : SameButDxdG a b) (i : ℕ) (ns : ℕ → Neuron)
    (hn : ∀ k, ∃ d, ns k = { (b i).neurons k with dxdG := d }) :
    SameButDxdG a (Function.update b i { b i with neurons := ns }) := by
  refine ⟨h.1.update i ns, fun i' k => ?_⟩
  by_cases e : i' = i
  · subst e
    obtain ⟨d, hd⟩ := hn k
    obtain ⟨d', hd'⟩ := h.2 i' k
    exact ⟨d, by simp only [Function.update_self]; rw [hd, hd']⟩
  · rw [Function.update_of_ne e]; exact h.2 _ _

theorem SameButDxdG.keepsL {a b : ℕ → Layer} (h : SameButDxdG a b) : KeepsL a b := by
  refine ⟨h.1, fun i k => ?_⟩
  obtain ⟨d, hd⟩ := h.2 i k
  rw [hd]; exact ⟨rfl, rfl⟩

theorem sameButDxdG_calculateDxdG (nn : NeuralNetwork) (index : ℕ) :
    SameButDxdG nn.layers (nn.calculateDxdG index).layers := by
  unfold calculateDxdG
  refine loop_induction (fun _ l => SameButDxdG nn.layers l) ?_ ?_
  · refine (SameButDxdG.refl nn.layers).update 1 _ fun k => ?_
    by_cases h : k < (nn.layers 1).numNeurons
    · simp only [h, if_true]; exact ⟨_, rfl⟩
    · simp only [h, if_false]; exact ⟨_, rfl⟩
  · intro i _ t ht
    refine ht.update (i + 2) _ fun k => ?_
    by_cases h : k < (t (i + 2)).numNeurons
    · simp only [h, if_true]; exact ⟨_, rfl⟩
    · simp only [h, if_false]; exact ⟨_, rfl⟩

/-- Networks which differ only in the `dxdG` fields. -/
structure SameNet (a b : NeuralNetwork) : Prop where
  layers : SameButDxdG a.layers b.layers
  eq : b = { a with layers := b.layers }

theorem SameNet.refl (a : NeuralNetwork) : SameNet a a := ⟨SameButDxdG.refl _, rfl⟩

theorem SameNet.trans {a b c : NeuralNetwork} (h : SameNet a b) (k : SameNet b c) : SameNet a c := by
  refine ⟨h.layers.trans k.layers, ?_⟩
  rw [k.eq, h.eq]

theorem SameNet.keeps {a b : NeuralNetwork} (h : SameNet a b) : Keeps a b := by
  rw [h.eq]; exact KeepsL.keeps (f := a.normalizeNeurons) h.layers.keepsL

theorem sameNet_calculateDxdG (nn : NeuralNetwork) (index : ℕ) :
    SameNet nn (nn.calculateDxdG index) :=
  ⟨sameButDxdG_calculateDxdG nn index, rfl⟩

theorem sameNet_calculateDFdc (nn : NeuralNetwork) (d g : Buf) :
    SameNet nn (nn.calculateDFdc d g).1 := by
  unfold calculateDFdc
  refine loop_induction (fun _ (s : NeuralNetwork × Buf) => SameNet nn s.1) (SameNet.refl nn) ?_
  intro i _ t ht
  exact ht.trans (sameNet_calculateDxdG _ _)

theorem Evaluates.keeps {a b : NeuralNetwork} (h : Evaluates a b) : Keeps a b := by
  induction h with
  | refl => exact Keeps.refl _
  | setNormalizeNeurons f _ ih => exact ih.trans (keeps_setNormalize _ f)
  | setInput G _ ih => exact ih.trans (keeps_setInput _ G)
  | setInputAt i v _ ih => exact ih.trans (keeps_setInputAt _ i v)
  | propagate _ ih => exact ih.trans (keeps_propagate _)
  | calculateDFdc d g _ ih => exact ih.trans (sameNet_calculateDFdc _ d g).keeps
  | resetNeuronStatistics _ ih => exact ih.trans (keeps_resetNeuronStatistics _)

theorem DFCalls.same {a b : NeuralNetwork} (h : DFCalls a b) : SameNet a b := by
  induction h with
  | refl => exact SameNet.refl _
  | call d g _ ih => exact ih.trans (sameNet_calculateDFdc _ d g)

theorem sameLayers_mapNeurons (nn : NeuralNetwork) (lo hi : ℕ) (f : Layer → Neuron → Neuron) :
    SameLayers nn.layers (nn.mapNeurons lo hi f).layers := by
  intro i
  unfold mapNeurons
  by_cases h : lo ≤ i ∧ i < hi <;> simp [h]

theorem sameTop_mapNeurons (nn : NeuralNetwork) (lo hi : ℕ) (f : Layer → Neuron → Neuron) :
    SameTop nn (nn.mapNeurons lo hi f) :=
  SameLayers.top (f := nn.normalizeNeurons) (sameLayers_mapNeurons nn lo hi f)

theorem sameTop_modifyConnections {a b : NeuralNetwork} {s : Scheme}
    (h : a.modifyConnections s = some b) : SameTop a b := by
  cases s with
  | ZEROBIAS => cases h; exact sameTop_mapNeurons _ _ _ _
  | ZEROOUTPUTWEIGHTS => cases h; exact sameTop_mapNeurons _ _ _ _
  | FANIN => cases h; exact sameTop_mapNeurons _ _ _ _
  | GLOROTBENGIO => cases h; exact sameTop_mapNeurons _ _ _ _
  | NGUYENWIDROW =>
    have h := Option.some.inj h
    subst h
    refine (sameTop_mapNeurons a 1 (a.numLayers - 1) nguyenWidrowNeuron).trans
      (SameLayers.top (f := a.normalizeNeurons) ?_)
    exact loop_induction (fun _ l => SameLayers _ l) (SameLayers.refl _)
      (fun i _ t ht => sameLayers_modifyNeuron ht _ _ _)
  | PRECONDITIONOUTPUT => cases h

theorem sameTop_modifyConnections2 {a b : NeuralNetwork} {s : Scheme} {x y : ℝ}
    (h : a.modifyConnections2 s x y = some b) : SameTop a b := by
  cases s <;> simp only [modifyConnections2, reduceCtorEq, Option.some.injEq] at h
  subst h
  exact sameTop_mapNeurons _ _ _ _

theorem Reachable.hasShape {L : ℕ} {n : ℕ → ℕ} {af : ℕ → Activation} {nn : NeuralNetwork}
    (h : Reachable L n af nn) : HasShape L n af nn := by
  induction h with
  | create h => exact hasShape_create h
  | evaluates _ e ih => exact ih.of_same e.keeps.top
  | setConnections c _ ih => exact ih.of_same (sameTop_setConnections ih c)
  | modifyConnections s _ e ih => exact ih.of_same (sameTop_modifyConnections e)
  | modifyConnections2 s x y _ e ih => exact ih.of_same (sameTop_modifyConnections2 e)

end NeuralNetwork

end N2P2
