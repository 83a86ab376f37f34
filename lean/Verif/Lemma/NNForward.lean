import Verif.Lemma.NNState
import Verif.Lemma.NNActivation

/-! State of a network after propagation. -/

namespace N2P2

open NetShape

namespace NetShape

theorem forward_succ (T : NetShape) (c G : ℕ → ℝ) (l k : ℕ) :
    T.forward c G (l + 1) k = (T.af (l + 1)).fn (T.preact c G l k) := by
  rw [forward, preact]

end NetShape

namespace NeuralNetwork

/-- The neurons hold the values of the feed-forward function. -/
structure Computed (T : NetShape) (c G : Buf) (nn : NeuralNetwork) : Prop where
  shape : HasShape T.numLayers T.n T.af nn
  norm : nn.normalizeNeurons = T.norm
  param : ∀ p : Param, p.Valid T.numLayers T.n → p.read nn = c (p.pos T.n)
  value : ∀ l < T.numLayers, ∀ k < T.n l, ((nn.layers l).neurons k).value = T.forward c G l k
  x : ∀ l, l + 1 < T.numLayers → ∀ k < T.n (l + 1),
    ((nn.layers (l + 1)).neurons k).x = T.preact c G l k
  dfdx : ∀ l, l + 1 < T.numLayers → ∀ k < T.n (l + 1),
    ((nn.layers (l + 1)).neurons k).dfdx = (T.af (l + 1)).d1 (T.preact c G l k)
  d2fdx2 : ∀ l, l + 1 < T.numLayers → ∀ k < T.n (l + 1),
    ((nn.layers (l + 1)).neurons k).d2fdx2 = (T.af (l + 1)).d2 (T.preact c G l k)

/-- Neuron `n` holds the values for input `x`. -/
def Holds (a : Activation) (x : ℝ) (n : Neuron) : Prop :=
  n.x = x ∧ n.value = a.fn x ∧ n.dfdx = a.d1 x ∧ n.d2fdx2 = a.d2 x

theorem holds_storeNeuron {a : Activation} (h : a ≠ .UNSET) (n : Neuron) (x : ℝ) :
    Holds a x (storeNeuron n a x) := by
  unfold storeNeuron
  rw [Activation.eval_eq h]
  exact ⟨rfl, rfl, rfl, rfl⟩

theorem neuronInput_eq {T : NetShape} {c G : Buf} {layer prev : Layer} {l k : ℕ}
    (hp : layer.numNeuronsPrevLayer = T.n l)
    (hw : ∀ j < T.n l, (layer.neurons k).weights j = c (Param.pos T.n (.weight l j k)))
    (hb : (layer.neurons k).bias = c (Param.pos T.n (.bias l k)))
    (hv : ∀ j < T.n l, (prev.neurons j).value = T.forward c G l j) :
    neuronInput T.norm layer prev k = T.preact c G l k := by
  unfold neuronInput preact divisor
  simp only [hp, hb, loop_add, zero_add]
  rw [Finset.sum_congr rfl (fun j hj => by
    rw [hw j (Finset.mem_range.mp hj), hv j (Finset.mem_range.mp hj)])]
  cases T.norm <;> simp

theorem computed_propagate {T : NetShape} {c G : Buf} {nn : NeuralNetwork} (hT : T.Sensible)
    (hs : HasShape T.numLayers T.n T.af nn) (hn : nn.normalizeNeurons = T.norm)
    (hp : ∀ p : Param, p.Valid T.numLayers T.n → p.read nn = c (p.pos T.n))
    (hG : ∀ k < T.n 0, ((nn.layers 0).neurons k).value = G k) : Computed T c G nn.propagate := by
  have key : (∀ k < T.n 0, ((nn.propagate.layers 0).neurons k).value = G k) ∧
      ∀ l < T.numLayers - 1, ∀ k < T.n (l + 1), Holds (T.af (l + 1)) (T.preact c G l k)
        ((nn.propagate.layers (l + 1)).neurons k) := by
    unfold propagate
    simp only [hs.numLayers, hn]
    have := loop_induction (n := T.numLayers - 1) (s := nn.layers)
      (b := fun i' layers => Function.update layers (i' + 1)
        (propagateLayer T.norm (layers (i' + 1)) (layers (i' + 1 - 1))))
      (fun m t => KeepsL nn.layers t ∧ (∀ k < T.n 0, ((t 0).neurons k).value = G k) ∧
        ∀ l < m, ∀ k < T.n (l + 1), Holds (T.af (l + 1)) (T.preact c G l k)
          ((t (l + 1)).neurons k)) ⟨KeepsL.refl _, hG, fun l hl => by omega⟩ (by
        intro m hm t ht
        obtain ⟨h1, h2, h3⟩ := ht
        have hval : ∀ j < T.n m, ((t m).neurons j).value = T.forward c G m j := by
          intro j hj
          cases m with
          | zero => rw [forward]; exact h2 j hj
          | succ m => rw [forward_succ]; exact (h3 m (by omega) j hj).2.1
        refine ⟨?_, ?_, ?_⟩
        · have := keepsL_propagate T.norm t 1
          refine ⟨h1.1.update _ _, ?_⟩
          have := h1.update (m + 1) (propagateLayer T.norm (t (m + 1)) (t (m + 1 - 1))).neurons (by
            intro k
            unfold propagateLayer
            by_cases h : k < (t (m + 1)).numNeurons
            · simp only [h, if_true]; exact storeNeuron_keeps _ _ _
            · simp [h])
          exact this.2
        · intro k hk
          rw [Function.update_of_ne (by omega)]
          exact h2 k hk
        · intro l hl k hk
          by_cases e : l = m
          · subst e
            rw [Function.update_self]
            unfold propagateLayer
            have hlt : k < (t (l + 1)).numNeurons := by
              rw [(h1.1 _).1, hs.size]; exact hk
            simp only [hlt, if_true]
            rw [(h1.1 _).2.2, hs.act]
            have hin : neuronInput T.norm (t (l + 1)) (t (l + 1 - 1)) k = T.preact c G l k := by
              refine neuronInput_eq ?_ ?_ ?_ hval
              · rw [(h1.1 _).2.1, hs.prev]
              · intro j hj
                rw [(h1.2 _ _).1]
                exact hp (.weight l j k) ⟨by omega, hj, hk⟩
              · rw [(h1.2 _ _).2]
                exact hp (.bias l k) ⟨by omega, hk⟩
            rw [hin]
            exact holds_storeNeuron (hT.2.2 (l + 1) (by omega) (by omega)) _ _
          · rw [Function.update_of_ne (by omega)]
            exact h3 l (by omega) k hk)
    exact this.2
  have hk := keeps_propagate nn
  refine ⟨hs.of_same hk.top, hn, fun p h => (hk.read p).trans (hp p h), ?_, ?_, ?_, ?_⟩
  · intro l hl k hk
    cases l with
    | zero => rw [forward]; exact key.1 k hk
    | succ l => rw [forward_succ]; exact (key.2 l (by omega) k hk).2.1
  · intro l hl k hk; exact (key.2 l (by omega) k hk).1
  · intro l hl k hk; exact (key.2 l (by omega) k hk).2.2.1
  · intro l hl k hk; exact (key.2 l (by omega) k hk).2.2.2

theorem Computed.of_same {T : NetShape} {c G : Buf} {a b : NeuralNetwork} (h : Computed T c G a)
    (s : SameNet a b) : Computed T c G b := by
  have hk := s.keeps
  have e : ∀ i k, ((b.layers i).neurons k).value = ((a.layers i).neurons k).value ∧
      ((b.layers i).neurons k).x = ((a.layers i).neurons k).x ∧
      ((b.layers i).neurons k).dfdx = ((a.layers i).neurons k).dfdx ∧
      ((b.layers i).neurons k).d2fdx2 = ((a.layers i).neurons k).d2fdx2 := by
    intro i k
    obtain ⟨d, hd⟩ := s.layers.2 i k
    rw [hd]; exact ⟨rfl, rfl, rfl, rfl⟩
  refine ⟨h.shape.of_same hk.top, ?_, fun p hp => (hk.read p).trans (h.param p hp), ?_, ?_, ?_, ?_⟩
  · rw [s.eq]; exact h.norm
  · intro l hl k hk; rw [(e _ _).1]; exact h.value l hl k hk
  · intro l hl k hk; rw [(e _ _).2.1]; exact h.x l hl k hk
  · intro l hl k hk; rw [(e _ _).2.2.1]; exact h.dfdx l hl k hk
  · intro l hl k hk; rw [(e _ _).2.2.2]; exact h.d2fdx2 l hl k hk

theorem inputs_oneByOne (nn : NeuralNetwork) (G : Buf) (m : ℕ) :
    Keeps nn (loop m (fun j nn => nn.setInputAt j (G j)) nn) ∧
    (loop m (fun j nn => nn.setInputAt j (G j)) nn).normalizeNeurons = nn.normalizeNeurons ∧
    ∀ k < m, (((loop m (fun j nn => nn.setInputAt j (G j)) nn).layers 0).neurons k).value = G k := by
  refine loop_induction (fun m (t : NeuralNetwork) => Keeps nn t ∧
    t.normalizeNeurons = nn.normalizeNeurons ∧ ∀ k < m, ((t.layers 0).neurons k).value = G k)
    ⟨Keeps.refl _, rfl, fun k hk => by omega⟩ ?_
  rintro i _ t ⟨h1, h2, h3⟩
  refine ⟨h1.trans (keeps_setInputAt t i _), h2, fun k hk => ?_⟩
  simp only [setInputAt, modifyNeuron, Function.update_self]
  by_cases e : k = i
  · subst e; simp
  · rw [Function.update_of_ne e]; exact h3 k (by omega)

theorem inputAll_spec {T : NetShape} {nn : NeuralNetwork}
    (hs : HasShape T.numLayers T.n T.af nn) (G : Buf) (b : Bool) :
    Keeps nn (inputAll T G b nn) ∧ (inputAll T G b nn).normalizeNeurons = nn.normalizeNeurons ∧
    ∀ k < T.n 0, (((inputAll T G b nn).layers 0).neurons k).value = G k := by
  cases b with
  | true => exact inputs_oneByOne nn G (T.n 0)
  | false =>
    refine ⟨keeps_setInput nn G, rfl, fun k hk => ?_⟩
    have : k < (nn.layers 0).numNeurons := by rw [hs.size]; exact hk
    simp [inputAll, setInput, this]

theorem Prepared.computed {T : NetShape} {c G : Buf} {nn : NeuralNetwork} (hT : T.Sensible)
    (h : Prepared T c G nn) : Computed T c G nn := by
  obtain ⟨nn0, nn1, b, hr, he, hn, hd⟩ := h
  refine Computed.of_same ?_ hd.same
  have hs0 := hr.hasShape
  have hs1 := hs0.of_same (sameTop_setConnections hs0 c)
  have hs2 := hs1.of_same he.keeps.top
  obtain ⟨hi, hin, hiv⟩ := inputAll_spec hs2 G b
  refine computed_propagate hT (hs2.of_same hi.top) (hin.trans hn) (fun p hp => ?_) hiv
  rw [hi.read, he.keeps.read, read_setConnections hs0 c hp]

theorem getOutput_eq (nn : NeuralNetwork) (o : Buf) (m : ℕ) :
    nn.getOutput o m = if m < (nn.layers (nn.numLayers - 1)).numNeurons then
      ((nn.layers (nn.numLayers - 1)).neurons m).value else o m := by
  unfold getOutput
  refine loop_induction (fun i (b : Buf) => b m = if m < i then
      ((nn.layers (nn.numLayers - 1)).neurons m).value else o m) (by simp) ?_
  intro i hi t ht
  rw [Buf.set_apply]
  by_cases e : m = i
  · subst e; simp
  · rw [if_neg e, ht]
    by_cases h : m < i
    · rw [if_pos h, if_pos (by omega)]
    · rw [if_neg h, if_neg (by omega)]

end NeuralNetwork

end N2P2
