import Verif.Lemma.ModeNetwork
import Verif.Spec.Mode4G

/-! Evaluation of the networks of a potential of the fourth generation. -/

namespace N2P2

open NetShape NeuralNetwork

variable {T : NetShape} {w : Buf} {nn : NeuralNetwork}

/-- The atom after the evaluation of its network for the electronegativity. -/
noncomputable def evaluatedElec (conv : ℝ → ℝ) (T : NetShape) (w : Buf) (a : Atom)
    (derivatives : Bool) : Atom :=
  { a with
    dChidG := if derivatives then (listOf a.dChidG.length fun m => if m < T.n 0 then
        T.tangent w (bufOf a.G) 0 (unit m) T.out 0 else bufOf a.dChidG m).map conv
      else a.dChidG
    chi := conv (T.forward w (bufOf a.G) T.out 0) }

theorem evaluateElec_eq (hT : T.Sensible) (ho : T.n T.out = 1) (h : Loaded T w nn) {a : Atom}
    {d : Bool} (conv : ℝ → ℝ) (hG : T.n 0 ≤ a.G.length) (hd : d = true → T.n 0 ≤ a.dChidG.length) :
    ∃ nn', evaluateElec conv nn a d = some (nn', evaluatedElec conv T w a d) ∧ Loaded T w nn' := by
  have hs := Loaded.shape h
  have h0 : 0 < T.n 0 := hT.2.1 0 (by have := hT.1; omega)
  have hc := (Loaded.prepared h (bufOf a.G)).computed hT
  refine ⟨_, ?_, Loaded.next hT h (bufOf a.G)⟩
  unfold evaluateElec
  rw [if_neg (by
    rw [hs.size]
    rintro (h1 | h1)
    · rw [h1] at hG; simp at hG; omega
    · omega), if_neg (by
    rw [hs.size]
    rintro ⟨h1, h2 | h2⟩
    · have := hd h1; rw [h2] at this; simp at this; omega
    · have := hd h1; omega), if_neg (by
    rw [hs.size, hs.numLayers]
    have : T.n (T.numLayers - 1) = 1 := ho
    omega)]
  have e1 : ((nn.setInput (bufOf a.G)).propagate).getOutput (fun _ => a.chi) 0
      = T.forward w (bufOf a.G) T.out 0 := by
    rw [getOutput_eq, hc.shape.numLayers, hc.shape.size]
    have : T.n (T.numLayers - 1) = 1 := ho
    rw [if_pos (by omega)]
    exact hc.value T.out (by have := hT.1; unfold out; omega) 0 (by omega)
  have e2 : listOf a.dChidG.length (((nn.setInput (bufOf a.G)).propagate).calculateDEdG
      (bufOf a.dChidG)) = listOf a.dChidG.length fun m => if m < T.n 0 then
        T.tangent w (bufOf a.G) 0 (unit m) T.out 0 else bufOf a.dChidG m := by
    unfold listOf
    refine List.map_congr_left fun m _ => ?_
    exact calculateDEdG_eq hT hc _ m
  simp only [e1, e2]
  rfl

/-- Input of the short-range network. -/
noncomputable def shortBuf (a : Atom) : Buf := fun m => if m = a.G.length then a.charge else bufOf a.G m

/-- The atom after the evaluation of its short-range network. -/
noncomputable def evaluatedShort (T : NetShape) (w : Buf) (a : Atom) (derivatives : Bool) : Atom :=
  { a with
    dEdG := if derivatives then listOf a.dEdG.length fun m => if m < T.n 0 then
        T.tangent w (shortBuf a) 0 (unit m) T.out 0 else bufOf a.dEdG m
      else a.dEdG
    energy := T.forward w (shortBuf a) T.out 0 }

theorem shortInput_eq {a : Atom} (hG : T.n 0 = a.G.length + 1) (nn : NeuralNetwork) :
    (loop a.G.length (fun i nn => nn.setInputAt i (bufOf a.G i)) nn).setInputAt a.G.length a.charge =
      inputAll T (shortBuf a) true nn := by
  unfold inputAll
  rw [if_pos rfl, hG]
  have h1 : shortBuf a a.G.length = a.charge := if_pos rfl
  have h2 : loop a.G.length (fun i nn => nn.setInputAt i (bufOf a.G i)) nn =
      loop a.G.length (fun i nn => nn.setInputAt i (shortBuf a i)) nn := by
    refine loop_congr _ fun i hi t => ?_
    have : shortBuf a i = bufOf a.G i := if_neg (by omega)
    rw [this]
  rw [h2, ← h1]
  rfl

theorem Evaluates.inputAll {a b : NeuralNetwork} (h : Evaluates a b) (G : Buf) (o : Bool) :
    Evaluates a (NeuralNetwork.inputAll T G o b) := by
  unfold NeuralNetwork.inputAll
  cases o with
  | false => exact .setInput G h
  | true =>
    rw [if_pos rfl]
    generalize T.n 0 = k
    induction k with
    | zero => exact h
    | succ k ih => exact .setInputAt k (G k) ih

theorem evaluateShort_eq (hT : T.Sensible) (ho : T.n T.out = 1) (h : Loaded T w nn) {a : Atom}
    {d : Bool} (hG : T.n 0 = a.G.length + 1) (hd : d = true → T.n 0 ≤ a.dEdG.length) :
    ∃ nn', evaluateShort nn a d = some (nn', evaluatedShort T w a d) ∧ Loaded T w nn' := by
  have hs := Loaded.shape h
  have hp : Prepared T w (shortBuf a) (inputAll T (shortBuf a) true nn).propagate := by
    obtain ⟨nn0, h1, h2, h3⟩ := h
    exact ⟨nn0, nn, true, h1, h2, h3, .refl _⟩
  have hc := hp.computed hT
  refine ⟨(inputAll T (shortBuf a) true nn).propagate, ?_, ?_⟩
  · unfold evaluateShort
    rw [if_neg (by
      rw [hs.size]
      omega), if_neg (by
      rw [hs.size]
      rintro ⟨h1, h2 | h2⟩
      · have := hd h1; rw [h2] at this; simp at this; omega
      · have := hd h1; omega), if_neg (by
      rw [hs.size, hs.numLayers]
      have : T.n (T.numLayers - 1) = 1 := ho
      omega)]
    dsimp only
    rw [shortInput_eq hG]
    generalize (inputAll T (shortBuf a) true nn).propagate = nn' at hc
    have e1 : nn'.getOutput (fun _ => a.energy) 0 = T.forward w (shortBuf a) T.out 0 := by
      rw [getOutput_eq, hc.shape.numLayers, hc.shape.size]
      have : T.n (T.numLayers - 1) = 1 := ho
      rw [if_pos (by omega)]
      exact hc.value T.out (by have := hT.1; unfold out; omega) 0 (by omega)
    have e2 : listOf a.dEdG.length (nn'.calculateDEdG
        (bufOf a.dEdG)) = listOf a.dEdG.length fun m => if m < T.n 0 then
          T.tangent w (shortBuf a) 0 (unit m) T.out 0 else bufOf a.dEdG m := by
      unfold listOf
      refine List.map_congr_left fun m _ => ?_
      exact calculateDEdG_eq hT hc _ m
    rw [e1, e2]
    rfl
  · have h4 := hc.norm
    obtain ⟨nn0, h1, h2, h3⟩ := h
    exact ⟨nn0, h1, .propagate (Evaluates.inputAll h2 _ _), h4⟩

/-! ### All atoms -/

/-- The electronegativity network of an atom can be evaluated. -/
def ElecFits (P : Potential) (d : Bool) (a : Atom) : Prop :=
  (P.shape a.element).Sensible ∧ (P.shape a.element).n (P.shape a.element).out = 1 ∧
    (P.shape a.element).n 0 ≤ a.G.length ∧ (d = true → (P.shape a.element).n 0 ≤ a.dChidG.length)

/-- Every electronegativity network holds the parameters of the potential. -/
def ElecNetsOK (P : Potential) (nets : List NeuralNetwork) : Prop :=
  ∀ (k : ℕ) nn, nets[k]? = some nn → Loaded (P.shape k) (P.weights k) nn

theorem ElecNetsOK.set {P : Potential} {nets : List NeuralNetwork} (h : ElecNetsOK P nets) {k : ℕ}
    {nn : NeuralNetwork} (he : Loaded (P.shape k) (P.weights k) nn) : ElecNetsOK P (nets.set k nn) := by
  intro i e' hi
  rw [List.getElem?_set] at hi
  by_cases hk : k = i
  · subst hk
    rw [if_pos rfl] at hi
    split at hi
    · rw [← Option.some.inj hi]; exact he
    · exact absurd hi (by simp)
  · rw [if_neg hk] at hi
    exact h i e' hi

noncomputable def elecAtom (conv : ℝ → ℝ) (P : Potential) (d : Bool) (a : Atom) : Atom :=
  evaluatedElec conv (P.shape a.element) (P.weights a.element) a d

theorem elecNetworks_eq (conv : ℝ → ℝ) {P : Potential} {nets : List NeuralNetwork}
    {atoms : List Atom} {d : Bool}
    (hN : ElecNetsOK P nets) (ha : ∀ a ∈ atoms, a.element < nets.length ∧ ElecFits P d a) :
    ∃ nets', calculateElecNetworks conv nets atoms d =
        some (nets', atoms.map (elecAtom conv P d)) ∧
      nets'.length = nets.length ∧ ElecNetsOK P nets' := by
  unfold calculateElecNetworks
  suffices h : ∀ (atoms : List Atom) (nets1 : List NeuralNetwork) (done : List Atom),
      nets1.length = nets.length → ElecNetsOK P nets1 →
      (∀ a ∈ atoms, a.element < nets.length ∧ ElecFits P d a) → ∃ nets',
      atoms.foldlM (fun (s : List NeuralNetwork × List Atom) a => do
        let nn ← s.1[a.element]?
        let r ← evaluateElec conv nn a d
        some (s.1.set a.element r.1, s.2 ++ [r.2])) (nets1, done) =
      some (nets', done ++ atoms.map (elecAtom conv P d)) ∧ nets'.length = nets.length ∧
      ElecNetsOK P nets' by
    have := h atoms nets [] rfl hN ha
    simpa using this
  intro atoms
  induction atoms with
  | nil => intro nets1 done h1 h2 _; exact ⟨nets1, by simp, h1, h2⟩
  | cons a atoms ih =>
    intro nets1 done h1 h2 h3
    obtain ⟨ha1, hT, ho, hG, hd⟩ := h3 a (by simp)
    have he : nets1[a.element]? = some nets1[a.element] := List.getElem?_eq_getElem (by omega)
    obtain ⟨nn', e1, e2⟩ := evaluateElec_eq hT ho (h2 _ _ he) conv hG hd
    obtain ⟨nets', g1, g2, g3⟩ := ih (nets1.set a.element nn')
      (done ++ [elecAtom conv P d a]) (by simpa using h1) (h2.set e2) fun b hb => h3 b (by simp [hb])
    refine ⟨nets', ?_, g2, g3⟩
    rw [List.foldlM_cons, he]
    show Option.bind (Option.bind (evaluateElec _ _ _ _) _) _ = _
    rw [e1]
    show List.foldlM _ _ _ = _
    refine g1.trans ?_
    simp

/-- The short-range network of an atom can be evaluated. -/
def ShortFits (P : Potential) (d : Bool) (a : Atom) : Prop :=
  (P.shape a.element).Sensible ∧ (P.shape a.element).n (P.shape a.element).out = 1 ∧
    (P.shape a.element).n 0 = a.G.length + 1 ∧ (d = true → (P.shape a.element).n 0 ≤ a.dEdG.length)

noncomputable def shortAtom (P : Potential) (d : Bool) (a : Atom) : Atom :=
  evaluatedShort (P.shape a.element) (P.weights a.element) a d

theorem shortNetworks_eq {P : Potential} {els : List ElementData} {atoms : List Atom} {d : Bool}
    (hN : NetsOK P els) (ha : ∀ a ∈ atoms, a.element < els.length ∧ ShortFits P d a) :
    ∃ els', calculateShortNetworks els atoms d = some (els', atoms.map (shortAtom P d)) ∧
      SameElements els els' ∧ NetsOK P els' := by
  unfold calculateShortNetworks
  suffices h : ∀ (atoms : List Atom) (els1 : List ElementData) (done : List Atom),
      SameElements els els1 → NetsOK P els1 →
      (∀ a ∈ atoms, a.element < els.length ∧ ShortFits P d a) → ∃ els',
      atoms.foldlM (fun (s : List ElementData × List Atom) a => do
        let e ← s.1[a.element]?
        let r ← evaluateShort e.net a d
        some (s.1.set a.element { e with net := r.1 }, s.2 ++ [r.2])) (els1, done) =
      some (els', done ++ atoms.map (shortAtom P d)) ∧ SameElements els els' ∧
      NetsOK P els' by
    have := h atoms els [] rfl hN ha
    simpa using this
  intro atoms
  induction atoms with
  | nil => intro els1 done h1 h2 _; exact ⟨els1, by simp, h1, h2⟩
  | cons a atoms ih =>
    intro els1 done h1 h2 h3
    obtain ⟨ha1, hT, ho, hG, hd⟩ := h3 a (by simp)
    have hl : els1.length = els.length := by simpa using congrArg List.length h1
    have he : els1[a.element]? = some els1[a.element] := List.getElem?_eq_getElem (by omega)
    obtain ⟨nn', e1, e2⟩ := evaluateShort_eq hT ho (h2 _ _ he) hG hd
    obtain ⟨els', g1, g2, g3⟩ := ih (els1.set a.element { els1[a.element] with net := nn' })
      (done ++ [shortAtom P d a]) (h1.set he nn') (h2.set e2) fun b hb => h3 b (by simp [hb])
    refine ⟨els', ?_, g2, g3⟩
    rw [List.foldlM_cons, he]
    show Option.bind (Option.bind (evaluateShort _ _ _) _) _ = _
    rw [e1]
    show List.foldlM _ _ _ = _
    refine g1.trans ?_
    simp

end N2P2
