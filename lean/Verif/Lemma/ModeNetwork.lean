import Verif.Lemma.NNGradient
import Verif.Spec.Mode

/-! Evaluation of the atomic neural networks. -/

namespace N2P2

open NetShape NeuralNetwork

variable {T : NetShape} {w : Buf} {nn : NeuralNetwork}

theorem Loaded.prepared (h : Loaded T w nn) (G : Buf) : Prepared T w G (nn.setInput G).propagate := by
  obtain ⟨nn0, h1, h2, h3⟩ := h
  exact ⟨nn0, nn, false, h1, h2, h3, .refl _⟩

theorem Loaded.next (hT : T.Sensible) (h : Loaded T w nn) (G : Buf) :
    Loaded T w (nn.setInput G).propagate := by
  have h4 := ((Loaded.prepared h G).computed hT).norm
  obtain ⟨nn0, h1, h2, h3⟩ := h
  exact ⟨nn0, h1, .propagate (.setInput G h2), h4⟩

theorem Loaded.shape (h : Loaded T w nn) : HasShape T.numLayers T.n T.af nn := by
  obtain ⟨nn0, h1, h2, -⟩ := h
  have hs0 := h1.hasShape
  have hs1 := hs0.of_same (sameTop_setConnections hs0 w)
  exact hs1.of_same h2.keeps.top

/-- The atom after the evaluation of its network. -/
noncomputable def evaluated (T : NetShape) (w : Buf) (a : Atom) (derivatives : Bool) : Atom :=
  { a with
    dEdG := if derivatives then listOf a.dEdG.length fun m => if m < T.n 0 then
        T.tangent w (bufOf a.G) 0 (unit m) T.out 0 else bufOf a.dEdG m
      else a.dEdG
    energy := T.forward w (bufOf a.G) T.out 0 }

theorem evaluateAtom_eq (hT : T.Sensible) (ho : T.n T.out = 1) (h : Loaded T w nn) {a : Atom}
    {d : Bool} (hG : T.n 0 ≤ a.G.length) (hd : d = true → T.n 0 ≤ a.dEdG.length) :
    ∃ nn', evaluateAtom nn a d = some (nn', evaluated T w a d) ∧ Loaded T w nn' := by
  have hs := Loaded.shape h
  have h0 : 0 < T.n 0 := hT.2.1 0 (by have := hT.1; omega)
  have hc := (Loaded.prepared h (bufOf a.G)).computed hT
  refine ⟨_, ?_, Loaded.next hT h (bufOf a.G)⟩
  unfold evaluateAtom
  rw [if_neg (by
    rw [hs.size]
    rintro (h1 | h1)
    · rw [h1] at hG; simp at hG; omega
    · omega), if_neg (by
    rw [hs.size]
    rintro ⟨h1, h2 | h2⟩
    · have := hd h1; rw [h2] at this; simp at this; omega
    · have := hd h1; omega), if_neg (by
    rw [hs.size, hs.numLayers]
    have : T.n (T.numLayers - 1) = 1 := ho
    omega)]
  have e1 : ((nn.setInput (bufOf a.G)).propagate).getOutput (fun _ => a.energy) 0
      = T.forward w (bufOf a.G) T.out 0 := by
    rw [getOutput_eq, hc.shape.numLayers, hc.shape.size]
    have : T.n (T.numLayers - 1) = 1 := ho
    rw [if_pos (by omega)]
    exact hc.value T.out (by have := hT.1; unfold out; omega) 0 (by omega)
  have e2 : listOf a.dEdG.length (((nn.setInput (bufOf a.G)).propagate).calculateDEdG
      (bufOf a.dEdG)) = listOf a.dEdG.length fun m => if m < T.n 0 then
        T.tangent w (bufOf a.G) 0 (unit m) T.out 0 else bufOf a.dEdG m := by
    unfold listOf
    refine List.map_congr_left fun m _ => ?_
    exact calculateDEdG_eq hT hc _ m
  simp only [e1, e2]
  rfl

/-- All elements up to their networks. -/
def SameElements (els els' : List ElementData) : Prop :=
  els'.map (fun e => (e.symmetryFunctions, e.symmetryFunctionTable, e.cacheSizes)) =
    els.map (fun e => (e.symmetryFunctions, e.symmetryFunctionTable, e.cacheSizes))

theorem SameElements.get {els els' : List ElementData} (h : SameElements els els') {k : ℕ}
    {e : ElementData} (he : els[k]? = some e) : ∃ nn, els'[k]? = some { e with net := nn } := by
  have := congrArg (fun l => l[k]?) h
  simp only [List.getElem?_map, he, Option.map_some] at this
  obtain ⟨e', he', h2⟩ := Option.map_eq_some_iff.1 this
  simp only [Prod.mk.injEq] at h2
  refine ⟨e'.net, ?_⟩
  rw [he']
  cases e'; simp_all

theorem SameElements.symm {els els' : List ElementData} (h : SameElements els els') :
    SameElements els' els := Eq.symm h

theorem SameElements.set {els els' : List ElementData} (h : SameElements els els') {k : ℕ}
    {e : ElementData} (he : els'[k]? = some e) (nn : NeuralNetwork) :
    SameElements els (els'.set k { e with net := nn }) := by
  unfold SameElements at h ⊢
  rw [List.map_set, ← h]
  apply List.ext_getElem?
  intro i
  rw [List.getElem?_set]
  by_cases hi : k = i
  · subst hi
    have hl := (List.getElem?_eq_some_iff.1 he).1
    rw [if_pos rfl, if_pos (by simpa using hl), List.getElem?_map, he]
    rfl
  · rw [if_neg hi]

/-- Every network holds the parameters of the potential. -/
def NetsOK (P : Potential) (els : List ElementData) : Prop :=
  ∀ (k : ℕ) e, els[k]? = some e → Loaded (P.shape k) (P.weights k) e.net

theorem NetsOK.set {P : Potential} {els : List ElementData} (h : NetsOK P els) {k : ℕ}
    {e : ElementData} (he : Loaded (P.shape k) (P.weights k) e.net) : NetsOK P (els.set k e) := by
  intro i e' hi
  rw [List.getElem?_set] at hi
  by_cases hk : k = i
  · subst hk
    rw [if_pos rfl] at hi
    split at hi
    · rw [← Option.some.inj hi]; exact he
    · exact absurd hi (by simp)
  · rw [if_neg hk] at hi
    exact h i e' hi

/-- The atoms of a structure after evaluation of their networks. -/
noncomputable def evaluatedAtom (P : Potential) (d : Bool) (a : Atom) : Atom :=
  evaluated (P.shape a.element) (P.weights a.element) a d

/-- The network of an atom can be evaluated. -/
def NetFits (P : Potential) (d : Bool) (a : Atom) : Prop :=
  (P.shape a.element).Sensible ∧ (P.shape a.element).n (P.shape a.element).out = 1 ∧
    (P.shape a.element).n 0 ≤ a.G.length ∧ (d = true → (P.shape a.element).n 0 ≤ a.dEdG.length)

theorem networks_eq {P : Potential} {els : List ElementData} {atoms : List Atom} {d : Bool}
    (hN : NetsOK P els) (ha : ∀ a ∈ atoms, a.element < els.length ∧ NetFits P d a) :
    ∃ els', calculateAtomicNeuralNetworks els atoms d = some (els', atoms.map (evaluatedAtom P d)) ∧
      SameElements els els' ∧ NetsOK P els' := by
  unfold calculateAtomicNeuralNetworks
  suffices h : ∀ (atoms : List Atom) (els1 : List ElementData) (done : List Atom),
      SameElements els els1 → NetsOK P els1 →
      (∀ a ∈ atoms, a.element < els.length ∧ NetFits P d a) → ∃ els',
      atoms.foldlM (fun (s : List ElementData × List Atom) a => do
        let e ← s.1[a.element]?
        let r ← evaluateAtom e.net a d
        some (s.1.set a.element { e with net := r.1 }, s.2 ++ [r.2])) (els1, done) =
      some (els', done ++ atoms.map (evaluatedAtom P d)) ∧ SameElements els els' ∧
      NetsOK P els' by
    have := h atoms els [] rfl hN ha
    simpa using this
  intro atoms
  induction atoms with
  | nil => intro els1 done h1 h2 _; exact ⟨els1, by simp, h1, h2⟩
  | cons a atoms ih =>
    intro els1 done h1 h2 h3
    obtain ⟨ha1, hT, ho, hG, hd⟩ := h3 a (by simp)
    have hl : els1.length = els.length := by simpa using congrArg List.length h1
    have he : els1[a.element]? = some els1[a.element] := List.getElem?_eq_getElem (by omega)
    obtain ⟨nn', e1, e2⟩ := evaluateAtom_eq hT ho (h2 _ _ he) hG hd
    obtain ⟨els', g1, g2, g3⟩ := ih (els1.set a.element { els1[a.element] with net := nn' })
      (done ++ [evaluatedAtom P d a]) (h1.set he nn') (h2.set e2) fun b hb => h3 b (by simp [hb])
    refine ⟨els', ?_, g2, g3⟩
    rw [List.foldlM_cons, he]
    show Option.bind (Option.bind (evaluateAtom _ _ _) _) _ = _
    rw [e1]
    show List.foldlM _ _ _ = _
    refine g1.trans ?_
    simp

end N2P2
