import Verif.Lemma.CabanaEnergy
import Verif.Lemma.CabanaNetworks
import Verif.Lemma.CabanaOneExample
import Verif.Props.Cabana

/-! C100: the forces of the CabanaMD interface. -/

namespace N2P2

open NeuralNetwork NetShape

/-- C100: for a potential of libnnp whose settings, scaling data and weight files (as written by
training) are given to the CabanaMD interface, a step of the interface gives the energy of the
potential, and adds forces which are the negative gradient of this energy: along every path of all
atoms, the energy (in the units of the program) changes at a rate which is minus the power of the
forces. This is proved under the conditions of C98 and C99, and without angular functions with
`lambda` zero. -/
theorem C100_forces_partial (E : SFEnv) (lines : List (List Str))
    (conv : Option ℝ) (t : CutoffType) (α : ℝ) (st : ScalingType)
    (share : ℕ → List StatisticsLine) (Smin Smax : ℝ) (els : List ElementData)
    (N : NumberText) (hN : N.Data) (id : Str) (format : NameFormat) (hf : format.Short)
    (hidden : List ℕ) (hh : hidden ≠ []) (nets : List NetElement)
    (h : SameSettings E (nets.map NetElement.symbol) lines conv t α st share Smin Smax els)
    (ht : t = .COS ∨ t = .TANHU)
    (hS : ∀ e ∈ els, ∀ S ∈ e.symmetryFunctions,
      S.Sensible ∧ (S.kind = .ExpAngn → 0 ≤ S.rs ∧ S.lambda ≠ 0))
    (hknown : ∀ e ∈ nets, e.Known) (hdiff : (nets.map NetElement.symbol).Nodup)
    (P : Potential) (hP : ∀ (k : ℕ) e, els[k]? = some e → P.functions k = e.symmetryFunctions ∧
      P.shape k = plainShape hidden e.symmetryFunctions.length)
    (hnet : ∀ (k : ℕ) e, nets[k]? = some e → ∃ n af nn, e.HasNet id (2 + hidden.length) n af ∧
      IntSized (2 + hidden.length) n ∧ (∀ l < 2 + hidden.length, n l = (P.shape k).n l) ∧
      e.neuralNetworks.find? id = some nn ∧
      ∀ p : Param, p.Valid (2 + hidden.length) (P.shape k).n →
        P.weights k (p.pos (P.shape k).n) = N.rounded (p.read nn))
    (hlast : ∀ e ∈ els, ∃ last, els.getLast? = some last ∧
      e.symmetryFunctions.length ≤ last.symmetryFunctions.length) (fs : Files) :
    ∃ fs' rows tables net, writeWeights N nets id format fs = some fs' ∧
      cabanaRows E (nets.map NetElement.symbol) (conv.getD 1) lines = some rows ∧
      cabanaTables st Smin Smax ((List.range (nets.map NetElement.symbol).length).flatMap share) rows =
        some tables ∧
      cabanaWeights N fs' format (nets.map NetElement.symbol)
        (cabanaNet hidden (tables.map CabanaTable.num)) = .ok net ∧
      ∀ (convLength convEnergy : ℝ) (_ : convEnergy ≠ 0) (A : CabanaAtoms) (n : ℕ)
        (old : ℕ → ℕ → ℝ) (f0 : ℕ → Vec3), A.Regular P (1.889726 * convLength) n els.length →
        ∃ f, (⟨tables, t, α, convLength, convEnergy⟩ : Cabana).compute net A old f0 =
            some (A.energy P (1.889726 * convLength), f) ∧
          ∀ (X : ℝ → ℕ → Vec3) (v : ℕ → Vec3) (x : ℝ), X x = A.x →
            (∀ p < n, HasDerivAt (fun s => X s p) (v p) x) →
            HasDerivAt (fun s => (A.at (X s)).energy P (1.889726 * convLength)
              / (0.036749 * convEnergy)) (-∑ p ∈ Finset.range n, (f p - f0 p).dot (v p)) x := by
  obtain ⟨rows, tables, h1, h2, h3, h4⟩ :=
    cabanaSetup h.symbols h.few h.length h.types h.known h.element
  have hlen : nets.length = els.length := by rw [h.length, List.length_map]
  have hnum : tables.map CabanaTable.num = els.map fun e => e.symmetryFunctions.length := by
    refine List.ext_getElem (by simp [h3, h.length]) fun k hk hk' => ?_
    simp only [List.length_map] at hk hk'
    obtain ⟨e, he, hT⟩ := h4 k _ (List.getElem?_eq_getElem hk)
    rw [List.getElem?_eq_getElem hk', Option.some.injEq] at he
    rw [List.getElem_map, List.getElem_map, hT.num, he]
  have hel : ∀ (k : ℕ) e, nets[k]? = some e → ∃ d, els[k]? = some d := by
    intro k e he
    have := (List.getElem?_eq_some_iff.1 he).1
    exact ⟨_, List.getElem?_eq_getElem (by omega)⟩
  obtain ⟨fs', net, g1, g2, g3, g4⟩ := cabanaNetworks N hN id format hf hidden
    (els.map fun e => e.symmetryFunctions.length) nets hknown hdiff (fun k e he => by
      obtain ⟨n, af, nn, a1, a2, a3, -⟩ := hnet k e he
      obtain ⟨d, hd⟩ := hel k e he
      refine ⟨d.symmetryFunctions.length, n, af, by simp [hd], a1, a2, fun l hl => ?_⟩
      rw [a3 l hl, (hP k d hd).2]) (fun m hm => by
      obtain ⟨e, he, rfl⟩ := List.mem_map.1 hm
      obtain ⟨last, b1, b2⟩ := hlast e he
      exact ⟨last.symmetryFunctions.length, by simp [b1], b2⟩) fs
  refine ⟨fs', rows, tables, net, g1, h1, h2, by rw [hnum]; exact g2, ?_⟩
  intro cl ce _ A n old f0 hA
  refine cabana_compute (M := ⟨tables, t, α, cl, ce⟩) (elements := els.length) ht ⟨rfl, rfl⟩ ?_ ?_ hh
    g3 ?_ hA old f0
  · intro k hk
    have hkt : k < tables.length := by rw [h3, ← h.length]; exact hk
    obtain ⟨e, he, hT⟩ := h4 k _ (List.getElem?_eq_getElem hkt)
    exact ⟨_, List.getElem?_eq_getElem hkt, by rw [(hP k e he).1]; exact hT⟩
  · intro k hk
    rw [(hP k _ (List.getElem?_eq_getElem hk)).1]
    exact hS _ (List.getElem_mem hk)
  · intro k hk
    have hd := List.getElem?_eq_getElem hk
    generalize els[k] = d at hd
    have he := List.getElem?_eq_getElem (show k < nets.length by omega)
    generalize nets[k] = e at he
    obtain ⟨n, af, nn, a1, a2, a3, a4, a5⟩ := hnet k e he
    obtain ⟨q1, q2⟩ := hP k d hd
    rw [q2] at a5 ⊢
    obtain ⟨r1, r2⟩ := g4 k e d.symmetryFunctions.length nn (P.weights k) he (by simp [hd]) a4 a5
    refine ⟨plainShape_plain _ _, r1, ?_, ?_⟩
    · rw [q1]; rfl
    · exact r2

/-- One element with a radial and an angular function, one hidden layer with three neurons; three
atoms. -/
example (c : Buf) : ∃ els P, let nets := [exNetElement 1 "H" "short" c]
    SameSettings exOne (nets.map NetElement.symbol) [exOneNarLine, exRadLine ['H']] none .COS 0
      .scaleCenter exShare 0 1 els ∧
    (∀ e ∈ els, ∀ S ∈ e.symmetryFunctions,
      S.Sensible ∧ (S.kind = .ExpAngn → 0 ≤ S.rs ∧ S.lambda ≠ 0)) ∧
    (∃ e ∈ els, ∃ S ∈ e.symmetryFunctions, S.kind = .ExpAngn) ∧
    (∀ e ∈ nets, e.Known) ∧ (nets.map NetElement.symbol).Nodup ∧
    (∀ (k : ℕ) e, els[k]? = some e → Potential.functions P k = e.symmetryFunctions ∧
      P.shape k = plainShape [3] e.symmetryFunctions.length) ∧
    (∀ (k : ℕ) e, nets[k]? = some e → ∃ n af nn, e.HasNet "short".toList (2 + [3].length) n af ∧
      IntSized (2 + [3].length) n ∧ (∀ l < 2 + [3].length, n l = (P.shape k).n l) ∧
      e.neuralNetworks.find? "short".toList = some nn ∧
      ∀ p : Param, p.Valid (2 + [3].length) (P.shape k).n →
        P.weights k (p.pos (P.shape k).n) = exText.rounded (p.read nn)) ∧
    (∀ e ∈ els, ∃ last, els.getLast? = some last ∧
      e.symmetryFunctions.length ≤ last.symmetryFunctions.length) ∧
    exTriad.Regular P (1.889726 * 1) 3 els.length := by
  obtain ⟨e, h1, h2, h3, h4⟩ := exOne_settings exNetElement.exampleNet
  have hshape : (plainShape [3] 2).n = exampleShape.n := by
    funext l
    match l with
    | 0 => rfl
    | 1 => rfl
    | l + 2 => simp [plainShape, exampleShape]
  refine ⟨[e], ⟨fun _ => e.symmetryFunctions, fun _ => plainShape [3] 2,
    fun _ q => exText.rounded (c q)⟩, h1, ?_, ⟨e, by simp, h4⟩, ?_, ?_, ?_, ?_, ?_, ?_⟩
  · intro e' he'
    obtain rfl := List.mem_singleton.1 he'
    exact fun S hS => ⟨(h3 S hS).1, (h3 S hS).2.1⟩
  · intro e' he'
    exact (exMatching c 0).known e' (by simp [List.mem_singleton.1 he'])
  · simp
  · intro k e' he'
    match k with
    | 0 =>
      obtain rfl := Option.some.inj he'
      exact ⟨rfl, by rw [h2]⟩
    | k + 1 => simp at he'
  · intro k e' he'
    match k with
    | 0 =>
      obtain rfl := Option.some.inj he'
      refine ⟨_, _, exNetElement.exampleNet.setConnections c, exNetElement.hasNet _ _ _,
        exampleShape_intSized,
        fun l _ => by dsimp only; rw [hshape], by simp [exNetElement, CMap.find?], fun p hp => ?_⟩
      dsimp only at hp ⊢
      rw [hshape] at hp ⊢
      have h0 : Reachable exampleShape.numLayers exampleShape.n exampleShape.af
        exNetElement.exampleNet := .create (Option.some_get rfl).symm
      rw [read_setConnections h0.hasShape c hp]
    | k + 1 => simp at he'
  · intro e' he'
    exact ⟨e, rfl, by rw [List.mem_singleton.1 he']⟩
  · exact exTriad_regular _ _ (by norm_num) fun S hS => (h3 S hS).2.2

end N2P2
