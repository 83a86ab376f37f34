import Verif.Model.LammpsWarnings
import Verif.Spec.Scaling

/-! What a LAMMPS run must tell about extrapolation: the warnings belong to the atoms, whichever
process they are on. -/

namespace N2P2

open Classical in
/-- The warnings an atom gives rise to: one for each symmetry function outside its range. -/
noncomputable def StatAtom.warnings (eps : ℝ) (el : StatElement) (a : StatAtom) : List EWLine :=
  ((el.symmetryFunctions.zip a.G).filter fun p => Outside eps p).map fun p =>
    ⟨a.indexStructure, a.tag, el.symbol, p.1.index + 1, p.1.type, p.1.unscale p.2, p.1.Gmin, p.1.Gmax⟩

/-- The warnings of some atoms. -/
noncomputable def warningsOf (eps : ℝ) (els : List StatElement) (atoms : List StatAtom) : List EWLine :=
  atoms.flatMap fun a => (els[a.element]?.map fun el => a.warnings eps el).getD []

/-- The number of warnings of the atoms of process `p`. -/
noncomputable def EWStep.warningsAt (t : EWStep) (eps : ℝ) (els : List StatElement) (p : ℕ) : ℤ :=
  (warningsOf eps els (t.atoms.getD p [])).length

/-- The warnings of all atoms. -/
noncomputable def EWStep.warnings (t : EWStep) (eps : ℝ) (els : List StatElement) : List EWLine :=
  warningsOf eps els t.atoms.flatten

/-- The time steps after the last one with a summary. -/
def sinceSummary (n : ℤ) (past : List EWStep) : List EWStep :=
  (past.reverse.takeWhile fun t => decide (t.step % n ≠ 0)).reverse

/-- What is told at time step `t`, after the time steps `past`. -/
structure EWSettings.Tells (S : EWSettings) (eps : ℝ) (els : List StatElement) (past : List EWStep)
    (t : EWStep) (o : EWOutput) : Prop where
  /-- All warnings of this time step, each once, if they are to be shown. -/
  lines : o.lines.Perm (if S.showew then t.warnings eps els else [])
  /-- The number of warnings since the last summary, and per time step of the interval. -/
  summary : o.summary = if 0 < S.showewsum ∧ t.step % S.showewsum = 0 then
      let n : ℤ := ((sinceSummary S.showewsum past ++ [t]).map
        fun u => ((u.warnings eps els).length : ℤ)).sum
      some (n, (n : ℝ) / S.showewsum)
    else none
  /-- The run is stopped if one process has too many warnings, counted at this time step only
  (`resetew`) or since the start. -/
  stopped : o.stopped = true ↔ ∃ p < t.atoms.length, S.maxew <
    if S.resetew then t.warningsAt eps els p
    else ((past ++ [t]).map fun u => u.warningsAt eps els p).sum

/-- What is told during a run over `ts`, after `past`. -/
def EWSettings.TellsRun (S : EWSettings) (eps : ℝ) (els : List StatElement) :
    List EWStep → List EWStep → List EWOutput → Prop
  | _, [], os => os = []
  | past, t :: ts, os => ∃ o rest, os = o :: rest ∧ S.Tells eps els past t o ∧
      if o.stopped then rest = [] else S.TellsRun eps els (past ++ [t]) ts rest

/-- Elements as set up: symmetry functions have numbers of their own, symbols have no zero bytes. -/
structure EWSettings.SetUp (S : EWSettings) (els : List StatElement) : Prop where
  index : ∀ k (h : k < els.length), els[k].index = k
  flags : ∀ el ∈ els, el.flags = S.flags
  numbers : ∀ el ∈ els, (el.symmetryFunctions.map (·.index)).Nodup
  symbol : ∀ el ∈ els, Char.ofNat 0 ∉ el.symbol

/-- Atoms whose symmetry functions have been calculated. -/
def StatAtom.Ready (els : List StatElement) (a : StatAtom) : Prop :=
  ∃ el, els[a.element]? = some el ∧ a.numSymmetryFunctions = el.symmetryFunctions.length ∧
    a.G.length = el.symmetryFunctions.length

/-- A time step on `n` processes. -/
def EWStep.Ready (els : List StatElement) (n : ℕ) (t : EWStep) : Prop :=
  t.atoms.length = n ∧ ∀ as ∈ t.atoms, ∀ a ∈ as, a.Ready els

/-- Bytes that suffice for the message with the warnings `ws`. -/
def ewBytes {Byte : Type} (F : MpiFormat Byte) (k : ℕ) (ws : List EWLine) : ℕ :=
  k * F.size .sizeT + (ws.map fun w => 6 * F.size .sizeT + 3 * F.size .double +
    (w.element.length + 1) * F.size .char).sum

/-- No process has warnings for a message of 2 GiB. -/
def EWStep.Short {Byte : Type} (F : MpiFormat Byte) (eps : ℝ) (els : List StatElement) (t : EWStep) :
    Prop :=
  ∀ as ∈ t.atoms, ewBytes F els.length (warningsOf eps els as) < 2 ^ 31

end N2P2
