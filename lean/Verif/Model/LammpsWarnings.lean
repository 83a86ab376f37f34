import Verif.Model.Scaling
import Verif.Model.Message

/-! Extrapolation warnings in LAMMPS runs: collecting them on every process, sending them to
process 0, writing them, the summary and the limit (pair_hdnnp.cpp, InterfaceLammps.cpp,
SymFncStatistics.cpp). -/

namespace N2P2

/-- Loop over a `std::map`: by increasing key. -/
def CMap.inOrder {V : Type} (m : CMap ℕ V) : List (ℕ × V) :=
  m.mergeSort fun a b => decide (a.1 ≤ b.1)

/-- The numbers and names put into one line of SymFncStatistics.cpp:121-132, in this order. The
text around them and the number formats are left out. -/
structure EWLine where
  indexStructure : ℕ
  indexAtom : ℕ
  element : Str
  symFnc : ℕ
  type : ℕ
  value : ℝ
  Gmin : ℝ
  Gmax : ℝ

/-- SymFncStatistics.cpp:119-133, one container. Entries beyond the end of `indexStructureEW` and
`indexAtomEW` (undefined) are 0 here. -/
noncomputable def StatContainer.ewLines (index : ℕ) (d : StatContainer) : List EWLine :=
  (List.range d.valueEW.length).map fun i =>
    ⟨d.indexStructureEW.getD i 0, d.indexAtomEW.getD i 0, d.element, index + 1, d.type,
      d.valueEW.getD i 0, d.Gmin, d.Gmax⟩

/-- SymFncStatistics.cpp:112-136 `getExtrapolationWarningLines`. -/
noncomputable def StatData.ewLines (d : StatData) : List EWLine :=
  (CMap.inOrder d).flatMap fun p => p.2.ewLines p.1

/-- Mode.cpp:2166-2178 `getNumExtrapolationWarnings`. -/
def numExtrapolationWarnings (els : List StatData) : ℕ := (els.map StatData.countEW).sum

/-- InterfaceLammps.cpp:751-765 `writeExtrapolationWarnings`. -/
noncomputable def writeExtrapolationWarnings (els : List StatData) : List EWLine :=
  els.flatMap StatData.ewLines

variable {Byte : Type} (F : MpiFormat Byte)

/-- InterfaceLammps.cpp:656-668, one container. -/
def ewEntrySize (c : StatContainer) : ℕ :=
  F.size .sizeT + F.size .sizeT + F.size .sizeT + F.size .double + F.size .double +
    F.size .sizeT + (c.element.length + 1) * F.size .char +
    c.countEW * F.size .sizeT + c.countEW * F.size .sizeT + c.countEW * F.size .double

/-- InterfaceLammps.cpp:638-673 `getEWBufferSize`. -/
def ewBufferSize (els : List StatData) : ℕ :=
  (els.map fun d => F.size .sizeT + ((CMap.inOrder d).map fun p => ewEntrySize F p.2).sum).sum

/-- `MPI_Pack` of `n` elements from `&v.front()`. `none`: no room left, or undefined (`v` empty, or
shorter than `n`). -/
def mpiPackFront (bs : ℤ) (T : MpiType) (n : ℕ) (v : List T.Val) (p : List Byte) :
    Option (List Byte) :=
  if v.length = 0 ∨ v.length < n then none else mpiPack F bs T (v.take n) p

/-- InterfaceLammps.cpp:690-702, one entry of the map. -/
def packEW (bs : ℤ) (p : List Byte) (e : ℕ × StatContainer) : Option (List Byte) := do
  let p ← mpiPack F bs .sizeT [e.1] p
  let p ← mpiPack F bs .sizeT [e.2.countEW] p
  let p ← mpiPack F bs .sizeT [e.2.type] p
  let p ← mpiPack F bs .double [e.2.Gmin] p
  let p ← mpiPack F bs .double [e.2.Gmax] p
  let p ← mpiPack F bs .sizeT [e.2.element.length + 1] p
  let p ← mpiPack F bs .char (e.2.element ++ [Char.ofNat 0]) p
  let p ← mpiPackFront F bs .sizeT e.2.countEW e.2.indexStructureEW p
  let p ← mpiPackFront F bs .sizeT e.2.countEW e.2.indexAtomEW p
  mpiPackFront F bs .double e.2.countEW e.2.valueEW p

/-- InterfaceLammps.cpp:681-703, one element. -/
def packEWs (bs : ℤ) (p : List Byte) (d : StatData) : Option (List Byte) := do
  let p ← mpiPack F bs .sizeT [CMap.size d] p
  (CMap.inOrder d).foldlM (packEW F bs) p

/-- InterfaceLammps.cpp:675-706 `fillEWBuffer`. -/
def fillEWBuffer (bs : ℤ) (els : List StatData) : Option (List Byte) :=
  els.foldlM (packEWs F bs) []

/-- pair_hdnnp.cpp:330-339: what a process sends. The size, a `long`, is converted to `int` for
`fillEWBuffer` and `MPI_Send`; a negative count is an MPI error. -/
def sendEW (els : List StatData) : Option (List Byte) :=
  let bs := toInt32 (ewBufferSize F els)
  if bs < 0 then none else fillEWBuffer F bs els

/-- `v.resize(c + new.size())`, then writing `new` from position `c` on. -/
def resizeWrite {α : Type} (zero : α) (v : List α) (c : ℕ) (new : List α) : List α :=
  (v ++ List.replicate (c - v.length) zero).take c ++ new

/-- InterfaceLammps.cpp:719-745, one entry. -/
noncomputable def extractEW (dblMax : ℝ) (d : StatData) : Recv Byte StatData := fun b => do
  let (index, b) ← mpiUnpack1 F .sizeT b
  let c := d.at dblMax index
  let (countEW, b) ← mpiUnpack1 F .sizeT b
  let (type, b) ← mpiUnpack1 F .sizeT b
  let (Gmin, b) ← mpiUnpack1 F .double b
  let (Gmax, b) ← mpiUnpack1 F .double b
  let (ts, b) ← mpiUnpack1 F .sizeT b
  let (element, b) ← mpiUnpack F .char ts b
  let (indexStructureEW, b) ← mpiUnpack F .sizeT countEW b
  let (indexAtomEW, b) ← mpiUnpack F .sizeT countEW b
  let (valueEW, b) ← mpiUnpack F .double countEW b
  some (CMap.set d index { c with
    countEW := c.countEW + countEW
    type := type
    Gmin := Gmin
    Gmax := Gmax
    element := element.takeWhile (· ≠ Char.ofNat 0)
    indexStructureEW := resizeWrite 0 c.indexStructureEW c.countEW indexStructureEW
    indexAtomEW := resizeWrite 0 c.indexAtomEW c.countEW indexAtomEW
    valueEW := resizeWrite 0 c.valueEW c.countEW valueEW }, b)

/-- InterfaceLammps.cpp:717-746, `n` entries. -/
noncomputable def extractEWs (dblMax : ℝ) : ℕ → StatData → Recv Byte StatData
  | 0, d, b => some (d, b)
  | n + 1, d, b => do
    let (d, b) ← extractEW F dblMax d b
    extractEWs dblMax n d b

/-- InterfaceLammps.cpp:708-749 `extractEWBuffer`: adds the warnings in the buffer to those in
`els`. -/
noncomputable def extractEWBuffer (dblMax : ℝ) : List StatData → Recv Byte (List StatData)
  | [], b => some ([], b)
  | d :: els, b => do
    let (n, b) ← mpiUnpack1 F .sizeT b
    let (d, b) ← extractEWs F dblMax n d b
    let (els, b) ← extractEWBuffer dblMax els b
    some (d :: els, b)

/-- pair_hdnnp.cpp:314-327: process 0 (with statistics `mine`) adds the warnings of the others, one
process after the other; those without warnings send nothing. -/
noncomputable def gatherEW (dblMax : ℝ) : List StatData → List (List StatData) → Option (List StatData)
  | mine, [] => some mine
  | mine, other :: others =>
    if 0 < numExtrapolationWarnings other then do
      let buf ← sendEW F other
      let (mine, _) ← extractEWBuffer F dblMax mine buf
      gatherEW dblMax mine others
    else gatherEW dblMax mine others

/-- Arguments of `pair_style hdnnp` about extrapolation warnings (pair_hdnnp.cpp:125-180). -/
structure EWSettings where
  showew : Bool
  showewsum : ℤ
  maxew : ℤ
  resetew : Bool

/-- InterfaceLammps.cpp:83, pair_hdnnp.cpp:99: whether warnings are collected and handled. -/
def EWSettings.active (S : EWSettings) : Bool :=
  S.showew || decide (0 < S.showewsum) || decide (0 ≤ S.maxew)

/-- InterfaceLammps.cpp:79-90: switches of the statistics. -/
def EWSettings.flags (S : EWSettings) : StatFlags :=
  ⟨false, S.active, false⟩

/-- InterfaceLammps.cpp:117-125: what the log says about the limit. -/
def EWSettings.limitMessage (S : EWSettings) : Str :=
  if S.maxew ≠ 0 then "The simulation will be stopped when ".toList ++ (toString S.maxew).toList ++
    " extrapolation warnings are exceeded.\n".toList
  else "No extrapolation warning limit set.\n".toList

/-- What a process keeps: `numExtrapolationWarningsTotal`, `numExtrapolationWarningsSummary` and the
statistics of the elements. -/
structure EWProcess where
  total : ℤ
  summary : ℤ
  statistics : List StatData

/-- What is written at a time step, and whether the run is aborted (`error->one`). -/
structure EWOutput where
  lines : List EWLine
  summary : Option (ℤ × ℝ)
  stopped : Bool

/-- pair_hdnnp.cpp:294-305, counters. -/
def EWProcess.count (S : EWSettings) (p : EWProcess) : EWProcess :=
  let n : ℤ := numExtrapolationWarnings p.statistics
  { p with
    total := if S.resetew then n else p.total + n
    summary := if 0 < S.showewsum then p.summary + n else p.summary }

/-- pair_hdnnp.cpp:309-342: the lines written by process 0. -/
noncomputable def ewShown (S : EWSettings) (dblMax : ℝ) (ps : List EWProcess) : Option (List EWLine) :=
  if S.showew then
    match ps with
    | [] => some []
    | p :: others => do
      let all ← gatherEW F dblMax p.statistics (others.map (·.statistics))
      some (writeExtrapolationWarnings all)
  else some []

/-- pair_hdnnp.cpp:345: whether there is a summary at this time step. -/
def EWSettings.summaryDue (S : EWSettings) (step : ℤ) : Bool :=
  decide (0 < S.showewsum ∧ step % S.showewsum = 0)

/-- pair_hdnnp.cpp:292-361 `handleExtrapolationWarnings` on all processes; `MPI_Gather` and
`MPI_Reduce` by contract. The statistics which process 0 has collected are cleared like those of the
others. `none`: failure to send. -/
noncomputable def handleEW (S : EWSettings) (dblMax : ℝ) (step : ℤ) (ps : List EWProcess) :
    Option (EWOutput × List EWProcess) := do
  let ps := ps.map (EWProcess.count S)
  let lines ← ewShown F S dblMax ps
  let globalEW : ℤ := (ps.map (·.summary)).sum
  let summary : Option (ℤ × ℝ) := if S.summaryDue step then some (globalEW, (globalEW : ℝ) / S.showewsum) else none
  let ps := if S.summaryDue step then ps.map fun p => { p with summary := 0 } else ps
  let stopped := ps.any fun p => decide (p.total > S.maxew)
  some (⟨lines, summary, stopped⟩,
    ps.map fun p => { p with statistics := p.statistics.map fun _ => [] })

/-- Mode.cpp:1623-1633 (called by `process`): statistics of the atoms of one process. `none`:
exception. -/
noncomputable def checkAtoms (dblMax eps : ℝ) (els : List StatElement) (st : List StatData)
    (atoms : List StatAtom) : Option (List StatData) :=
  atoms.foldlM (fun st a => do
    let el ← els[a.element]?
    let d ← st[a.element]?
    match updateStatistics dblMax eps el a d with
    | (d, .count _) => some (st.set a.element d)
    | _ => none) st

/-- One time step: its number and the local atoms of every process, with their symmetry functions. -/
structure EWStep where
  step : ℤ
  atoms : List (List StatAtom)

/-- pair_hdnnp.cpp:80-120 `compute` on all processes, as far as extrapolation warnings go. -/
noncomputable def ewCompute (S : EWSettings) (dblMax eps : ℝ) (els : List StatElement)
    (ps : List EWProcess) (t : EWStep) : Option (EWOutput × List EWProcess) :=
  if S.active then do
    let ps ← (ps.zip t.atoms).mapM fun x => do
      let st ← checkAtoms dblMax eps els x.1.statistics x.2
      some { x.1 with statistics := st }
    handleEW F S dblMax t.step ps
  else some (⟨[], none, false⟩, ps)

/-- A run; it ends early if it is aborted. -/
noncomputable def ewRun (S : EWSettings) (dblMax eps : ℝ) (els : List StatElement) :
    List EWProcess → List EWStep → Option (List EWOutput)
  | _, [] => some []
  | ps, t :: ts => do
    let (o, ps) ← ewCompute F S dblMax eps els ps t
    if o.stopped then some [o] else do
      let os ← ewRun S dblMax eps els ps ts
      some (o :: os)

/-- Before the first time step: `n` processes, `k` elements (pair_hdnnp.cpp:236-243). -/
def ewStart (n k : ℕ) : List EWProcess := List.replicate n ⟨0, 0, List.replicate k []⟩

end N2P2
