import Verif.Model.NeuralNetwork
import Verif.Model.Training
import Mathlib.Algebra.Order.Floor.Semiring
import Mathlib.Analysis.SpecialFunctions.Sqrt

/-! Weight vector of the training, update plan, and assembly of error vector and Jacobian. -/

namespace N2P2

namespace Training

/-! ### Weight vector -/

/-- The members of `Element` used here: the network under training and the hardness. -/
structure ElementNet where
  nn : NeuralNetwork
  hardness : ℝ

/-- `f(&(w.at(pos)))` for a function `f` which writes to the array it is given. -/
def _root_.N2P2.Buf.writeAt (w : Buf) (pos : ℕ) (f : Buf → Buf) : Buf :=
  fun m => if m < pos then w m else f (fun j => w (pos + j)) (m - pos)

/-- `&(w.at(pos))` for reading. -/
def _root_.N2P2.Buf.from (w : Buf) (pos : ℕ) : Buf := fun j => w (pos + j)

/-- Training.cpp:330-351 `initializeWeightsMemory` for `US_COMBINED`: `weightsOffset` and
`numWeights`. `hard` stands for `nnpType == HDNNP_4G && stage == 1`. -/
def initializeWeightsMemory (hard : Bool) (els : List ElementNet) : List ℕ × ℕ :=
  els.foldl (fun s e => (s.1 ++ [s.2], s.2 + e.nn.numConnections + if hard then 1 else 0)) ([], 0)

/-- Training.cpp:3272-3281 `getNumConnections`. -/
def getNumConnections (els : List ElementNet) : ℕ :=
  els.foldl (fun n e => n + e.nn.numConnections) 0

/-- Training.cpp:3283-3292 `getNumConnectionsPerElement`. -/
def getNumConnectionsPerElement (els : List ElementNet) : List ℕ :=
  els.foldl (fun npe e => npe ++ [e.nn.numConnections]) []

/-- Training.cpp:3294-3305 `getConnectionOffsets`. -/
def getConnectionOffsets (els : List ElementNet) : List ℕ :=
  (els.foldl (fun s e => (s.1 ++ [s.2], s.2 + e.nn.numConnections)) (([] : List ℕ), 0)).1

/-- Training.cpp:3469-3485 `getWeights` for `US_COMBINED` from element to element; `size` is the
length of `weights.at(0)`, `none` the exception of `at()`. For a negative hardness the code stores
NaN, the model zero; the theorems ask for hardness ≥ 0 where it matters. -/
noncomputable def getWeightsFrom (hard : Bool) (size : ℕ) :
    List ElementNet → ℕ → Buf → Option Buf
  | [], _, w => some w
  | e :: es, pos, w =>
    if size ≤ pos then none
    else
      let w := w.writeAt pos e.nn.getConnections
      let pos := pos + e.nn.numConnections
      if hard then
        if size ≤ pos then none
        else getWeightsFrom hard size es (pos + 1) (w.set pos (Real.sqrt e.hardness))
      else getWeightsFrom hard size es pos w

/-- Training.cpp:3500-3515 `setWeights` for `US_COMBINED` from element to element. -/
noncomputable def setWeightsFrom (hard : Bool) (size : ℕ) :
    List ElementNet → ℕ → Buf → Option (List ElementNet)
  | [], _, _ => some []
  | e :: es, pos, w =>
    if size ≤ pos then none
    else
      let nn := e.nn.setConnections (w.from pos)
      let pos := pos + e.nn.numConnections
      if hard then
        if size ≤ pos then none
        else (setWeightsFrom hard size es (pos + 1) w).map (⟨nn, w pos ^ 2⟩ :: ·)
      else (setWeightsFrom hard size es pos w).map (⟨nn, e.hardness⟩ :: ·)

/-- Training.cpp:3467-3496 `getWeights` for `US_COMBINED`. -/
noncomputable def getWeights (hard : Bool) (els : List ElementNet) (w : Buf) : Option Buf :=
  getWeightsFrom hard (initializeWeightsMemory hard els).2 els 0 w

/-- Training.cpp:3498-3526 `setWeights` for `US_COMBINED`. -/
noncomputable def setWeights (hard : Bool) (els : List ElementNet) (w : Buf) :
    Option (List ElementNet) :=
  setWeightsFrom hard (initializeWeightsMemory hard els).2 els 0 w

/-- Training.cpp:3486-3493 `getWeights` for `US_ELEMENT`. -/
def getWeightsElement (els : List ElementNet) (ws : List Buf) : List Buf :=
  List.zipWith (fun e w => e.nn.getConnections w) els ws

/-- Training.cpp:3516-3523 `setWeights` for `US_ELEMENT`. -/
def setWeightsElement (els : List ElementNet) (ws : List Buf) : List ElementNet :=
  List.zipWith (fun e w => { e with nn := e.nn.setConnections w }) els ws

/-! ### Numeric derivatives -/

/-- State of `dPdcN`: the weight vector, the networks and the derivatives so far. -/
structure DState where
  w : Buf
  els : List ElementNet
  out : List ℝ

/-- Training.cpp:3395-3411 loop body for the parameter at slot `o`. `energy` stands for
`calculateAtomicNeuralNetworks`, `calculateEnergy` on a fixed structure: it depends on the networks;
the scratch values it leaves in the neurons are not modelled. -/
noncomputable def dPdcNStep (energy : List ElementNet → ℝ) (delta : ℝ) (s : DState) (o : ℕ) :
    Option DState := do
  let w := s.w o
  let w1 := s.w.set o (s.w o + delta)
  let els1 ← setWeights false s.els w1
  let energyHigh := energy els1
  let w2 := w1.set o (w1 o - 2 * delta)
  let els2 ← setWeights false els1 w2
  let energyLow := energy els2
  some ⟨w2.set o w, els2, s.out ++ [(energyHigh - energyLow) / (2 * delta)]⟩

/-- Slots visited by `dPdcN`: for each element all its parameters from the element's offset on. -/
def dPdcNSlots (els : List ElementNet) : List ℕ :=
  (List.zip (getConnectionOffsets els) (getNumConnectionsPerElement els)).flatMap
    fun x => (List.range x.2).map (x.1 + ·)

/-- Training.cpp:3379-3414 `dPdcN` for property "energy" (no hardness in the weight vector). -/
noncomputable def dPdcN (energy : List ElementNet → ℝ) (delta : ℝ) (els : List ElementNet)
    (w : Buf) : Option DState :=
  (dPdcNSlots els).foldlM (dPdcNStep energy delta) ⟨w, els, []⟩

/-! ### Update plan -/

/-- Training.cpp:3877-3885 the number of patterns per update on a process with `numCandidates`
candidates. -/
noncomputable def patternsPerUpdate (taskBatchSize numCandidates : ℕ) (epochFraction : ℝ) : ℕ :=
  if taskBatchSize = 0 then ⌊(numCandidates : ℝ) * epochFraction⌋₊ else taskBatchSize

/-- Training.cpp:3881, 3886-3888 the number of updates per epoch; `numTrainPatterns` is the global
number. -/
noncomputable def numUpdates (taskBatchSize numTrainPatterns numProcs : ℕ) (epochFraction : ℝ) : ℕ :=
  if taskBatchSize = 0 then 1
  else ⌊(numTrainPatterns : ℝ) * epochFraction / taskBatchSize / numProcs⌋₊

/-- Training.h:84-92 `JacobianMode`. -/
inductive JacobianMode
  | sum | task | full
  deriving DecidableEq

/-- Training.h:55-81 `ParallelMode`. -/
inductive ParallelMode
  | trainRk0 | trainAll
  deriving DecidableEq

/-- Training.cpp:3892-3901 `errorsPerTask` after `MPI_Allgather`, from the patterns per update of
each process. -/
def errorsPerTask (jm : JacobianMode) (ppu : List ℕ) : List ℕ :=
  if jm = .full then ppu else ppu.map fun _ => 1

/-- Training.cpp:3915-3920 `offsetPerTask` and `numErrorsGlobal`. -/
def offsetPerTask (ept : List ℕ) : List ℕ × ℕ :=
  ept.foldl (fun s n => (s.1 ++ [s.2], s.2 + n)) ([], 0)

/-! ### Error vector and Jacobian -/

/-- Training.cpp:2537-2543 and 2820-2825 first slot of a process in its own arrays. -/
def rankBase (pm : ParallelMode) (jm : JacobianMode) (off : ℕ → ℕ) (rank : ℕ) : ℕ :=
  if pm = .trainAll ∧ jm ≠ .sum then off rank else 0

/-- Training.cpp:2820-2885 filling the error vector of one updater over the batch: `e b` is the
error of the candidate in batch position `b`. `assign` is the case of line 2849 (charges with
HDNNP-4G), where `=` is used instead of `+=`. The array is zero before (line 2291). -/
def localError (assign : Bool) (jm : JacobianMode) (base nb : ℕ) (e : ℕ → ℝ) : Buf :=
  loop nb (fun b err =>
    let o := base + if jm = .full then b else 0
    err.set o (if assign then e b else err o + e b)) fun _ => 0

/-- Training.cpp:2530-2558 and the accumulation in 2592-2596, 2671-2675, 2729-2757, 2775-2779:
filling the Jacobian of one updater with `nw` weights; `d b m` is the derivative of the quantity in
batch position `b` with respect to weight `m`, summed over the atoms contributing. The array is zero
before (line 2292). -/
def localJacobian (jm : JacobianMode) (base nw nb : ℕ) (d : ℕ → ℕ → ℝ) : Buf :=
  loop nb (fun b jac =>
    let o := base * nw + if jm = .full then b * nw else 0
    fun m => if o ≤ m ∧ m < o + nw then jac m + d b (m - o) else jac m) fun _ => 0

/-- Training.cpp:2888-2902 scaling with the force weight. -/
def scaleBy (c : ℝ) (a : Buf) : Buf := fun m => a m * c

/-- Training.cpp:2909-2972 what the MPI calls guarantee on an updating process: `lerr t`, `ljac t`
are the arrays of process `t` before, `err`, `jac` the arrays afterwards. `cnt` and `off` are
`errorsPerTask` and `offsetPerTask`. -/
def Collected (pm : ParallelMode) (jm : JacobianMode) (numProcs nw : ℕ) (cnt off : ℕ → ℕ)
    (lerr ljac : ℕ → Buf) (err jac : Buf) : Prop :=
  match jm with
  | .sum => err 0 = ∑ t ∈ Finset.range numProcs, lerr t 0 ∧
      ∀ m < nw, jac m = ∑ t ∈ Finset.range numProcs, ljac t m
  | .task => ∀ t < numProcs,
      let src := if pm = .trainAll then t else 0
      err t = lerr t src ∧ ∀ m < nw, jac (t * nw + m) = ljac t (src * nw + m)
  | .full => ∀ t < numProcs,
      let src := if pm = .trainAll then off t else 0
      (∀ k < cnt t, err (off t + k) = lerr t (src + k)) ∧
      ∀ m < cnt t * nw, jac (off t * nw + m) = ljac t (src * nw + m)

/-! ### Jacobian of one energy or force -/

/-- The members of an atom used by the Jacobian: element, number of network inputs, their values (the
symmetry functions, with HDNNP-4G followed by the charge) and their derivatives with respect to the
coordinate of the force component. -/
structure AtomIn where
  element : ℕ
  numG : ℕ
  G : Buf
  dGdx : Buf

/-- State of the loop over atoms: networks, scratch arrays `dXdc`, the Jacobian row, and the atomic
energies. -/
structure JState where
  els : List ElementNet
  dXdc : ℕ → Buf
  jac : Buf
  energies : List ℝ

/-- Training.cpp:2592-2596 and 2671-2675. -/
def addJacobian (offset n : ℕ) (d jac : Buf) : Buf :=
  loop n (fun j jac => jac.set (offset + j) (jac (offset + j) + d j)) jac

/-- Training.cpp:2574-2597 one atom of an energy update (`US_COMBINED`). -/
noncomputable def energyJacobianAtom (offset : ℕ → ℕ) (s : JState) (a : AtomIn) : Option JState := do
  let e ← s.els[a.element]?
  let nn := (loop a.numG (fun j nn => nn.setInputAt j (a.G j)) e.nn).propagate
  let d := nn.calculateDEdc (s.dXdc a.element)
  some ⟨s.els.set a.element { e with nn := nn }, Function.update s.dXdc a.element d,
    addJacobian (offset a.element) nn.numConnections d s.jac,
    s.energies ++ [nn.getOutput (fun _ => 0) 0]⟩

/-- Training.cpp:2570-2598 all atoms of an energy update. -/
noncomputable def energyJacobian (offset : ℕ → ℕ) (els : List ElementNet) (dXdc : ℕ → Buf)
    (atoms : List AtomIn) : Option JState :=
  atoms.foldlM (energyJacobianAtom offset) ⟨els, dXdc, fun _ => 0, []⟩

/-- Training.cpp:2626-2676 one atom of a force update (`US_COMBINED`); `dEdG` is not modelled. -/
noncomputable def forceJacobianAtom (offset : ℕ → ℕ) (s : JState) (a : AtomIn) : Option JState := do
  let e ← s.els[a.element]?
  let nn := (loop a.numG (fun j nn => nn.setInputAt j (a.G j)) e.nn).propagate
  let r := nn.calculateDFdc (s.dXdc a.element) a.dGdx
  some ⟨s.els.set a.element { e with nn := r.1 }, Function.update s.dXdc a.element r.2,
    addJacobian (offset a.element) nn.numConnections r.2 s.jac,
    s.energies ++ [nn.getOutput (fun _ => 0) 0]⟩

/-- Training.cpp:2624-2677 all atoms of a force update. -/
noncomputable def forceJacobian (offset : ℕ → ℕ) (els : List ElementNet) (dXdc : ℕ → Buf)
    (atoms : List AtomIn) : Option JState :=
  atoms.foldlM (forceJacobianAtom offset) ⟨els, dXdc, fun _ => 0, []⟩

end Training

end N2P2
