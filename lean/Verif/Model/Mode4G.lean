import Verif.Model.ModeGroups
import Verif.Model.Electrostatics

/-! Evaluation of a neural network potential of the fourth generation: electronegativities from
neural networks, charge equilibration, short-range energies which depend on the charges, and forces
(Mode.cpp, Atom.cpp, Structure.cpp). How the parameters of the Ewald summation are chosen
(EwaldSetup.cpp) is left open: `ewaldSetup` is any function. -/

namespace N2P2

/-- Mode.h: the members used in the evaluation. The elements of `mode` hold the networks
`neuralNetworks.at("short")`, `elecNets` are the networks `neuralNetworks.at("elec")`. `groups` are the
symmetry function groups; `none` stands for a build with `NNP_NO_SF_GROUPS`. `ewaldSetup` is
`EwaldSetup::calculateParameters`: volume, number of atoms and previous parameters give new parameters,
or `none` if an exception is thrown; the parameters themselves are in `qeq`. -/
structure Mode4G where
  mode : Mode
  elecNets : List NeuralNetwork
  groups : Option (List (List SymGrp))
  qeq : Qeq
  ewaldSetup : ℝ → ℕ → EwaldParameters → Option EwaldParameters
  cutoffs : List (List ℝ)
  erfcBuf : ErfcBuf
  normalize : Bool
  convEnergy : ℝ
  convCharge : ℝ

/-! ### Neighbours -/

open Classical in
/-- Element.cpp:427-434 `getCutoffRadii`. -/
noncomputable def ElementData.getCutoffRadii (e : ElementData) (cutoffs : List ℝ) : List ℝ :=
  e.symmetryFunctions.foldl (fun l S => if S.rc ∈ l then l else l ++ [S.rc]) cutoffs

open Classical in
/-- Mode.cpp:1143-1156 `setupCutoffMatrix`, called once. -/
noncomputable def setupCutoffMatrix (els : List ElementData) (rCutScreen : ℝ) : List (List ℝ) :=
  els.map fun e =>
    let l := e.getCutoffRadii []
    if 0 < rCutScreen ∧ rCutScreen ∉ l then l ++ [rCutScreen] else l

/-- The structure with another value of `maxCutoffRadiusOverall`. -/
def Structure.withOverall (s : Structure) (R : ℝ) : Structure := { s with maxCutoffRadiusOverall := R }

/-- Structure.cpp:273-285 `calculateMaxCutoffRadiusOverall`. -/
noncomputable def Structure.calculateMaxCutoffRadiusOverall (s : Structure)
    (ewaldSetup : ℝ → ℕ → EwaldParameters → Option EwaldParameters) (p : EwaldParameters)
    (rcutScreen maxCutoffRadius : ℝ) : Option (EwaldParameters × Structure) :=
  if s.isPeriodic then do
    let p ← ewaldSetup s.volume s.numAtoms p
    some (p, s.withOverall (max (max rcutScreen maxCutoffRadius) p.rCut))
  else some (p, s.withOverall (max rcutScreen maxCutoffRadius))

/-! ### Symmetry functions -/

/-- Mode.cpp:1492-1542 and 1573-1619, one atom: before the symmetry functions are calculated
(`fns`), `useChargeNeuron` is set. -/
def calculateAtom4G (fns : Bool → Atom → Option Atom) (derivatives : Bool) (a : Atom) : Option Atom :=
  if a.hasSymmetryFunctionDerivatives then some a
  else if a.hasSymmetryFunctions ∧ ¬ derivatives then some a
  else fns derivatives { a with useChargeNeuron := true }

/-- Mode.cpp:1480-1640, loop over the atoms of the structure. -/
def calculateAtoms4G (fns : Bool → Atom → Option Atom) (s : Structure) (derivatives : Bool) :
    Option Structure :=
  if s.hasSymmetryFunctionDerivatives then some s
  else if s.hasSymmetryFunctions ∧ ¬ derivatives then some s
  else do
    let atoms ← s.atoms.mapM (calculateAtom4G fns derivatives)
    some { s with
      atoms := atoms
      hasSymmetryFunctions := true
      hasSymmetryFunctionDerivatives := s.hasSymmetryFunctionDerivatives || derivatives }

/-- Mode.cpp:1984-1988. -/
noncomputable def Mode4G.calculateSymmetryFunctions (M : Mode4G) (s : Structure) (useForces : Bool) :
    Option Structure :=
  match M.groups with
  | none => calculateAtoms4G M.mode.calculateAtom s true
  | some gs => calculateAtoms4G (M.mode.calculateAtomGroups gs) s useForces

/-- `std::vector::resize(n, 0.0)`. -/
noncomputable def resized (l : List ℝ) (n : ℕ) : List ℝ := l.take n ++ List.replicate (n - l.length) 0

/-- Mode.cpp:1996-2000. -/
noncomputable def Atom.resize4G (a : Atom) : Atom :=
  { a with
    dEdG := resized a.dEdG (a.numSymmetryFunctions + 1)
    dChidG := resized a.dChidG a.numSymmetryFunctions }

/-! ### Neural networks -/

/-- Mode.cpp:2084-2095 `normalized("negativity", value)`, if `normalize` is set. -/
noncomputable def Mode4G.negativity (M : Mode4G) (value : ℝ) : ℝ :=
  if M.normalize then value * M.convEnergy / M.convCharge else value

/-- Mode.cpp:1671-1690: one atom. `none`: the network reads or writes beyond the end of a vector. -/
noncomputable def evaluateElec (conv : ℝ → ℝ) (nn : NeuralNetwork) (a : Atom) (derivatives : Bool) :
    Option (NeuralNetwork × Atom) :=
  if a.G = [] ∨ a.G.length < (nn.layers 0).numNeurons then none
  else if derivatives ∧ (a.dChidG = [] ∨ a.dChidG.length < (nn.layers 0).numNeurons) then none
  else if 1 < (nn.layers (nn.numLayers - 1)).numNeurons then none
  else
    let nn := (nn.setInput (bufOf a.G)).propagate
    some (nn, { a with
      dChidG := if derivatives then
          (listOf a.dChidG.length (nn.calculateDEdG (bufOf a.dChidG))).map conv
        else a.dChidG
      chi := conv (nn.getOutput (fun _ => a.chi) 0) })

/-- Mode.cpp:1669-1691 `calculateAtomicNeuralNetworks` with id "elec". -/
noncomputable def calculateElecNetworks (conv : ℝ → ℝ) (nets : List NeuralNetwork)
    (atoms : List Atom) (derivatives : Bool) : Option (List NeuralNetwork × List Atom) :=
  atoms.foldlM (fun s a => do
    let nn ← s.1[a.element]?
    let r ← evaluateElec conv nn a derivatives
    some (s.1.set a.element r.1, s.2 ++ [r.2])) (nets, [])

/-- Mode.cpp:1696-1716: one atom. `none`: a neuron which does not exist is set, or the network writes
beyond the end of a vector. -/
noncomputable def evaluateShort (nn : NeuralNetwork) (a : Atom) (derivatives : Bool) :
    Option (NeuralNetwork × Atom) :=
  if (nn.layers 0).numNeurons < a.G.length + 1 then none
  else if derivatives ∧ (a.dEdG = [] ∨ a.dEdG.length < (nn.layers 0).numNeurons) then none
  else if 1 < (nn.layers (nn.numLayers - 1)).numNeurons then none
  else
    let nn := loop a.G.length (fun i nn => nn.setInputAt i (bufOf a.G i)) nn
    let nn := (nn.setInputAt a.G.length a.charge).propagate
    some (nn, { a with
      dEdG := if derivatives then listOf a.dEdG.length (nn.calculateDEdG (bufOf a.dEdG)) else a.dEdG
      energy := nn.getOutput (fun _ => a.energy) 0 })

/-- Mode.cpp:1693-1717 `calculateAtomicNeuralNetworks` with id "short". -/
noncomputable def calculateShortNetworks (els : List ElementData) (atoms : List Atom)
    (derivatives : Bool) : Option (List ElementData × List Atom) :=
  atoms.foldlM (fun s a => do
    let e ← s.1[a.element]?
    let r ← evaluateShort e.net a derivatives
    some (s.1.set a.element { e with net := r.1 }, s.2 ++ [r.2])) (els, [])

/-- Mode.cpp:1830-1847 `calculateCharge`. -/
noncomputable def Structure.calculateCharge (s : Structure) : Structure :=
  { s with charge := s.atoms.foldl (fun q a => q + a.charge) 0 }

/-! ### Forces -/

/-- Atom.cpp:414-422: the part of the atom itself. -/
noncomputable def Atom.ownDChidr (a : Atom) (atomIndexOfR : ℕ) : Option Vec3 :=
  if atomIndexOfR = a.index then
    (List.range a.numSymmetryFunctions).foldlM (fun d k => do
      let x ← a.dChidG[k]?
      let g ← a.dGdr[k]?
      some (d + x • g)) 0
  else some 0

/-- Atom.cpp:430-436: the part of one neighbour. -/
noncomputable def Atom.addDChidr (a : Atom) (tableFull : List (List ℕ)) (d : Vec3) (n : Neighbor) :
    Option Vec3 := do
  let table ← tableFull[n.element]?
  (List.range n.dGdr.length).foldlM (fun d k => do
    let t ← table[k]?
    let x ← a.dChidG[t]?
    let g ← n.dGdr[k]?
    some (d + x • g)) d

/-- Atom.cpp:403-444 `calculateDChidr`. -/
noncomputable def Atom.calculateDChidr (a : Atom) (atomIndexOfR : ℕ) (maxCutoffRadius : ℝ)
    (tableFull : List (List ℕ)) : Option Vec3 := do
  let own ← a.ownDChidr atomIndexOfR
  let num := a.getStoredMinNumNeighbors maxCutoffRadius
  if a.neighbors.length < num then none
  else (a.neighbors.take num).foldlM (fun d n =>
    if n.tag = (atomIndexOfR : ℤ) then a.addDChidr tableFull d n else some d) own

/-- Mode.cpp:1940-1946: `dChidr` of atom `j` with respect to the position of an atom. -/
noncomputable def Mode.dChidrOf (M : Mode) (s : Structure) (j index : ℕ) : Option Vec3 := do
  let aj ← s.atoms[j]?
  let e ← M.elements[aj.element]?
  aj.calculateDChidr index M.maxCutoffRadius e.symmetryFunctionTable

/-- Mode.cpp:1930-1958: forces `f` and `fElec` on one atom. -/
noncomputable def Mode.chargeForces (M : Mode) (s : Structure) (lambdaTotal lambdaElec : ℕ → ℝ)
    (ai : Atom) : Option (Vec3 × Vec3) :=
  (List.range s.numAtoms).foldlM (fun f j => do
    let dChidr ← M.dChidrOf s j ai.index
    let dAdrQ ← ai.dAdrQ[j]?
    some (f.1 - lambdaTotal j • (dAdrQ + dChidr), f.2 - lambdaElec j • (dAdrQ + dChidr)))
    (ai.f - ai.pEelecpr, -ai.pEelecpr)

/-- Mode.cpp:1916-1960: the part of `calculateForces` for the fourth generation. -/
noncomputable def Mode.addChargeForces (M : Mode) (ls : LinSolve) (s : Structure) :
    Option Structure := do
  let lT ← s.calculateForceLambdaTotal ls
  let lE ← s.calculateForceLambdaElec ls
  let atoms ← s.atoms.zipIdx.mapM fun p =>
    if p.2 < s.numAtoms then (M.chargeForces s lT lE p.1).map fun f =>
      { p.1 with
        f := f.1
        fElec := f.2 }
    else some p.1
  some { s with atoms := atoms }

/-- Mode.cpp:1849-1964 `calculateForces` for the fourth generation. -/
noncomputable def Mode.calculateForces4G (M : Mode) (ls : LinSolve) (s : Structure) :
    Option Structure := do
  let s ← M.calculateForces s
  M.addChargeForces ls s

/-! ### Evaluation -/

/-- The mode after the parameters of the Ewald summation were determined. -/
def Mode4G.withEwald (M : Mode4G) (p : EwaldParameters) : Mode4G :=
  { M with qeq := { M.qeq with ewald := p } }

/-- The mode after an evaluation. -/
def Mode4G.after (M : Mode4G) (nets : List NeuralNetwork) (els : List ElementData) (buf : ErfcBuf) :
    Mode4G :=
  { M with
    mode := { M.mode with elements := els }
    elecNets := nets
    erfcBuf := buf }

/-- The structure with other atoms. -/
def Structure.withAtoms (s : Structure) (atoms : List Atom) : Structure := { s with atoms := atoms }

/-- Mode.cpp:1967-2016 `evaluateNNP` for the fourth generation. -/
noncomputable def Mode4G.evaluateNNP (srt : List Neighbor → List Neighbor) (ls : LinSolve)
    (M : Mode4G) (s : Structure) (useForces useDEdG : Bool) : Option (Mode4G × Structure) := do
  let r ← s.calculateMaxCutoffRadiusOverall M.ewaldSetup M.qeq.ewald M.qeq.fs.outer
    M.mode.maxCutoffRadius
  let M := M.withEwald r.1
  let s ← r.2.calculateNeighborListCutoffs srt M.mode.maxCutoffRadius M.cutoffs
  let s ← M.calculateSymmetryFunctions s useForces
  let s := if useDEdG && !useForces then s.withAtoms (s.atoms.map Atom.resize4G) else s
  let r ← calculateElecNetworks M.negativity M.elecNets s.atoms (useForces || useDEdG)
  let q ← chargeEquilibration ls M.qeq (s.withAtoms r.2) M.erfcBuf useForces
  let t ← calculateShortNetworks M.mode.elements q.1.atoms (useForces || useDEdG)
  let M := M.after r.1 t.1 q.2
  let s := (q.1.withAtoms t.2).calculateEnergy.calculateCharge
  let s ← if useForces then M.mode.calculateForces4G ls s else some s
  some (M, s)

/-! ### Charge response -/

/-- Structure.cpp:1063-1069: the right-hand side of the equations for one atom and component. `none`:
out of range. -/
noncomputable def Mode.dQdrRhs (M : Mode) (s : Structure) (a : Atom) (index : ℕ) (c : Fin 3) :
    Option (List ℝ) :=
  (List.range s.numAtoms).mapM fun j => do
    let d ← M.dChidrOf s j index
    let q ← a.dAdrQ[j]?
    some (-(d c) - q c)

/-- Structure.cpp:1039-1073 `calculateDQdr`, one pass of the loop: `dQdr` of one atom. Components which
were not calculated before are 0 (`resize`). -/
noncomputable def Mode.calculateDQdrOf (M : Mode) (ls : LinSolve) (s : Structure) (i : ℕ)
    (c : Fin 3) : Option Structure := do
  let a ← s.atoms[i]?
  if a.dAdrQ = [] then none
  else do
    let b ← M.dQdrRhs s a i c
    let Q := ls.run (s.numAtoms + 1) s.A (bufOf b)
    let dQdr := (List.range s.numAtoms).map fun j =>
      Function.update (a.dQdr.getD j 0) c (Q j)
    some (s.withAtoms (s.atoms.set i { a with dQdr := dQdr }))

/-- Structure.cpp:1039-1073 `calculateDQdr`. `none`: an exception, or a component index beyond 2. -/
noncomputable def Mode.calculateDQdr (M : Mode) (ls : LinSolve) (s : Structure)
    (atomIndices compIndices : List ℕ) : Option Structure :=
  if atomIndices.length ≠ compIndices.length then none
  else (atomIndices.zip compIndices).foldlM (fun s p =>
    if h : p.2 < 3 then M.calculateDQdrOf ls s p.1 ⟨p.2, h⟩ else none) s

end N2P2
