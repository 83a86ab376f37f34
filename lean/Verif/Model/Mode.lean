import Verif.Model.SymFncSetup
import Verif.Model.NeuralNetwork
import Verif.Model.Geometry

/-! Setup and evaluation of a neural network potential of the second generation (Mode.cpp,
Element.cpp, Atom.cpp), build with caches and reduced derivative memory. Symmetry functions are
calculated one by one (`calculateSymmetryFunctions`). Log output and statistics are left out. -/

namespace N2P2

/-- Element.h: the members used in the evaluation. `net` is `neuralNetworks.at("short")`. -/
structure ElementData where
  symmetryFunctions : List SymFnc
  symmetryFunctionTable : List (List ℕ)
  cacheSizes : List ℕ
  net : NeuralNetwork

/-- Mode.h: the members used in the evaluation. -/
structure Mode where
  elements : List ElementData
  maxCutoffRadius : ℝ

/-! ### Setup -/

/-- Mode.cpp:692-840 and Element.cpp:344-382: what the functions of an element are scaled with. -/
inductive ScalingSetup
  /-- `setScalingNone`. -/
  | off
  /-- `setScaling` with the statistics lines of the element. -/
  | lines (t : ScalingType) (ls : List StatisticsLine) (Smin Smax : ℝ)

/-- The statistics line for function `i` (Element.cpp:348-350; the number of the element is written
without adding one). -/
def ScalingSetup.line (i : ℕ) (S : SymFnc) : ScalingSetup → Option StatisticsLine
  | .off => some ⟨S.sc.ec, i + 1, 0, 0, 0, some 0⟩
  | .lines _ ls _ _ => ls[i]?

/-- Type and range passed to `setScalingType`. -/
noncomputable def ScalingSetup.args : ScalingSetup → ScalingType × ℝ × ℝ
  | .off => (.none, 0, 0)
  | .lines t _ Smin Smax => (t, Smin, Smax)

/-- Element.cpp:344-382 `setScalingNone`, `setScaling`. -/
noncomputable def setScaling (sc : ScalingSetup) (Ss : List SymFnc) : Option (List SymFnc) :=
  Ss.zipIdx.mapM fun p => do
    let l ← sc.line p.2 p.1
    let s ← setScalingType p.1.sc sc.args.1 l sc.args.2.1 sc.args.2.2
    some { p.1 with sc := s }

/-- Possible results for one element of the setup of symmetry functions: Mode.cpp:615-690
`setupSymmetryFunctions`, 894-981 `setupSymmetryFunctionMemory`, 984-1100
`setupSymmetryFunctionCache` and one of the scaling functions. -/
def SetupElement (E : SFEnv) (lines : List (List Str)) (conv : Option ℝ) (t : CutoffType) (α : ℝ)
    (sc : ScalingSetup) (e : ElementData) : Prop :=
  ∃ Ts Us, SetupSymmetryFunctions E lines conv t α Ts ∧
    e.symmetryFunctionTable = (setupSymmetryFunctionMemory E.numElements Ts).1 ∧
    setupSymmetryFunctionCache E (setupSymmetryFunctionMemory E.numElements Ts).2 =
      some (Us, e.cacheSizes) ∧
    setScaling sc Us = some e.symmetryFunctions

/-- Element.cpp:414-425 `getMaxCutoffRadius`. -/
noncomputable def ElementData.getMaxCutoffRadius (e : ElementData) : ℝ :=
  e.symmetryFunctions.foldl (fun m S => max S.rc m) 0

/-- Mode.cpp:651-657: the largest cutoff radius. (It is computed before caches and scaling are set
up, which do not change the radii.) -/
noncomputable def maxCutoffRadiusOf (els : List ElementData) : ℝ :=
  els.foldl (fun m e => max e.getMaxCutoffRadius m) 0

/-! ### Symmetry functions of all atoms -/

/-- Atom.cpp:219-237: one neighbour. -/
noncomputable def Atom.allocateNeighbor (a : Atom) (all : Bool) (n : Neighbor) :
    Option Neighbor := do
  let c ← a.cacheSizePerElement[n.element]?
  let m ← if all then a.numSymmetryFunctionDerivatives[n.element]? else some 0
  some { n with
    cache := List.replicate c (-DBL_MAX)
    dGdr := List.replicate m 0 }

/-- Atom.cpp:168-240 `allocate`. `none`: no symmetry functions, no derivative table, or `at` out of
range. -/
noncomputable def Atom.allocate (a : Atom) (all : Bool) (maxCutoffRadius : ℝ) : Option Atom :=
  let num := a.getStoredMinNumNeighbors maxCutoffRadius
  if a.numSymmetryFunctions = 0 then none
  else if a.neighbors.length < num then none
  else if all ∧ a.numSymmetryFunctionDerivatives.length = 0 then none
  else do
    let near ← (a.neighbors.take num).mapM (a.allocateNeighbor all)
    let resized (n : ℕ) : List ℝ := if all then List.replicate n 0 else []
    some { a with
      G := List.replicate a.numSymmetryFunctions 0
      dEdG := resized (if a.useChargeNeuron then a.numSymmetryFunctions + 1
        else a.numSymmetryFunctions)
      dQdG := resized a.numSymmetryFunctions
      dChidG := resized a.numSymmetryFunctions
      dGdr := if all then List.replicate a.numSymmetryFunctions 0 else []
      neighbors := near ++ a.neighbors.drop num
      hasSymmetryFunctions := false
      hasSymmetryFunctionDerivatives := false }

/-- Mode.cpp:1503-1512: the sizes taken over from the element. -/
def Atom.takeSizes (a : Atom) (e : ElementData) (derivatives : Bool) : Atom :=
  { a with
    numSymmetryFunctions := e.symmetryFunctions.length
    numSymmetryFunctionDerivatives := if derivatives then e.symmetryFunctionTable.map List.length
      else a.numSymmetryFunctionDerivatives
    cacheSizePerElement := e.cacheSizes }

/-- Mode.cpp:1492-1542: one atom. -/
noncomputable def Mode.calculateAtom (M : Mode) (derivatives : Bool) (a : Atom) : Option Atom :=
  if a.hasSymmetryFunctionDerivatives then some a
  else if a.hasSymmetryFunctions ∧ ¬ derivatives then some a
  else do
    let e ← M.elements[a.element]?
    let a ← (a.takeSizes e derivatives).allocate derivatives M.maxCutoffRadius
    let a ← N2P2.calculateSymmetryFunctions e.symmetryFunctions a derivatives
    some { a with
      hasSymmetryFunctions := true
      hasSymmetryFunctionDerivatives := a.hasSymmetryFunctionDerivatives || derivatives }

/-- Mode.cpp:1480-1559 `calculateSymmetryFunctions`. -/
noncomputable def Mode.calculateSymmetryFunctions (M : Mode) (s : Structure) (derivatives : Bool) :
    Option Structure :=
  if s.hasSymmetryFunctionDerivatives then some s
  else if s.hasSymmetryFunctions ∧ ¬ derivatives then some s
  else do
    let atoms ← s.atoms.mapM (M.calculateAtom derivatives)
    some { s with
      atoms := atoms
      hasSymmetryFunctions := true
      hasSymmetryFunctionDerivatives := s.hasSymmetryFunctionDerivatives || derivatives }

/-! ### Neural networks -/

/-- The array starting at the first entry of a vector. -/
def bufOf (l : List ℝ) : Buf := fun i => l.getD i 0

/-- The first `n` entries of an array. -/
def listOf (n : ℕ) (b : Buf) : List ℝ := (List.range n).map b

/-- Mode.cpp:1653-1663: one atom. `none`: the network reads or writes beyond the end of a vector. -/
noncomputable def evaluateAtom (nn : NeuralNetwork) (a : Atom) (derivatives : Bool) :
    Option (NeuralNetwork × Atom) :=
  if a.G = [] ∨ a.G.length < (nn.layers 0).numNeurons then none
  else if derivatives ∧ (a.dEdG = [] ∨ a.dEdG.length < (nn.layers 0).numNeurons) then none
  else if 1 < (nn.layers (nn.numLayers - 1)).numNeurons then none
  else
    let nn := (nn.setInput (bufOf a.G)).propagate
    some (nn, { a with
      dEdG := if derivatives then listOf a.dEdG.length (nn.calculateDEdG (bufOf a.dEdG)) else a.dEdG
      energy := nn.getOutput (fun _ => a.energy) 0 })

/-- Mode.cpp:1642-1665 `calculateAtomicNeuralNetworks` for the second generation: the networks keep
the state of the last evaluation. -/
noncomputable def calculateAtomicNeuralNetworks (els : List ElementData) (atoms : List Atom)
    (derivatives : Bool) : Option (List ElementData × List Atom) :=
  atoms.foldlM (fun s a => do
    let e ← s.1[a.element]?
    let r ← evaluateAtom e.net a derivatives
    some (s.1.set a.element { e with net := r.1 }, s.2 ++ [r.2])) (els, [])

/-- Mode.cpp:1803-1813 `calculateEnergy`. -/
noncomputable def Structure.calculateEnergy (s : Structure) : Structure :=
  let short := s.atoms.foldl (fun e a => e + a.energy) 0
  { s with
    energyShort := short
    energy := short + s.energyElec }

/-! ### Forces -/

/-- Atom.cpp:371-379 `calculateSelfForceShort`. -/
noncomputable def Atom.calculateSelfForceShort (a : Atom) : Option Vec3 :=
  (List.range a.numSymmetryFunctions).foldlM (fun f i => do
    let e ← a.dEdG[i]?
    let g ← a.dGdr[i]?
    some (f - e • g)) 0

/-- Atom.cpp:381-401 `calculatePairForceShort`. -/
noncomputable def Atom.calculatePairForceShort (a : Atom) (n : Neighbor)
    (tableFull : List (List ℕ)) : Option Vec3 := do
  let table ← tableFull[n.element]?
  (List.range n.dGdr.length).foldlM (fun f i => do
    let t ← table[i]?
    let e ← a.dEdG[t]?
    let g ← n.dGdr[i]?
    some (f - e • g)) 0

/-- Mode.cpp:1889-1914: contribution of atom `aj` to the force on atom `i`. -/
noncomputable def Mode.addPairForces (M : Mode) (i : ℕ) (f : Vec3) (aj : Atom) : Option Vec3 := do
  let e ← M.elements[aj.element]?
  let num := aj.getStoredMinNumNeighbors M.maxCutoffRadius
  if aj.neighbors.length < num then none
  else (aj.neighbors.take num).foldlM (fun f n =>
    if n.index = i then (aj.calculatePairForceShort n e.symmetryFunctionTable).map (f + ·)
    else some f) f

/-- Mode.cpp:1863-1915: force on one atom. `begin() + 1` needs at least one entry. -/
noncomputable def Mode.forceOn (M : Mode) (atoms : List Atom) (ai : Atom) : Option Vec3 := do
  let f ← ai.calculateSelfForceShort
  match ai.neighborsUnique with
  | [] => none
  | _ :: rest => rest.foldlM (fun f j => do
      let aj ← atoms[j]?
      M.addPairForces ai.index f aj) (0 + f)

/-- Mode.cpp:1849-1916 `calculateForces` for the second generation. -/
noncomputable def Mode.calculateForces (M : Mode) (s : Structure) : Option Structure := do
  let atoms ← s.atoms.mapM fun ai => (M.forceOn s.atoms ai).map fun f => { ai with f := f }
  some { s with atoms := atoms }

/-- Mode.cpp:1967-2016 `evaluateNNP` for the second generation, build with `NNP_NO_SF_GROUPS`.
In this build the vectors `dEdG` already have the size of the `resize` in lines 1991-2004. -/
noncomputable def Mode.evaluateNNP (srt : List Neighbor → List Neighbor) (M : Mode) (s : Structure)
    (useForces useDEdG : Bool) : Option (Mode × Structure) := do
  let s ← s.calculateNeighborList srt M.maxCutoffRadius false
  let s ← M.calculateSymmetryFunctions s true
  let r ← calculateAtomicNeuralNetworks M.elements s.atoms (useForces || useDEdG)
  let M := { M with elements := r.1 }
  let s := ({ s with atoms := r.2 } : Structure).calculateEnergy
  let s ← if useForces then M.calculateForces s else some s
  some (M, s)

end N2P2
