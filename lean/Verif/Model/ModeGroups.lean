import Verif.Model.Mode
import Verif.Model.SymGrp

/-! Evaluation of a neural network potential of the second generation in the default build: symmetry
functions are calculated in groups (Mode.cpp, Element.cpp). `gs` are the members
`symmetryFunctionGroups` of the elements, in the order of the elements. -/

namespace N2P2

/-- Mode.cpp:842-892 `setupSymmetryFunctionGroups`. -/
def Mode.GroupsSetUp (M : Mode) (gs : List (List SymGrp)) : Prop :=
  List.Forall₂ (fun e g => SetupGroups e.symmetryFunctions g) M.elements gs

/-- Mode.cpp:1573-1619: one atom. -/
noncomputable def Mode.calculateAtomGroups (M : Mode) (gs : List (List SymGrp)) (derivatives : Bool)
    (a : Atom) : Option Atom :=
  if a.hasSymmetryFunctionDerivatives then some a
  else if a.hasSymmetryFunctions ∧ ¬ derivatives then some a
  else do
    let e ← M.elements[a.element]?
    let g ← gs[a.element]?
    let a ← (a.takeSizes e derivatives).allocate derivatives M.maxCutoffRadius
    let a ← N2P2.calculateSymmetryFunctionGroups g a derivatives
    some { a with
      hasSymmetryFunctions := true
      hasSymmetryFunctionDerivatives := a.hasSymmetryFunctionDerivatives || derivatives }

/-- Mode.cpp:1561-1640 `calculateSymmetryFunctionGroups`. -/
noncomputable def Mode.calculateSymmetryFunctionGroups (M : Mode) (gs : List (List SymGrp))
    (s : Structure) (derivatives : Bool) : Option Structure :=
  if s.hasSymmetryFunctionDerivatives then some s
  else if s.hasSymmetryFunctions ∧ ¬ derivatives then some s
  else do
    let atoms ← s.atoms.mapM (M.calculateAtomGroups gs derivatives)
    some { s with
      atoms := atoms
      hasSymmetryFunctions := true
      hasSymmetryFunctionDerivatives := s.hasSymmetryFunctionDerivatives || derivatives }

/-- Mode.cpp:2002: `a.dEdG.resize(a.numSymmetryFunctions, 0.0)`. -/
noncomputable def Atom.resizeDEdG (a : Atom) : Atom :=
  { a with dEdG := a.dEdG.take a.numSymmetryFunctions ++
      List.replicate (a.numSymmetryFunctions - a.dEdG.length) 0 }

/-- Mode.cpp:1967-2016 `evaluateNNP` for the second generation, default build. -/
noncomputable def Mode.evaluateNNPGroups (srt : List Neighbor → List Neighbor) (M : Mode)
    (gs : List (List SymGrp)) (s : Structure) (useForces useDEdG : Bool) :
    Option (Mode × Structure) := do
  let s ← s.calculateNeighborList srt M.maxCutoffRadius false
  let s ← M.calculateSymmetryFunctionGroups gs s useForces
  let atoms := if (useForces || useDEdG) && !useForces then s.atoms.map Atom.resizeDEdG else s.atoms
  let r ← calculateAtomicNeuralNetworks M.elements atoms (useForces || useDEdG)
  let M := { M with elements := r.1 }
  let s := ({ s with atoms := r.2 } : Structure).calculateEnergy
  let s ← if useForces then M.calculateForces s else some s
  some (M, s)

end N2P2
