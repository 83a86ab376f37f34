import Mathlib.Data.Real.Basic
import Mathlib.Data.Fin.VecNotation
import Verif.Model.Utility
import Verif.Model.Container

/-! Records `Atom::Neighbor`, `Atom` and `Structure` (Atom.h, Structure.h). -/

namespace N2P2

/-- Vec3D.h: three Cartesian components. Addition, subtraction and scaling of `Vec3D`
(Vec3D.h:205-364) are component-wise, as on functions. -/
abbrev Vec3 := Fin 3 → ℝ

/-- Vec3D.h `operator/=`: multiplication by `1.0 / a`. -/
noncomputable def Vec3.div (v : Vec3) (a : ℝ) : Vec3 := (1 / a) • v

/-- Atom.h `Neighbor`. -/
structure Neighbor where
  index : Nat
  tag : Int
  element : Nat
  d : ℝ
  dr : Vec3
  cache : List ℝ
  dGdr : List Vec3

/-- Atom.h `Atom` (build without `N2P2_FULL_SFD_MEMORY`). -/
structure Atom where
  hasNeighborList : Bool
  neighborListIsSorted : Bool
  hasSymmetryFunctions : Bool
  hasSymmetryFunctionDerivatives : Bool
  useChargeNeuron : Bool
  index : Nat
  indexStructure : Nat
  tag : Int
  element : Nat
  numNeighbors : Nat
  numNeighborsUnique : Nat
  numSymmetryFunctions : Nat
  energy : ℝ
  dEelecdQ : ℝ
  chi : ℝ
  charge : ℝ
  chargeRef : ℝ
  r : Vec3
  f : Vec3
  fElec : Vec3
  fRef : Vec3
  pEelecpr : Vec3
  neighborsUnique : List Nat
  numNeighborsPerElement : List Nat
  numSymmetryFunctionDerivatives : List Nat
  cacheSizePerElement : List Nat
  G : List ℝ
  dEdG : List ℝ
  dQdG : List ℝ
  dChidG : List ℝ
  dGdr : List Vec3
  dQdr : List Vec3
  dAdrQ : List Vec3
  neighbors : List Neighbor
  neighborCutoffs : CMap ℝ Nat

/-- Structure.h `SampleType`. -/
inductive SampleType
  | unknown | training | validation | test
  deriving DecidableEq

/-- Structure.h `Structure`. Left out: `elementMap`, which the modelled functions do not use. The
matrix `A` is given by its entries; its size is `numAtoms + 1` when `hasAMatrix` is set. -/
structure Structure where
  isPeriodic : Bool
  isTriclinic : Bool
  hasNeighborList : Bool
  neighborListIsSorted : Bool
  hasSymmetryFunctions : Bool
  hasSymmetryFunctionDerivatives : Bool
  index : Nat
  numAtoms : Nat
  numElements : Nat
  numElementsPresent : Nat
  pbc : Fin 3 → Int
  energy : ℝ
  energyRef : ℝ
  energyShort : ℝ
  energyElec : ℝ
  hasCharges : Bool
  charge : ℝ
  chargeRef : ℝ
  volume : ℝ
  maxCutoffRadiusOverall : ℝ
  lambda : ℝ
  hasAMatrix : Bool
  A : ℕ → ℕ → ℝ
  sampleType : SampleType
  comment : Str
  box : Fin 3 → Vec3
  invbox : Fin 3 → Vec3
  numAtomsPerElement : List Nat
  atoms : List Atom

/-- Atom.cpp:27-46, constructor. -/
def Atom.init : Atom :=
  { hasNeighborList := false, neighborListIsSorted := false, hasSymmetryFunctions := false,
    hasSymmetryFunctionDerivatives := false, useChargeNeuron := false, index := 0,
    indexStructure := 0, tag := 0, element := 0, numNeighbors := 0, numNeighborsUnique := 0,
    numSymmetryFunctions := 0, energy := 0, dEelecdQ := 0, chi := 0, charge := 0, chargeRef := 0,
    r := 0, f := 0, fElec := 0, fRef := 0, pEelecpr := 0, neighborsUnique := [],
    numNeighborsPerElement := [], numSymmetryFunctionDerivatives := [], cacheSizePerElement := [],
    G := [], dEdG := [], dQdG := [], dChidG := [], dGdr := [], dQdr := [], dAdrQ := [],
    neighbors := [], neighborCutoffs := [] }

/-- Structure.cpp:35-69, constructor (`lambda` is not initialised by the code; 0 here). -/
def Structure.init : Structure :=
  { isPeriodic := false, isTriclinic := false, hasNeighborList := false,
    neighborListIsSorted := false, hasSymmetryFunctions := false,
    hasSymmetryFunctionDerivatives := false, index := 0, numAtoms := 0, numElements := 0,
    numElementsPresent := 0, pbc := 0, energy := 0, energyRef := 0, energyShort := 0,
    energyElec := 0, hasCharges := false, charge := 0, chargeRef := 0, volume := 0,
    maxCutoffRadiusOverall := 0, lambda := 0, hasAMatrix := false, A := fun _ _ => 0,
    sampleType := .unknown, comment := [], box := 0, invbox := 0,
    numAtomsPerElement := [], atoms := [] }

end N2P2
