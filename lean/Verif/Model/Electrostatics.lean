import Mathlib.LinearAlgebra.Matrix.Determinant.Basic
import Verif.Model.Kspace
import Verif.Model.Cutoff
import Verif.Model.Loop

/-! Charge equilibration and electrostatic energy (Structure.cpp, Mode.cpp). The loops run in
sequence here, in parallel with OpenMP in the code. `atoms.at(i)` throws if there are fewer than
`numAtoms` atoms; this is checked once at the beginning of each function here. Vectors and matrices
of parameters are functions of the element index; `chargeEquilibration` checks that the indices of
all atoms are valid (Eigen does not). -/

namespace N2P2

/-- Atom `i`. -/
def Structure.atom (s : Structure) (i : ℕ) : Atom := s.atoms.getD i Atom.init

/-- `for (size_t i = a; i < b; ++i) s = body(i, s);`. -/
def loopFrom {S : Type*} (a b : ℕ) (body : ℕ → S → S) (s : S) : S :=
  loop (b - a) (fun k => body (a + k)) s

/-- `A(i, j) = v`. -/
def mset {α : Type*} (A : ℕ → ℕ → α) (i j : ℕ) (v : α) : ℕ → ℕ → α :=
  fun a b => if a = i ∧ b = j then v else A a b

/-- `A.colPivHouseholderQr().solve(b)` of Eigen: some function of matrix and right hand side. -/
abbrev LinSolve := (n : ℕ) → Matrix (Fin n) (Fin n) ℝ → (Fin n → ℝ) → Fin n → ℝ

/-- Solution of the first `n` equations. -/
def LinSolve.run (ls : LinSolve) (n : ℕ) (A : ℕ → ℕ → ℝ) (b : ℕ → ℝ) : ℕ → ℝ := fun i =>
  if h : i < n then ls n (Matrix.of fun i j : Fin n => A i j) (fun i => b i) ⟨i, h⟩ else 0

/-- Arguments of the electrostatic functions of `Structure`: hardness, widths and screening. -/
structure ElecParams where
  hardness : ℕ → ℝ
  gammaSqrt2 : ℕ → ℕ → ℝ
  sigmaSqrtPi : ℕ → ℝ
  fs : ScreeningFunction
  fourPiEps : ℝ

/-! ### Matrix -/

/-- Structure.cpp:683-704, matrix without periodic boundary conditions. -/
noncomputable def openMatrix (P : ElecParams) (s : Structure) (A : ℕ → ℕ → ℝ) : ℕ → ℕ → ℝ :=
  loop s.numAtoms (fun i A =>
    let ai := s.atom i
    let ei := ai.element
    let A := mset A i i (P.hardness ei + 1 / (P.sigmaSqrtPi ei * P.fourPiEps))
    loopFrom (i + 1) s.numAtoms (fun j A =>
      let aj := s.atom j
      let ej := aj.element
      let rij := (ai.r - aj.r).norm
      let A := mset A i j (erf (rij / P.gammaSqrt2 ei ej) / (rij * P.fourPiEps))
      mset A j i (A i j)) A) A

/-- Structure.cpp:648-666, real part of row `i`: neighbour `k`. `none`: the neighbour does not exist,
its tag is not the index of an atom, or the buffer is too small. -/
noncomputable def realStep (P : ElecParams) (sqrt2eta : ℝ) (numAtoms i : ℕ) (ai : Atom)
    (st : (ℕ → ℕ → ℝ) × ErfcBuf) (k : ℕ) : Option ((ℕ → ℕ → ℝ) × ErfcBuf) := do
  let n ← ai.neighbors[k]?
  if n.tag < 0 ∨ (numAtoms : ℤ) ≤ n.tag then none
  else
    let j := n.tag.toNat
    if j < i then some st
    else do
      let e ← st.2.getf i k 0 (n.d / sqrt2eta)
      let g ← e.2.getf i k 1 (n.d / P.gammaSqrt2 ai.element n.element)
      some (mset st.1 i j (st.1 i j + (e.1 - g.1) / (n.d * P.fourPiEps)), g.2)

/-- Structure.cpp:668-684, reciprocal part of row `i`. -/
noncomputable def recipRow (P : ElecParams) (kv : List Kvector) (s : Structure) (i : ℕ)
    (A : ℕ → ℕ → ℝ) : ℕ → ℕ → ℝ :=
  loopFrom i s.numAtoms (fun j A =>
    let A := kv.foldl (fun A gv =>
      let dr := (s.atom i).r - (s.atom j).r
      mset A i j (A i j + 2 * gv.coeff * Real.cos (gv.k.dot dr) / P.fourPiEps)) A
    mset A j i (A i j)) A

/-- Structure.cpp:636-686, row `i` with periodic boundary conditions. -/
noncomputable def periodicRow (P : ElecParams) (p : EwaldParameters) (kv : List Kvector)
    (s : Structure) (st : (ℕ → ℕ → ℝ) × ErfcBuf) (i : ℕ) : Option ((ℕ → ℕ → ℝ) × ErfcBuf) := do
  let sqrt2eta := √2 * p.eta
  let ai := s.atom i
  let ei := ai.element
  let A := mset st.1 i i (st.1 i i + (P.hardness ei
    + (1 / P.sigmaSqrtPi ei - 2 / (sqrt2eta * √Real.pi)) / P.fourPiEps))
  let st ← (List.range (ai.getStoredMinNumNeighbors p.rCut)).foldlM
    (realStep P sqrt2eta s.numAtoms i ai) (A, st.2)
  some (recipRow P kv s i st.1, st.2)

/-- Structure.cpp:613-687, matrix with periodic boundary conditions. `none`: the neighbour list is
not sorted (exception), the setup of the grid does not end, or one of the cases of `realStep`. -/
noncomputable def periodicMatrix (P : ElecParams) (p : EwaldParameters) (s : Structure)
    (A : ℕ → ℕ → ℝ) (buf : ErfcBuf) : Option ((ℕ → ℕ → ℝ) × ErfcBuf) :=
  if ¬ s.neighborListIsSorted then none
  else do
    let grid ← KspaceGrid.init.setup s.box p
    (List.range s.numAtoms).foldlM (periodicRow P p grid.kvectors s) (A, buf)

/-- Structure.cpp:711-713, last row and column. -/
def borderMatrix (n : ℕ) (A : ℕ → ℕ → ℝ) : ℕ → ℕ → ℝ :=
  let A : ℕ → ℕ → ℝ := fun i j => if j = n then 1 else A i j
  let A : ℕ → ℕ → ℝ := fun i j => if i = n then 1 else A i j
  mset A n n 0

/-! ### Energy -/

open Classical in
/-- Structure.cpp:745-841 `calculateScreeningEnergy`, after the charges have been stored. `none`: a
neighbour does not exist or its tag is not the index of an atom. -/
noncomputable def Structure.calculateScreeningEnergy (P : ElecParams) (s : Structure) : Option ℝ :=
  if s.isPeriodic then
    (List.range s.numAtoms).foldlM (fun energyScreen i => do
      let ai := s.atom i
      let ei := ai.element
      let Qi := ai.charge
      let energyScreen := energyScreen + -Qi * Qi / (2 * P.sigmaSqrtPi ei * P.fourPiEps)
      (List.range (ai.getStoredMinNumNeighbors P.fs.outer)).foldlM (fun energyScreen k => do
        let n ← ai.neighbors[k]?
        if n.tag < 0 ∨ (s.numAtoms : ℤ) ≤ n.tag then none
        else
          let j := n.tag.toNat
          if j < i then some energyScreen
          else
            let Qj := (s.atom j).charge
            some (energyScreen + Qi * Qj * erf (n.d / P.gammaSqrt2 ei n.element)
              * (P.fs.f n.d - 1) / (n.d * P.fourPiEps))) energyScreen) 0
  else
    some (loop s.numAtoms (fun i energyScreen =>
      let ai := s.atom i
      let ei := ai.element
      let Qi := ai.charge
      let energyScreen := energyScreen + -Qi * Qi / (2 * P.sigmaSqrtPi ei * P.fourPiEps)
      loopFrom (i + 1) s.numAtoms (fun j energyScreen =>
        let aj := s.atom j
        let Qj := aj.charge
        let rij := (ai.r - aj.r).norm
        if rij < P.fs.outer then energyScreen + Qi * Qj * s.A i j * (P.fs.f rij - 1)
        else energyScreen) energyScreen) 0)

/-- Structure.cpp:605-709, matrix without the last row and column. -/
noncomputable def electrostaticMatrix (P : ElecParams) (p : EwaldParameters) (s : Structure)
    (buf : ErfcBuf) : Option ((ℕ → ℕ → ℝ) × ErfcBuf) :=
  if s.isPeriodic then periodicMatrix P p s (fun _ _ => 0) buf
  else some (openMatrix P s (fun _ _ => 0), buf)

/-- Structure.cpp:714, 725-735: matrix, charges and multiplier are stored. -/
def Structure.storeCharges (s : Structure) (A : ℕ → ℕ → ℝ) (Q : ℕ → ℝ) : Structure :=
  { s with
    A := A
    hasAMatrix := true
    atoms := s.atoms.mapIdx fun i (a : Atom) => if i < s.numAtoms then { a with charge := Q i } else a
    lambda := Q s.numAtoms
    hasCharges := true }

/-- Structure.cpp:644, 694, 715: right hand side of the equations. -/
def Structure.qeqRhs (s : Structure) : ℕ → ℝ := fun i =>
  if i = s.numAtoms then s.chargeRef else -(s.atom i).chi

/-- Structure.cpp:738-740, energy of the charges without screening. -/
noncomputable def matrixEnergy (P : ElecParams) (s : Structure) (A : ℕ → ℕ → ℝ) (Q : ℕ → ℝ) : ℝ :=
  1 / 2 * ∑ i ∈ Finset.range s.numAtoms, ∑ j ∈ Finset.range s.numAtoms,
    Q i * (A i j - if i = j then P.hardness (s.atom i).element else 0) * Q j

/-- Structure.cpp:588-743 `calculateElectrostaticEnergy`. The return value (relative error of the
solution) is left out; the only caller ignores it. -/
noncomputable def Structure.calculateElectrostaticEnergy (ls : LinSolve) (P : ElecParams)
    (p : EwaldParameters) (s : Structure) (buf : ErfcBuf) : Option (Structure × ErfcBuf) :=
  if s.atoms.length < s.numAtoms then none
  else do
    let st ← electrostaticMatrix P p s (buf.reset s.atoms 2)
    let A := borderMatrix s.numAtoms st.1
    let Q := ls.run (s.numAtoms + 1) A s.qeqRhs
    let s' := s.storeCharges A Q
    let screen ← s'.calculateScreeningEnergy P
    some ({ s' with energyElec := matrixEnergy P s A Q + screen }, st.2)

/-! ### Derivatives -/

/-- The derivative of a matrix entry of atoms `i < j` goes to four places (Structure.cpp:916-929,
947-956; periodic case). -/
noncomputable def addDAdrQ (D : ℕ → ℕ → Vec3) (i j : ℕ) (dAijdri : Vec3) (Qi Qj : ℝ) :
    ℕ → ℕ → Vec3 :=
  let D := mset D i i (D i i + Qj • dAijdri)
  let D := mset D i j (D i j + Qi • dAijdri)
  let D := mset D j i (D j i - Qj • dAijdri)
  mset D j j (D j j - Qi • dAijdri)

/-- Structure.cpp:986-999, the same without periodic boundary conditions: the entries off the
diagonal are overwritten. -/
noncomputable def setDAdrQ (D : ℕ → ℕ → Vec3) (i j : ℕ) (dAijdri : Vec3) (Qi Qj : ℝ) :
    ℕ → ℕ → Vec3 :=
  let D := mset D i i (D i i + Qj • dAijdri)
  let D := mset D i j (Qi • dAijdri)
  let D := mset D j i (-(Qj • dAijdri))
  mset D j j (D j j - Qi • dAijdri)

/-- Structure.cpp:894-930, neighbour `k` of atom `i`. -/
noncomputable def realDerivStep (P : ElecParams) (sqrt2eta : ℝ) (s : Structure) (i : ℕ)
    (st : (ℕ → ℕ → Vec3) × ErfcBuf) (k : ℕ) : Option ((ℕ → ℕ → Vec3) × ErfcBuf) := do
  let ai := s.atom i
  let n ← ai.neighbors[k]?
  if n.tag < 0 ∨ (s.numAtoms : ℤ) ≤ n.tag then none
  else
    let j := n.tag.toNat
    if j ≤ i then some st
    else do
      let aj := s.atom j
      let γ := P.gammaSqrt2 ai.element aj.element
      let e ← st.2.getf i k 0 (n.d / sqrt2eta)
      let g ← e.2.getf i k 1 (n.d / γ)
      let c := 2 / √Real.pi * (-Real.exp (-(n.d / sqrt2eta) ^ 2) / sqrt2eta
        + Real.exp (-(n.d / γ) ^ 2) / γ) - 1 / n.d * (e.1 - g.1)
      let dAijdri := ((c • n.dr.div (n.d ^ 2)) : Vec3).div P.fourPiEps
      some (addDAdrQ st.1 i j dAijdri ai.charge aj.charge, g.2)

/-- Structure.cpp:932-957, reciprocal part for atom `i`. -/
noncomputable def recipDeriv (P : ElecParams) (kv : List Kvector) (s : Structure) (i : ℕ)
    (D : ℕ → ℕ → Vec3) : ℕ → ℕ → Vec3 :=
  loopFrom (i + 1) s.numAtoms (fun j D =>
    let dr := (s.atom i).r - (s.atom j).r
    let dAijdri := Vec3.div (kv.foldl (fun d gv =>
      d - (2 * gv.coeff * Real.sin (gv.k.dot dr)) • gv.k) 0) P.fourPiEps
    addDAdrQ D i j dAijdri (s.atom i).charge (s.atom j).charge) D

/-- Structure.cpp:961-1001, without periodic boundary conditions. -/
noncomputable def openDeriv (P : ElecParams) (s : Structure) (D : ℕ → ℕ → Vec3) : ℕ → ℕ → Vec3 :=
  loop s.numAtoms (fun i D =>
    let ai := s.atom i
    loopFrom (i + 1) s.numAtoms (fun j D =>
      let aj := s.atom j
      let γ := P.gammaSqrt2 ai.element aj.element
      let rij := (ai.r - aj.r).norm
      let c := 2 / (√Real.pi * γ) * Real.exp (-(rij / γ) ^ 2) - erf (rij / γ) / rij
      let dAijdri := ((c • (ai.r - aj.r).div (rij ^ 2)) : Vec3).div P.fourPiEps
      setDAdrQ D i j dAijdri ai.charge aj.charge) D) D

/-- Structure.cpp:868-959, with periodic boundary conditions. -/
noncomputable def periodicDeriv (P : ElecParams) (p : EwaldParameters) (s : Structure)
    (D : ℕ → ℕ → Vec3) (buf : ErfcBuf) : Option ((ℕ → ℕ → Vec3) × ErfcBuf) := do
  let grid ← KspaceGrid.init.setup s.box p
  (List.range s.numAtoms).foldlM (fun st i => do
    let st ← (List.range ((s.atom i).getStoredMinNumNeighbors p.rCut)).foldlM
      (realDerivStep P (√2 * p.eta) s i) st
    some (recipDeriv P grid.kvectors s i st.1, st.2)) (D, buf)

/-- Structure.cpp:865-1001, both cases. -/
noncomputable def matrixDeriv (P : ElecParams) (p : EwaldParameters) (s : Structure)
    (D : ℕ → ℕ → Vec3) (buf : ErfcBuf) : Option ((ℕ → ℕ → Vec3) × ErfcBuf) :=
  if s.isPeriodic then periodicDeriv P p s D buf else some (openDeriv P s D, buf)

/-- Structure.cpp:843-1001 `calculateDAdrQ`. The vectors are resized, which keeps their entries. -/
noncomputable def Structure.calculateDAdrQ (P : ElecParams) (p : EwaldParameters) (s : Structure)
    (buf : ErfcBuf) : Option (Structure × ErfcBuf) :=
  if s.atoms.length < s.numAtoms then none
  else do
    let D : ℕ → ℕ → Vec3 := fun i j => (s.atom i).dAdrQ.getD j 0
    let st ← matrixDeriv P p s D buf
    some ({ s with
      atoms := s.atoms.mapIdx fun i (a : Atom) => if i < s.numAtoms then
        { a with dAdrQ := (List.range (s.numAtoms + 1)).map (st.1 i) } else a }, st.2)

/-- Structure.cpp:1005-1018 `calculateDQdChi`: entry `i` is the derivative of all charges with
respect to the electronegativity of atom `i`. -/
def Structure.calculateDQdChi (ls : LinSolve) (s : Structure) : List (List ℝ) :=
  (List.range s.numAtoms).map fun i =>
    (List.range s.numAtoms).map (ls.run (s.numAtoms + 1) s.A (fun j => if j = i then -1 else 0))

/-- Structure.cpp:1020-1037 `calculateDQdJ`: derivatives with respect to the hardness of an
element. -/
def Structure.calculateDQdJ (ls : LinSolve) (s : Structure) : List (List ℝ) :=
  (List.range s.numElements).map fun i =>
    (List.range s.numAtoms).map (ls.run (s.numAtoms + 1) s.A (fun j =>
      if j < s.numAtoms ∧ i = (s.atom j).element then -(s.atom j).charge else 0))

/-- Derivative of the screened interaction (Structure.cpp:1126-1136, 1157-1167). -/
noncomputable def screenT (P : ElecParams) (γ Qi Qj rij : ℝ) (dr : Vec3) : Vec3 :=
  let erfRij := erf (rij / γ)
  let fsRij := P.fs.f rij
  let c := 2 / (√Real.pi * γ) * Real.exp (-(rij / γ) ^ 2) * (fsRij - 1) + erfRij * P.fs.df rij
    - erfRij * (fsRij - 1) / rij
  Vec3.div (c • Vec3.div ((Qi * Qj) • dr) (rij ^ 2)) P.fourPiEps

/-- Structure.cpp:1138-1139, 1169-1170. -/
noncomputable def screenS (P : ElecParams) (γ rij : ℝ) : ℝ :=
  erf (rij / γ) * (P.fs.f rij - 1) / rij / P.fourPiEps

/-- Structure.cpp:1133-1141, 1164-1172: both atoms of a pair. -/
noncomputable def addScreen (st : (ℕ → Vec3) × (ℕ → ℝ)) (i j : ℕ) (T : Vec3) (S Qi Qj : ℝ) :
    (ℕ → Vec3) × (ℕ → ℝ) :=
  let pE := Function.update st.1 i (st.1 i + T)
  let pE := Function.update pE j (pE j - T)
  let dE := Function.update st.2 i (st.2 i + Qj * S)
  let dE := Function.update dE j (dE j + Qi * S)
  (pE, dE)

open Classical in
/-- Structure.cpp:1113-1142, the neighbours of atom `i` in turn, until one is out of the range of
the screening. `none`: tag out of range. -/
noncomputable def periodicScreen (P : ElecParams) (s : Structure) (i : ℕ) :
    List Neighbor → (ℕ → Vec3) × (ℕ → ℝ) → Option ((ℕ → Vec3) × (ℕ → ℝ))
  | [], st => some st
  | n :: l, st =>
    if n.tag < 0 ∨ (s.numAtoms : ℤ) ≤ n.tag then none
    else
      let j := n.tag.toNat
      if j < i then periodicScreen P s i l st
      else if n.d ≥ P.fs.outer then some st
      else
        let γ := P.gammaSqrt2 (s.atom i).element (s.atom j).element
        let Qi := (s.atom i).charge
        let Qj := (s.atom j).charge
        periodicScreen P s i l
          (addScreen st i j (screenT P γ Qi Qj n.d n.dr) (screenS P γ n.d) Qi Qj)

open Classical in
/-- Structure.cpp:1146-1174, without periodic boundary conditions. -/
noncomputable def openScreen (P : ElecParams) (s : Structure) (i : ℕ)
    (st : (ℕ → Vec3) × (ℕ → ℝ)) : (ℕ → Vec3) × (ℕ → ℝ) :=
  loopFrom (i + 1) s.numAtoms (fun j st =>
    let dr := (s.atom i).r - (s.atom j).r
    let rij := dr.norm
    if rij ≥ P.fs.outer then st
    else
      let γ := P.gammaSqrt2 (s.atom i).element (s.atom j).element
      let Qi := (s.atom i).charge
      let Qj := (s.atom j).charge
      addScreen st i j (screenT P γ Qi Qj rij dr) (screenS P γ rij) Qi Qj) st

/-- Structure.cpp:1091-1111, the part of atom `i` from the matrix. -/
noncomputable def matrixPart (P : ElecParams) (s : Structure) (i : ℕ)
    (st : (ℕ → Vec3) × (ℕ → ℝ)) : (ℕ → Vec3) × (ℕ → ℝ) :=
  loop s.numAtoms (fun j st =>
    let ei := (s.atom i).element
    let Qi := (s.atom i).charge
    let Qj := (s.atom j).charge
    (Function.update st.1 i (st.1 i + (1 / 2 * Qj) • (s.atom i).dAdrQ.getD j 0),
     if i ≠ j then Function.update st.2 i (st.2 i + Qj * s.A i j)
     else if s.isPeriodic then Function.update st.2 i
       (st.2 i + Qi * (s.A i i - P.hardness ei - 1 / (P.sigmaSqrtPi ei * P.fourPiEps)))
     else st.2)) st

/-- Structure.cpp:1076-1178 `calculateElectrostaticEnergyDerivatives`. `none`: too few atoms, a
vector `dAdrQ` is too short, or tag out of range. -/
noncomputable def Structure.calculateElectrostaticEnergyDerivatives (P : ElecParams)
    (s : Structure) : Option Structure :=
  if s.atoms.length < s.numAtoms ∨ ∃ i < s.numAtoms, (s.atom i).dAdrQ.length < s.numAtoms then none
  else do
    let st ← (List.range s.numAtoms).foldlM (fun st i =>
      let st := matrixPart P s i st
      if s.isPeriodic then periodicScreen P s i (s.atom i).neighbors st
      else some (openScreen P s i st)) ((fun _ => 0), (fun _ => 0))
    some { s with
      atoms := s.atoms.mapIdx fun i (a : Atom) =>
        { a with
          pEelecpr := st.1 i
          dEelecdQ := st.2 i } }

/-- Structure.cpp:1180-1192 `calculateForceLambdaTotal`. `none`: `back` of an empty vector. -/
def Structure.calculateForceLambdaTotal (ls : LinSolve) (s : Structure) : Option (ℕ → ℝ) :=
  if s.atoms.length < s.numAtoms ∨ ∃ i < s.numAtoms, (s.atom i).dEdG = [] then none
  else some (ls.run (s.numAtoms + 1) s.A (fun i =>
    -(if i < s.numAtoms then (s.atom i).dEelecdQ + (s.atom i).dEdG.getLastD 0 else 0)))

/-- Structure.cpp:1194-1206 `calculateForceLambdaElec`. -/
def Structure.calculateForceLambdaElec (ls : LinSolve) (s : Structure) : Option (ℕ → ℝ) :=
  if s.atoms.length < s.numAtoms then none
  else some (ls.run (s.numAtoms + 1) s.A (fun i =>
    -(if i < s.numAtoms then (s.atom i).dEelecdQ else 0)))

/-- Structure.cpp:1372-1385 `clearElectrostatics`. -/
def Structure.clearElectrostatics (s : Structure) (clearDQdr : Bool) : Structure :=
  { s with
    A := fun _ _ => 0
    hasAMatrix := false
    atoms := s.atoms.map fun (a : Atom) =>
      { a with
        dAdrQ := []
        dQdr := if clearDQdr then [] else a.dQdr } }

/-! ### Charge equilibration -/

/-- Members of `Mode` and `Element` used in the charge equilibration. -/
structure Qeq where
  hardness : List ℝ
  qsigma : List ℝ
  fs : ScreeningFunction
  ewald : EwaldParameters
  fourPiEps : ℝ

/-- Mode.cpp:1760-1776. -/
noncomputable def Qeq.params (q : Qeq) : ElecParams :=
  { hardness := fun i => q.hardness.getD i 0
    gammaSqrt2 := fun i j =>
      √(2 * (q.qsigma.getD i 0 * q.qsigma.getD i 0 + q.qsigma.getD j 0 * q.qsigma.getD j 0))
    sigmaSqrtPi := fun i => √Real.pi * q.qsigma.getD i 0
    fs := q.fs
    fourPiEps := q.fourPiEps }

/-- Mode.cpp:1754-1801 `chargeEquilibration`. -/
noncomputable def chargeEquilibration (ls : LinSolve) (q : Qeq) (s : Structure) (buf : ErfcBuf)
    (derivativesElec : Bool) : Option (Structure × ErfcBuf) :=
  if ∃ a ∈ s.atoms, q.hardness.length ≤ a.element ∨ q.qsigma.length ≤ a.element then none
  else do
    let r ← s.calculateElectrostaticEnergy ls q.params q.ewald buf
    if derivativesElec then do
      let r ← r.1.calculateDAdrQ q.params q.ewald r.2
      let s ← r.1.calculateElectrostaticEnergyDerivatives q.params
      some (s, r.2)
    else some r

end N2P2
