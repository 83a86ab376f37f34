import Verif.Model.Structure
import Verif.Model.Scaling
import Mathlib.Analysis.SpecialFunctions.Sqrt
import Mathlib.Logic.Function.Basic

/-! Distribution of structures over processes, numeric forces, and reductions (Dataset.cpp). -/

namespace N2P2

/-! ### distributeStructures -/

inductive DistErr
  /-- Dataset.cpp:740-743 -/
  | tooFewTasks
  /-- Dataset.cpp:760-764 -/
  | moreReceiversThanStructures
  deriving DecidableEq

/-- Dataset.cpp:737-786: numbers of structures per process, or the exception thrown.
`N` structures, `P` processes. -/
def structuresPerProc (N P : Nat) (excludeRank0 : Bool) : Except DistErr (Nat → Nat) :=
  if excludeRank0 && P == 1 then .error .tooFewTasks
  else
    let numReceivers := if excludeRank0 then P - 1 else P
    if N < numReceivers then .error .moreReceiversThanStructures
    else
      let quotient := N / numReceivers
      let remainder := N % numReceivers
      .ok fun i =>
        if i < P then
          if i ≠ 0 ∨ excludeRank0 = false then
            if remainder > 0 ∧ i > 0 ∧ i ≤ remainder then quotient + 1 else quotient
          else 0
        else 0

/-- State while structures are handed out: `held p` are the (file) indices of the structures
process `p` holds, `perProc` is `countStructuresPerProc`, `count` is `countStructures`. -/
structure DistState where
  held : Nat → List Nat
  perProc : Nat → Nat
  count : Nat

def DistState.init : DistState := ⟨fun _ => [], fun _ => 0, 0⟩

/-- Dataset.cpp:808-826 and 834-852: read the next structure from the file, keep it (rank 0) or
send it to `proc`, advance the counters. -/
def DistState.give (s : DistState) (proc : Nat) : DistState :=
  { held := Function.update s.held proc (s.held proc ++ [s.count])
    perProc := Function.update s.perProc proc (s.perProc proc + 1)
    count := s.count + 1 }

/-- Dataset.cpp:802-829, `randomize == true`. `draws` are the results of `gsl_rng_uniform_int`;
`none` if the given draws do not suffice to finish the loop. -/
def distributeRandom (N : Nat) (quota : Nat → Nat) : List Nat → DistState → Option DistState
  | [], s => if s.count < N then none else some s
  | proc :: ds, s =>
    if s.count < N then
      if s.perProc proc < quota proc then distributeRandom N quota ds (s.give proc)
      else distributeRandom N quota ds s
    else some s

/-- Dataset.cpp:832-855, `randomize == false`. -/
def distributeOrdered (P : Nat) (quota : Nat → Nat) : DistState :=
  (List.range P).foldl
    (fun s proc => (List.range (quota proc)).foldl (fun s _ => s.give proc) s) DistState.init

/-- Dataset.cpp:724-886 `distributeStructures` seen from outside: which process holds which
structures afterwards. The message passing of single structures is C52; here a sent structure
arrives. Inner `none`: the random draws listed do not suffice to finish the loop. -/
def distributeStructures (N P : Nat) (randomize excludeRank0 : Bool) (draws : List Nat) :
    Except DistErr (Option DistState) :=
  match structuresPerProc N P excludeRank0 with
  | .error e => .error e
  | .ok quota =>
    .ok (if randomize then distributeRandom N quota draws DistState.init
      else some (distributeOrdered P quota))

/-! ### prepareNumericForces -/

/-- Dataset.cpp:902-911: structures per process; `M = 1 + 6 * numAtoms`. -/
def numericPerProc (M P i : Nat) : Nat :=
  let quotient := M / P
  let remainder := M % P
  if remainder > 0 ∧ i < remainder then quotient + 1 else quotient

/-- A structure created for the numeric force check. -/
inductive NumericJob
  | original
  /-- atom, Cartesian component, sign of the displacement -/
  | displaced (iAtom ixyz : Nat) (sign : Int)
  deriving DecidableEq

/-- Dataset.cpp:930-932 (`2 * ((count % 6) / 3) - 1` wraps to -1 in the conversion to `int`). -/
def numericJob (count : Nat) : NumericJob :=
  .displaced (count / 6) (count % 3) (2 * ((count % 6 / 3 : Nat) : Int) - 1)

/-- Dataset.cpp:913-947: jobs of rank `p`, and the running `count` after the first `p` ranks. -/
def numericCount (M P : Nat) : Nat → Nat
  | 0 => 0
  | p + 1 => numericCount M P p + (numericPerProc M P p - (if p = 0 then 1 else 0))

def numericJobs (numAtoms P p : Nat) : List NumericJob :=
  let M := 1 + 6 * numAtoms
  (if p = 0 then [NumericJob.original] else []) ++
    (List.range (numericPerProc M P p - (if p = 0 then 1 else 0))).map
      (fun i => numericJob (numericCount M P p + i))

/-! ### Reductions -/

/-- `MPI_Allreduce(..., MPI_MIN, ...)` over the values of all ranks. -/
noncomputable def allMin : List ℝ → ℝ
  | [] => 0
  | x :: xs => xs.foldl Min.min x

/-- `MPI_Allreduce(..., MPI_MAX, ...)`. -/
noncomputable def allMax : List ℝ → ℝ
  | [] => 0
  | x :: xs => xs.foldl Max.max x

/-- Statistics container of one symmetry function on one process that processed `vs`
(`addValue` for each value; `data[i]` creates an empty container if there was none). -/
noncomputable def localStatistics (dblMax : ℝ) (vs : List ℝ) : StatContainer :=
  (vs.foldl (fun d v => StatData.addValue dblMax d 0 v) ([] : StatData)).at dblMax 0

/-- Dataset.cpp:990-998: one symmetry function, `cs` are the containers of all ranks; the result on
a rank whose own container is `own`. -/
noncomputable def collectStatistics (cs : List StatContainer) (own : StatContainer) :
    StatContainer :=
  { own with
    count := (cs.map (·.count)).sum
    min := allMin (cs.map (·.min))
    max := allMax (cs.map (·.max))
    sum := (cs.map (·.sum)).sum
    sum2 := (cs.map (·.sum2)).sum }

/-- Dataset.cpp:1062-1075: minimum, maximum, mean and sigma written to the scaling file. -/
noncomputable def scalingFileLine (c : StatContainer) : ℝ × ℝ × ℝ × ℝ :=
  (c.min, c.max, c.sum / c.count,
    Real.sqrt ((c.sum2 - c.sum * c.sum / c.count) / ((c.count : ℝ) - 1)))

/-- Error accumulators (`map<string, double>` and `count`). -/
structure ErrAcc where
  count : Nat
  RMSEpa : ℝ
  RMSE : ℝ
  MAEpa : ℝ
  MAE : ℝ

def ErrAcc.zero : ErrAcc := ⟨0, 0, 0, 0, 0⟩

/-- Structure.cpp:1390-1399, property "energy". -/
noncomputable def updateErrorEnergy (e : ErrAcc) (s : Structure) : ErrAcc :=
  let diff := s.energyRef - s.energy
  { count := e.count + 1
    RMSEpa := e.RMSEpa + diff * diff / ((s.numAtoms * s.numAtoms : Nat) : ℝ)
    RMSE := e.RMSE + diff * diff
    MAEpa := e.MAEpa + |diff| / (s.numAtoms : ℝ)
    MAE := e.MAE + |diff| }

/-- Atom.cpp:351-356, property "force". -/
noncomputable def Atom.updateErrorForce (e : ErrAcc) (a : Atom) : ErrAcc :=
  let d := a.fRef - a.f
  { e with
    count := e.count + 3
    RMSE := e.RMSE + (d 0 * d 0 + d 1 * d 1 + d 2 * d 2)
    MAE := e.MAE + (|d 0| + |d 1| + |d 2|) }

/-- Atom.cpp:357-362, property "charge". -/
noncomputable def Atom.updateErrorCharge (e : ErrAcc) (a : Atom) : ErrAcc :=
  { e with
    count := e.count + 1
    RMSE := e.RMSE + (a.chargeRef - a.charge) * (a.chargeRef - a.charge)
    MAE := e.MAE + |a.chargeRef - a.charge| }

/-- Structure.cpp:1400-1407, properties "force" and "charge". -/
noncomputable def updateErrorForce (e : ErrAcc) (s : Structure) : ErrAcc :=
  s.atoms.foldl Atom.updateErrorForce e
noncomputable def updateErrorCharge (e : ErrAcc) (s : Structure) : ErrAcc :=
  s.atoms.foldl Atom.updateErrorCharge e

/-- Dataset.cpp:1712-1742 `collectError` over the accumulators of all ranks. For "force" and
"charge" the per-atom fields are not used. -/
noncomputable def collectError (es : List ErrAcc) : ErrAcc :=
  let n := (es.map (·.count)).sum
  { count := n
    RMSEpa := Real.sqrt ((es.map (·.RMSEpa)).sum / n)
    RMSE := Real.sqrt ((es.map (·.RMSE)).sum / n)
    MAEpa := (es.map (·.MAEpa)).sum / n
    MAE := (es.map (·.MAE)).sum / n }

end N2P2
