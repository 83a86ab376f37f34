import Verif.Model.StructureFile
import Verif.Model.Dataset
import Verif.Model.Message
import Verif.Model.Units

/-! Data files with many structures: Dataset.cpp:709-722 and 724-886 with the contents of the
structures (`Model/Dataset` only follows their numbers). -/

namespace N2P2

/-- First word of a line, `split(reduce(line)).at(0)`. `none`: blank line. -/
def firstWord (line : Str) : Option Str := (split (reduce line)).head?

/-- Dataset.cpp:709-722 `getNumStructures`. -/
def getNumStructures (file : List Str) : ℕ := file.countP fun line => firstWord line = some keyBegin

/-- What can go wrong. -/
inductive FileErr
  /-- See `DistErr`. -/
  | dist (e : DistErr)
  /-- Exception or undefined behaviour while a structure is read or sent. -/
  | unreadable
  /-- The random draws listed do not suffice to finish the loop. -/
  | draws

/-- State while structures are handed out: `held p` is `structures` of process `p`, `perProc` is
`countStructuresPerProc`, `count` is `countStructures`, `file` the lines not yet read. -/
structure FileState where
  held : ℕ → List Structure
  perProc : ℕ → ℕ
  count : ℕ
  file : List Str

def FileState.start (file : List Str) : FileState := ⟨fun _ => [], fun _ => 0, 0, file⟩

/-- Everything that stays the same: text of numbers, element map, energy offsets of the elements
(`removeEnergyOffset` has the default argument `ref = true`), MPI. -/
structure DataSetup (Byte : Type) where
  N : NumberText
  m : EMap
  offs : List ℝ
  F : MpiFormat Byte
  machine : IntAsSizeT

variable {Byte : Type}

/-- Dataset.cpp:816-826 and 843-852: process 0 keeps the structure, other processes are sent a message.
The receiving side is 860-868: MPI delivers messages between two processes in order, hence message
number `i` arrives in structure number `i`. -/
def deliver (D : DataSetup Byte) (proc : ℕ) (u : Structure) : Option Structure :=
  if proc = 0 then some u
  else do
    let buf ← sendStructure D.F D.machine u
    recvStructure D.F D.machine (Structure.init.setElementMap D.m) buf

/-- Dataset.cpp:808-826 and 834-852: read the next structure, keep it or send it. -/
noncomputable def FileState.give (D : DataSetup Byte) (s : FileState) (proc : ℕ) :
    Option FileState := do
  let r ← ({ Structure.init.setElementMap D.m with
    index := s.count } : Structure).readFromFile D.N D.m s.file
  let u ← removeEnergyOffset D.offs r.1 true
  let v ← deliver D proc u
  some {
    held := Function.update s.held proc (s.held proc ++ [v])
    perProc := Function.update s.perProc proc (s.perProc proc + 1)
    count := s.count + 1
    file := r.2 }

/-- Dataset.cpp:802-829. `draws` are the results of `gsl_rng_uniform_int`. -/
noncomputable def fileRandom (D : DataSetup Byte) (n : ℕ) (quota : ℕ → ℕ) :
    List ℕ → FileState → Except FileErr FileState
  | [], s => if s.count < n then .error .draws else .ok s
  | proc :: ds, s =>
    if s.count < n then
      if s.perProc proc < quota proc then
        match s.give D proc with
        | none => .error .unreadable
        | some s => fileRandom D n quota ds s
      else fileRandom D n quota ds s
    else .ok s

/-- Dataset.cpp:832-855. -/
noncomputable def fileOrdered (D : DataSetup Byte) (P : ℕ) (quota : ℕ → ℕ) (s : FileState) :
    Option FileState :=
  (List.range P).foldlM
    (fun s proc => (List.range (quota proc)).foldlM (fun s _ => s.give D proc) s) s

/-- Dataset.cpp:724-886 `distributeStructures`, all processes together. -/
noncomputable def distributeFile (D : DataSetup Byte) (P : ℕ) (randomize excludeRank0 : Bool)
    (draws : List ℕ) (file : List Str) : Except FileErr FileState :=
  match structuresPerProc (getNumStructures file) P excludeRank0 with
  | .error e => .error (.dist e)
  | .ok quota =>
    if randomize then fileRandom D (getNumStructures file) quota draws (FileState.start file)
    else
      match fileOrdered D P quota (FileState.start file) with
      | none => .error .unreadable
      | some s => .ok s

end N2P2
