import Verif.Model.DataFile
import Verif.Model.LearningCurve

/-! File with the symmetry functions of a data set: Dataset.cpp:1255-1318 and nnp-scaling.cpp:63-131. -/

namespace N2P2

/-- Dataset.cpp:1299-1303: energy per atom. `none`: `at` throws. Without atoms the result is not a number, here
`nan`. -/
noncomputable def functionEnergy (U : ModeUnits) (normalize : Bool) (offs : List ℝ) (nan : ℝ)
    (s : Structure) : Option ℝ := do
  let offset ← getEnergyOffset offs s
  let energy := if normalize then U.physicalEnergy s true else s.energyRef
  some (if s.numAtoms = 0 then nan else (energy + offset) / s.numAtoms)

/-- Dataset.cpp:1286-1297: line of an atom. `Z` is `elementMap.atomicNumber`, `N` prints with
`%14.10f` and `%19.10f`, up to blanks. -/
noncomputable def functionAtom (N : NumberText) (Z : ℕ → ℕ) (a : Atom) : Option Str := do
  let first ← strpr (padLeft 3 (natText (Z a.element)) ++ [' '])
  let values ← a.G.mapM fun g => strpr (' ' :: padLeft 14 (N.print g))
  some (first ++ values.flatten ++ ['\n'])

/-- Dataset.cpp:1280-1306: everything written for a structure. -/
noncomputable def functionText (N : NumberText) (Z : ℕ → ℕ) (U : ModeUnits) (normalize : Bool)
    (offs : List ℝ) (nan : ℝ) (s : Structure) : Option Str := do
  let first ← strpr (padLeft 6 (natText s.numAtoms) ++ ['\n'])
  let atoms ← s.atoms.mapM (functionAtom N Z)
  let energy ← functionEnergy U normalize offs nan s
  let last ← strpr (fieldLine [] [padLeft 19 (N.print 0), padLeft 19 (N.print energy),
    padLeft 19 (N.print energy), padLeft 19 (N.print 0)])
  some (first ++ atoms.flatten ++ last)

/-- Dataset.cpp:1276-1311 for one `i` and all processes: structures left and text appended. (If several
processes write in the same round, the order is arbitrary; here the order of the processes.) -/
def functionRound (f : Structure → Option Str) (i : ℕ) :
    List (List Structure) → Option (List (List Structure) × Str)
  | [] => some ([], [])
  | [] :: ps => do
    let r ← functionRound f i ps
    some ([] :: r.1, r.2)
  | (s :: ss) :: ps =>
    if i = s.index then do
      let t ← f s
      let r ← functionRound f i ps
      some (ss :: r.1, t ++ r.2)
    else do
      let r ← functionRound f i ps
      some ((s :: ss) :: r.1, r.2)

/-- Dataset.cpp:1272-1312: the loop, structures left and text in the file. -/
def functionLoop (f : Structure → Option Str) (n : ℕ) (procs : List (List Structure)) :
    Option (List (List Structure) × Str) :=
  (List.range n).foldlM (fun st i => do
    let r ← functionRound f i st.1
    some (r.1, st.2 ++ r.2)) (procs, [])

/-- Dataset.cpp:1255-1318 `writeSymmetryFunctionFile`, all processes together; `n` is `numStructures`. -/
noncomputable def writeFunctionFile (N : NumberText) (Z : ℕ → ℕ) (U : ModeUnits) (normalize : Bool)
    (offs : List ℝ) (nan : ℝ) (n : ℕ) (procs : List (List Structure)) (file : Str) (fs : Files) :
    Option Files := do
  let r ← functionLoop (functionText N Z U normalize offs nan) n procs
  some (fs.write file r.2)

/-- nnp-scaling.cpp:66-120, one structure: units are normalized, then symmetry functions are calculated. `G w i` are the
values for atom `i` of structure `w` (other members which change are not used afterwards). -/
noncomputable def scalingStructure (U : ModeUnits) (normalize : Bool) (G : Structure → ℕ → List ℝ)
    (s : Structure) : Option Structure := do
  let s ← if normalize then s.toNormalizedUnits U.meanEnergy U.convEnergy U.convLength U.convCharge
    else some s
  some { s with atoms := s.atoms.mapIdx fun i a => { a with G := G s i } }

/-- nnp-scaling.cpp:63-131: what the tool does for the file `function.data`, from the structures which the processes
hold. -/
noncomputable def functionTool (N : NumberText) (Z : ℕ → ℕ) (U : ModeUnits) (normalize : Bool)
    (offs : List ℝ) (nan : ℝ) (G : Structure → ℕ → List ℝ) (n : ℕ) (procs : List (List Structure))
    (fs : Files) : Option Files := do
  let procs ← procs.mapM fun ss => ss.mapM (scalingStructure U normalize G)
  writeFunctionFile N Z U normalize offs nan n procs "function.data".toList fs

end N2P2
