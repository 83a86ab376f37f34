import Verif.Model.Convert
import Verif.Model.ShapeFile
import Verif.Model.ScalingFile

/-! nnp-comp2: comparison of two potentials, and selection of structures.

Not modelled: log files, setup of communicators and directories, evaluation of the potentials (their results
are members of the structures here), and the combination of the files of processes (Model/DatasetTool). -/

namespace N2P2

/-! ### Mode "compare" -/

/-- nnp-comp2.cpp:309-330: the message of the second potential for one structure. The number of warnings is
kept in `numElementsPresent` (lines 203-206). -/
noncomputable def compareSend (useForces : Bool) (s : Structure) : List ℝ :=
  [s.energy, (s.numElementsPresent : ℝ)] ++
    if useForces then s.atoms.flatMap fun a => [a.f 0, a.f 1, a.f 2] else []

/-- nnp-comp2.cpp:272-283: the loop over atoms, with the sum and the maximum of differences so far. `none`: the
message is too short. -/
noncomputable def compareAtoms : List Atom → List ℝ → ℝ → ℝ → Option (List Atom × ℝ × ℝ)
  | [], _, mean, mx => some ([], mean, mx)
  | a :: as, x :: y :: z :: buffer, mean, mx =>
    let d : Vec3 := ![a.f 0 - x, a.f 1 - y, a.f 2 - z]
    (compareAtoms as buffer (mean + |d 0| + |d 1| + |d 2|) (max (max (max mx |d 0|) |d 1|) |d 2|)).map
      fun r => ({ a with fRef := d } :: r.1, r.2)
  | _ :: _, _, _, _ => none

/-- nnp-comp2.cpp:287-297: a line of `diff.out`. -/
noncomputable def diffLine (N : NumberText) (s : Structure) (ew : ℕ) (e mean mx : ℝ) : Str :=
  fieldLine (padLeft 7 (natText s.index))
    [padLeft 10 (natText s.numAtoms), padLeft 10 (natText s.numElementsPresent), padLeft 10 (natText ew),
      padLeft 16 (N.print s.energy), padLeft 16 (N.print e), padLeft 16 (N.print mean), padLeft 16 (N.print mx)]

/-- nnp-comp2.cpp:257-300: the structure `s` of the first potential after receiving the message of the second
one, and the line of `diff.out`. Structures without atoms (division by zero) are not modelled: `none`. -/
noncomputable def compareReceive (N : NumberText) (useForces : Bool) (s : Structure) :
    List ℝ → Option (Structure × Str)
  | e :: w :: buffer =>
    if s.numAtoms = 0 then none
    else do
      let ew := ⌊w⌋₊
      let r ← if useForces then
          (compareAtoms s.atoms buffer 0 0).map fun r => (r.1, r.2.1 / ((3 * s.numAtoms : ℕ) : ℝ), r.2.2)
        else some (s.atoms, 0, 0)
      let n := s.numElementsPresent + ew
      some ({ s with
        energyRef := s.energy - e
        atoms := r.1
        numElementsPresent := n
        comment := "EWSUM ".toList ++ natText n ++ ' ' :: s.comment }, diffLine N s ew e r.2.1 r.2.2)
  | _ => none

/-! ### Mode "select" -/

/-- The thresholds, nnp-comp2.cpp:82-84. -/
structure CompareLimits where
  ew : ℕ
  energy : ℝ
  force : ℝ

/-- nnp-comp2.cpp:428-431: variables of the loop. -/
structure ForceCheck where
  flag : Bool
  count : ℕ
  mean : ℝ
  max : ℝ

open Classical in
/-- nnp-comp2.cpp:457-465: one component of a force. -/
noncomputable def checkComponent (t : ℝ) (c : ForceCheck) (f : ℝ) : ForceCheck where
  max := max c.max |f|
  mean := c.mean + |f|
  flag := if t < |f| then true else c.flag
  count := if t < |f| then c.count + 1 else c.count

open Classical in
/-- nnp-comp2.cpp:449-470. -/
noncomputable def selectForces (t : ℝ) (s : Structure) : ForceCheck :=
  if 0 < t then
    let c := s.atoms.foldl (fun c a =>
      checkComponent t (checkComponent t (checkComponent t c (a.fRef 0)) (a.fRef 1)) (a.fRef 2)) ⟨false, 0, 0, 0⟩
    { c with mean := c.mean / ((3 * s.numAtoms : ℕ) : ℝ) }
  else ⟨false, 0, 0, 0⟩

/-- `(int)b`, printed. -/
def flagText (b : Bool) : Str := natText b.toNat

/-- nnp-comp2.cpp:434: the number of warnings in the comment. `none`: there is no second word. -/
def commentWarnings (comment : Str) : Option ℕ := (split comment)[1]?.map textSize

open Classical in
/-- nnp-comp2.cpp:423-491: one structure. The line of `select.out`, and what is written to `comp-selection.data`.
`none`: the program ends with an error, or the structure has no atoms (division by zero, not modelled). -/
noncomputable def selectStructure (N : NumberText) (m : EMap) (T : CompareLimits) (k : ℕ) (s : Structure) :
    Option (Str × Str) :=
  if s.numAtoms = 0 then none
  else do
    let ew ← commentWarnings s.comment
    let flagEW := decide (0 < T.ew ∧ T.ew ≤ ew)
    let flagEnergy := decide (0 < T.energy ∧ T.energy < |s.energyRef| / s.numAtoms)
    let c := selectForces T.force s
    let any := flagEW || flagEnergy || c.flag
    let t ← if any then s.writeToFile N m true else some []
    some (fieldLine (padLeft 7 (natText k))
      [padLeft 5 (flagText any), padLeft 5 (flagText flagEW), padLeft 5 (flagText flagEnergy),
        padLeft 5 (flagText c.flag), padLeft 10 (natText ew), padLeft 10 (natText s.numAtoms),
        padLeft 16 (N.print (s.energyRef / s.numAtoms)), padLeft 10 (natText c.count),
        padLeft 16 (N.print c.mean), padLeft 16 (N.print c.max)], t)

/-- nnp-comp2.cpp:364-406. -/
def selectHeader : Option (List Str) :=
  createFileHeader ["Selection results based on 2-NNP comparison.".toList] [7, 5, 5, 5, 5, 10, 10, 16, 10, 16, 16]
    ["index".toList, "fAny".toList, "fEW".toList, "fE".toList, "fF".toList, "nEW".toList, "nAtoms".toList,
      "Ediff".toList, "nForce".toList, "FDiffMean".toList, "FDiffMax".toList]
    ["Structure index.".toList, "Whether structure was selected.".toList,
      "Structure selected due to extrapolation warning.".toList, "Structure selected due to energy difference.".toList,
      "Structure selected due to force difference.".toList,
      "Number of extrapolation warnings (both NNPs combined).".toList, "Number of atoms in structure.".toList,
      "Energy difference per atom.".toList, "Number of forces exceeding threshold.".toList,
      "Mean absolute force difference.".toList, "Maximum absolute force difference.".toList] '#'

/-- nnp-comp2.cpp:344-505: the files after the program. `args` are the elements. A missing file is like an empty
one. -/
noncomputable def compareSelect (N : NumberText) (T : CompareLimits) (args : List Str) (fs : Files) :
    Option Files := do
  let h ← selectHeader
  let m ← (EMap.empty.registerElements (joinWords args)).toOption
  let file := readLines ((fs "comp.data".toList).getD [])
  let ts ← convertLoop N m.1 (selectStructure N m.1 T) file.length (Structure.init.setElementMap m.1) 0 file
  some ((fs.write "select.out".toList (h.flatten ++ (ts.map Prod.fst).flatten)).write
    "comp-selection.data".toList (ts.map Prod.snd).flatten)

end N2P2
