import Verif.Model.Units
import Verif.Model.StructureFile
import Verif.Model.Settings

/-! Data set normalization: `Training::dataSetNormalization` (Training.cpp:429-735), the settings file it
writes, `Mode::setupNormalization` (Mode.cpp:237-298) and `Dataset::toNormalizedUnits`
(Dataset.cpp:952-961).

Not modelled: log messages, the file `evsv.dat`, the copies of the weights (`weights.%03zu.norm`) and of
the settings file (`input.nn.bak`), and the second setup of the symmetry functions at the end. The
evaluation of the structures is not part of this file: the structures given to
`dataSetNormalization` already carry the energies and forces that Training.cpp:509-517 computes. -/

namespace N2P2

/-- Exceptions. `overflow` is undefined behaviour of `vsprintf` in `strpr`. -/
inductive NormErr
  | settings (e : SetErr)
  | usage
  | charges
  | noForces
  | unknownMode
  | overflow
  deriving DecidableEq, Repr

/-- A lookup in the settings. -/
def NormErr.lift {α : Type} : Except SetErr α → Except NormErr α
  | .ok a => .ok a
  | .error e => .error (.settings e)

/-- Mode.cpp:259-263: the optional charge conversion. -/
noncomputable def normCharge (N : NumberText) (c : Contents) (old : ℝ) : Except NormErr ℝ := do
  if ← NormErr.lift (keywordExists c "conv_charge".toList) then
    let q ← NormErr.lift (getValue c "conv_charge".toList)
    pure (N.atof q)
  else pure old

/-- Mode.cpp:237-298 `setupNormalization`: (`normalize`, conversion data). `u`: members before the
call. The conditions look up the keywords one after the other; looking up known keywords has no
effect, so all four are looked up first. -/
noncomputable def setupNormalization (N : NumberText) (c : Contents) (u : ModeUnits) :
    Except NormErr (Bool × ModeUnits) := do
  let m ← NormErr.lift (keywordExists c "mean_energy".toList)
  let e ← NormErr.lift (keywordExists c "conv_energy".toList)
  let l ← NormErr.lift (keywordExists c "conv_length".toList)
  let q ← NormErr.lift (keywordExists c "conv_charge".toList)
  if m && e && l then
    let vm ← NormErr.lift (getValue c "mean_energy".toList)
    let ve ← NormErr.lift (getValue c "conv_energy".toList)
    let vl ← NormErr.lift (getValue c "conv_length".toList)
    let vq ← normCharge N c u.convCharge
    pure (true, ⟨N.atof vm, N.atof ve, N.atof vl, vq⟩)
  else if !m && !e && !l && !q then pure (false, u)
  else .error .usage

/-- Which energy and forces of a structure are averaged: the reference values (`energyRef`, `fRef`) or
the computed ones (`energy`, `f`). The C++ code treats both in the same loops. -/
structure NormValues where
  energy : Structure → ℝ
  force : Atom → Vec3

def refValues : NormValues := ⟨fun s => s.energyRef, fun a => a.fRef⟩
def nnpValues : NormValues := ⟨fun s => s.energy, fun a => a.f⟩

/-- `numStructures`, `numAtomsTotal`, the sum of the energies per atom and the sum of the forces. -/
structure NormSums where
  numStructures : ℕ
  numAtoms : ℕ
  energy : ℝ
  force : ℝ

/-- Training.cpp:518-527: one structure in the first loop. -/
noncomputable def NormSums.add (q : NormValues) (t : NormSums) (s : Structure) : NormSums :=
  { numStructures := t.numStructures + 1
    numAtoms := t.numAtoms + s.numAtoms
    energy := t.energy + q.energy s / s.numAtoms
    force := s.atoms.foldl (fun (m : ℝ) a => m + (q.force a 0 + q.force a 1 + q.force a 2))
      t.force }

/-- Training.cpp:485-528: the first loop on one process. -/
noncomputable def normSums (q : NormValues) (ss : List Structure) : NormSums :=
  ss.foldl (NormSums.add q) ⟨0, 0, 0, 0⟩

/-- Training.cpp:535-540: `MPI_Allreduce` with `MPI_SUM`. -/
noncomputable def normReduce (ts : List NormSums) : NormSums :=
  { numStructures := (ts.map (·.numStructures)).sum
    numAtoms := (ts.map (·.numAtoms)).sum
    energy := (ts.map (·.energy)).sum
    force := (ts.map (·.force)).sum }

/-- Training.cpp:545-566: the second loop on one process: sums of squared deviations of energies and
forces. -/
noncomputable def normSquares (q : NormValues) (mE mF : ℝ) (ss : List Structure) : ℝ × ℝ :=
  ss.foldl (fun t s =>
    (t.1 + (q.energy s / s.numAtoms - mE) * (q.energy s / s.numAtoms - mE),
      s.atoms.foldl (fun (m : ℝ) a => m + (q.force a 0 - mF) * (q.force a 0 - mF)
        + (q.force a 1 - mF) * (q.force a 1 - mF)
        + (q.force a 2 - mF) * (q.force a 2 - mF)) t.2)) (0, 0)

/-- Means and standard deviations. -/
structure NormStats where
  meanEnergy : ℝ
  sigmaEnergy : ℝ
  meanForce : ℝ
  sigmaForce : ℝ

/-- Training.cpp:485-574: statistics of the structures of all processes. `nan`: value of 0.0 / 0.0
(no structure or atom; one structure for the deviation of the energies). A structure without atoms
(division by zero) is left to the hypotheses of the theorems. -/
noncomputable def normStats (nan : ℝ) (q : NormValues) (procs : List (List Structure)) : NormStats :=
  let t := normReduce (procs.map (normSums q))
  let mE := if t.numStructures = 0 then nan else t.energy / t.numStructures
  let mF := if t.numAtoms = 0 then nan else t.force / (3 * t.numAtoms : ℕ)
  let sq := procs.map (normSquares q mE mF)
  { meanEnergy := mE
    sigmaEnergy := if t.numStructures = 1 then nan
      else Real.sqrt ((sq.map (·.1)).sum / (t.numStructures - 1 : ℕ))
    meanForce := mF
    sigmaForce := Real.sqrt ((sq.map (·.2)).sum / (3 * t.numAtoms - 1 : ℕ)) }

/-- Training.cpp:600-652: the conversion data. -/
noncomputable def normUnits (N : NumberText) (c : Contents) (mode : Str) (useForces : Bool)
    (ref nnp : NormStats) (old : ModeUnits) : Except NormErr (Bool × ModeUnits) :=
  if mode = "stats-only".toList then setupNormalization N c old
  else if mode = "ref".toList then
    .ok (true,
      { old with
        meanEnergy := ref.meanEnergy
        convEnergy := 1 / ref.sigmaEnergy
        convLength := if useForces then ref.sigmaForce / ref.sigmaEnergy else 1 })
  else if mode = "force".toList then
    if useForces then
      .ok (true,
        { old with
          meanEnergy := ref.meanEnergy
          convEnergy := nnp.sigmaForce / ref.sigmaForce
          convLength := nnp.sigmaForce })
    else .error .noForces
  else .error .unknownMode

/-- `strpr("KEYWORD %24.16E # nnp-train\n", x)` (Training.cpp:679-684); the line end is kept apart. -/
def normLine (N : NumberText) (kw : String) (x : ℝ) : Str :=
  kw.toList ++ ' ' :: (N.field x ++ " # nnp-train".toList)

/-- Training.cpp:688-699: the replacement for a line. -/
def normReplace (n1 n2 n3 line : Str) : Option Str :=
  match split line with
  | [] => none
  | w :: _ =>
    if w = "mean_energy".toList then some n1
    else if w = "conv_energy".toList then some n2
    else if w = "conv_length".toList then some n3
    else none

/-- Training.cpp:707-719: lines written in front of a file without normalization data. -/
def normHeader (n1 n2 n3 : Str) : List Str :=
  [List.replicate 79 '#', "# DATA SET NORMALIZATION".toList, List.replicate 79 '#', n1, n2, n3,
    List.replicate 79 '#', []]

/-- Training.cpp:685-721: text of the new settings file. -/
def normFile (n1 n2 n3 : Str) (lines : List Str) : Str :=
  let repl := fun i => (lines[i]?.bind (normReplace n1 n2 n3)).map (· ++ ['\n'])
  (if (lines.filterMap (normReplace n1 n2 n3)).isEmpty then
    (normHeader n1 n2 n3).flatMap (· ++ ['\n']) else []) ++ writeSettingsFrom repl 0 lines

/-- Result: `normalize`, conversion data and, if it is written, the new file `input.nn`. -/
structure NormResult where
  normalize : Bool
  units : ModeUnits
  file : Option Str

/-- Training.cpp:679-684: `strpr` must not overflow. -/
def normLines (N : NumberText) (m e l : ℝ) (lines : List Str) : Except NormErr Str :=
  match strpr (normLine N "mean_energy" m ++ ['\n']), strpr (normLine N "conv_energy" e ++ ['\n']),
      strpr (normLine N "conv_length" l ++ ['\n']) with
  | some _, some _, some _ => .ok (normFile (normLine N "mean_energy" m)
      (normLine N "conv_energy" e) (normLine N "conv_length" l) lines)
  | _, _, _ => .error .overflow

/-- Training.cpp:655-723: the file is written unless only statistics are wanted. The mean energy
written is the mean of the reference energies. -/
def normWrite (N : NumberText) (mode : Str) (mean : ℝ) (u : ModeUnits) (lines : List Str) :
    Except NormErr (Option Str) :=
  if mode = "stats-only".toList then .ok none
  else
    match normLines N mean u.convEnergy u.convLength lines with
    | .ok t => .ok (some t)
    | .error e => .error e

/-- Training.cpp:429-735 `dataSetNormalization`. `stage1`: charge training (`nnpType` 4G or Q and
`stage` 1). `lines`: the settings file, `c` its contents. `procs`: the structures of each process.
`old`: members of `Mode` before the call (normalization has been skipped in the setup). -/
noncomputable def dataSetNormalization (nan : ℝ) (N : NumberText) (stage1 : Bool) (c : Contents)
    (lines : List Str) (procs : List (List Structure)) (old : ModeUnits) :
    Except NormErr NormResult := do
  let useForces ← NormErr.lift (keywordExists c "use_short_forces".toList)
  if stage1 then .error .charges
  else
    let mode ← NormErr.lift (getValue c "normalize_data_set".toList)
    let ref := normStats nan refValues procs
    let u ← normUnits N c mode useForces ref (normStats nan nnpValues procs) old
    let file ← normWrite N mode ref.meanEnergy u.2 lines
    pure ⟨u.1, u.2, file⟩

/-- Dataset.cpp:952-961 `toNormalizedUnits` on every process (nnp-train.cpp:86-87). -/
noncomputable def normalizeAll (u : ModeUnits) (procs : List (List Structure)) :
    Option (List (List Structure)) :=
  procs.mapM fun ss => ss.mapM fun s =>
    s.toNormalizedUnits u.meanEnergy u.convEnergy u.convLength u.convCharge

end N2P2
