import Verif.Model.Normalization
import Verif.Model.LearningCurve

/-! The tool nnp-norm (nnp-norm.cpp). The settings file is loaded and the structures are distributed
before (Model/Settings, Model/DataFile). Not modelled: the log and the file `evsv.dat`. -/

namespace N2P2

/-- nnp-norm.cpp:65-73: one of the keywords is in the settings file. -/
def normKeywordsFound (c : Contents) : Except SetErr Bool := do
  let m ← keywordExists c "mean_energy".toList
  let e ← keywordExists c "conv_energy".toList
  let l ← keywordExists c "conv_length".toList
  let q ← keywordExists c "conv_charge".toList
  .ok (m || e || l || q)

/-- nnp-norm.cpp:125-131 on one process. -/
noncomputable def maxAbsCharge (ss : List Structure) : ℝ :=
  ss.foldl (fun m s => s.atoms.foldl
    (fun (m : ℝ) a => if |a.chargeRef| > m then |a.chargeRef| else m) m) 0

/-- nnp-norm.cpp:104-179: the conversion data. The statistics are computed by the same statements as in
Training.cpp:485-574 (`normStats`). The maximum of the charges over all processes is `MPI_MAX`. -/
noncomputable def normToolUnits (nan : ℝ) (procs : List (List Structure)) : ModeUnits :=
  let t := normStats nan refValues procs
  let q := (procs.map maxAbsCharge).foldl max 0
  { meanEnergy := t.meanEnergy
    convEnergy := 1 / t.sigmaEnergy
    convLength := t.sigmaForce / t.sigmaEnergy
    convCharge := if q > 0 then 1 / q else 1 }

/-- nnp-norm.cpp:195-201. -/
noncomputable def normToolAtom (u : ModeUnits) (a : Atom) : Atom :=
  { a with
    r := u.convLength • a.r
    fRef := (u.convEnergy / u.convLength) • a.fRef
    chargeRef := a.chargeRef * u.convCharge }

/-- nnp-norm.cpp:189-201. -/
noncomputable def normToolStructure (u : ModeUnits) (s : Structure) : Structure :=
  { s with
    energyRef := (s.energyRef - u.meanEnergy * s.numAtoms) * u.convEnergy
    chargeRef := s.chargeRef * u.convCharge
    box := fun i => u.convLength • s.box i
    atoms := s.atoms.map (normToolAtom u) }

/-- nnp-norm.cpp:184-205 on one process: text of its file. -/
noncomputable def normToolText (N : NumberText) (m : EMap) (u : ModeUnits) (ss : List Structure) :
    Option Str := do
  let ts ← ss.mapM fun s => (normToolStructure u s).writeToFile N m true
  some ts.flatten

/-- `strpr("KEYWORD %24.16E # nnp-norm\n", x)` (nnp-norm.cpp:232-237), without the line end. -/
def normToolLine (N : NumberText) (kw : String) (x : ℝ) : Str :=
  kw.toList ++ ' ' :: (N.field x ++ " # nnp-norm".toList)

/-- nnp-norm.cpp:238-239: the line end stands in front of the comment. -/
def normToolCharge (N : NumberText) (x : ℝ) : List Str :=
  ["conv_charge".toList ++ ' ' :: N.field x, " # nnp-norm".toList]

/-- nnp-norm.cpp:227-242: lines in front of the settings. -/
def normToolHeader (N : NumberText) (u : ModeUnits) : List Str :=
  [List.replicate 79 '#', "# DATA SET NORMALIZATION".toList, List.replicate 79 '#',
    normToolLine N "mean_energy" u.meanEnergy, normToolLine N "conv_energy" u.convEnergy,
    normToolLine N "conv_length" u.convLength] ++ normToolCharge N u.convCharge ++
  [List.replicate 79 '#', []]

/-- nnp-norm.cpp:220, 243: `writeSettingsFile` without replacements (Mode.cpp:2221-2226, Settings.cpp:301-321). -/
def settingsText (lines : List Str) : Str := writeSettingsFrom (fun _ => none) 0 lines

/-- nnp-norm.cpp:65-245, all processes together: the files afterwards. `lines` is the settings file `input.nn`,
`procs` are the structures of the processes. The lines in front of the settings must not overflow the buffer of `strpr`
(undefined). -/
noncomputable def normTool (nan : ℝ) (N : NumberText) (m : EMap) (lines : List Str)
    (procs : List (List Structure)) (fs : Files) : Except Fault Files := do
  let found ← orThrow (normKeywordsFound (parseLines lines)).toOption
  if found then .error .exception
  else do
    let u := normToolUnits nan procs
    let texts ← orThrow (procs.mapM (normToolText N m u))
    let fs ← orThrow (comparisonFile "output.data".toList texts fs)
    let fs := fs.write "input.nn.bak".toList (settingsText lines)
    let _ ← orUndefined ((normToolHeader N u).mapM strpr)
    .ok (fs.write "input.nn".toList ((normToolHeader N u).flatMap (· ++ ['\n']) ++ settingsText lines))

end N2P2
