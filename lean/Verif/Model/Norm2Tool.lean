import Verif.Model.NormTool

/-! The tool nnp-norm2 (nnp-norm2.cpp). The settings file is loaded, the structures are distributed and the initial prediction is
computed before (Model/Settings, Model/DataFile, Model/Mode): structures carry reference and predicted values. Not modelled: the
log, the file `evsv.dat` and the copies of the weights (`weights.%03zu.norm`). -/

namespace N2P2

/-- nnp-norm2.cpp:81-83. The keyword "conv_charge" is not looked for. -/
def norm2KeywordsFound (c : Contents) : Except SetErr Bool := do
  let m ← keywordExists c "mean_energy".toList
  let e ← keywordExists c "conv_energy".toList
  let l ← keywordExists c "conv_length".toList
  .ok (m || e || l)

/-- nnp-norm2.cpp:148-260: the conversion data. The statistics are computed by the same statements as in
Training.cpp:485-574 (`normStats`). Charges are not converted. -/
noncomputable def norm2Units (nan : ℝ) (procs : List (List Structure)) : ModeUnits :=
  let ref := normStats nan refValues procs
  let nnp := normStats nan nnpValues procs
  { meanEnergy := ref.meanEnergy
    convEnergy := nnp.sigmaForce / ref.sigmaForce
    convLength := nnp.sigmaForce
    convCharge := 1 }

/-- `strpr("KEYWORD %24.16E # nnp-norm2\n", x)` (nnp-norm2.cpp:310-313), without the line end. -/
def norm2Line (N : NumberText) (kw : String) (x : ℝ) : Str :=
  kw.toList ++ ' ' :: (N.field x ++ " # nnp-norm2".toList)

/-- nnp-norm2.cpp:305-316: lines in front of the settings. -/
def norm2Header (N : NumberText) (u : ModeUnits) : List Str :=
  [List.replicate 79 '#', "# DATA SET NORMALIZATION".toList, List.replicate 79 '#',
    norm2Line N "mean_energy" u.meanEnergy, norm2Line N "conv_energy" u.convEnergy,
    norm2Line N "conv_length" u.convLength, List.replicate 79 '#', []]

/-- nnp-norm2.cpp:69-318, all processes together: the files afterwards. `setupGeneric` sets up normalization first. `charges`: training
of charges (4G or Q, stage 1). `lines` is the settings file `input.nn`, `procs` are the structures of the processes. The
lines in front of the settings must not overflow the buffer of `strpr` (undefined). -/
noncomputable def norm2Tool (nan : ℝ) (N : NumberText) (charges : Bool) (lines : List Str)
    (procs : List (List Structure)) (fs : Files) : Except Fault Files := do
  let c := parseLines lines
  let _ ← orThrow (setupNormalization N c ⟨0, 1, 1, 1⟩).toOption
  let found ← orThrow (norm2KeywordsFound c).toOption
  let forces ← orThrow (keywordExists c "use_short_forces".toList).toOption
  if charges || found || !forces then .error .exception
  else do
    let u := norm2Units nan procs
    let fs := fs.write "input.nn.bak".toList (settingsText lines)
    let _ ← orUndefined ((norm2Header N u).mapM strpr)
    .ok (fs.write "input.nn".toList ((norm2Header N u).flatMap (· ++ ['\n']) ++ settingsText lines))

end N2P2
