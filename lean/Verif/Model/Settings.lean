import Verif.Model.Utility

/-! Model of `/repo/src/libnnp/Settings.cpp` and of the pruned settings writer in
`/repo/src/libnnp/Mode.cpp`. -/

namespace N2P2

/-- Settings.cpp:36-141: all known keywords. Each inner list is one `settings::Key` (Key.h:20-40):
the main keyword first, then its alternative spellings. Descriptions are dropped. -/
def keywordGroups : List (List Str) :=
  ([["number_of_elements"], ["elements"], ["atom_energy"], ["cutoff_type"],
   ["symfunction_short", "symfunction"], ["scale_symmetry_functions"], ["scale_min_short"],
   ["scale_max_short"], ["center_symmetry_functions"], ["scale_symmetry_functions_sigma"],
   ["global_hidden_layers_short"], ["global_hidden_layers_electrostatic"],
   ["global_nodes_short"], ["global_nodes_electrostatic"], ["global_activation_short"],
   ["global_activation_electrostatic"], ["element_hidden_layers_short"],
   ["element_hidden_layers_electrostatic"], ["element_nodes_short"],
   ["element_nodes_electrostatic"], ["element_activation_short"],
   ["element_activation_electrostatic"], ["normalize_nodes"], ["mean_energy"], ["conv_length"],
   ["conv_energy"], ["conv_charge"], ["nnp_type", "nnp_generation", "nnp_type_gen", "nnp_gen"],
   ["fixed_gausswidth"], ["ewald_truncation_error_method"], ["ewald_prec"],
   ["screen_electrostatics"], ["four_pi_epsilon"], ["random_seed"], ["test_fraction"],
   ["epochs"], ["normalize_data_set"], ["use_short_forces"], ["rmse_threshold"],
   ["rmse_threshold_energy", "short_energy_error_threshold"],
   ["rmse_threshold_force", "short_force_error_threshold"], ["rmse_threshold_charge"],
   ["rmse_threshold_trials"], ["rmse_threshold_trials_energy"], ["rmse_threshold_trials_force"],
   ["rmse_threshold_trials_charge"], ["energy_fraction", "short_energy_fraction"],
   ["force_fraction", "short_force_fraction"], ["force_energy_ratio"], ["charge_fraction"],
   ["use_old_weights_short"], ["use_old_weights_charge"], ["weights_min"], ["weights_max"],
   ["initial_hardness"], ["nguyen_widrow_weights_short"], ["nguyen_widrow_weights_charge"],
   ["precondition_weights"], ["main_error_metric"], ["write_trainpoints"], ["write_trainforces"],
   ["write_traincharges"], ["write_weights_epoch"], ["write_neuronstats"], ["write_trainlog"],
   ["repeated_energy_update"], ["updater_type"], ["parallel_mode"], ["jacobian_mode"],
   ["update_strategy"], ["selection_mode"], ["selection_mode_energy"], ["selection_mode_force"],
   ["selection_mode_charge"], ["task_batch_size_energy"], ["task_batch_size_force"],
   ["task_batch_size_charge"], ["gradient_type"], ["gradient_eta"], ["gradient_adam_eta"],
   ["gradient_adam_beta1"], ["gradient_adam_beta2"], ["gradient_adam_epsilon"], ["kalman_type"],
   ["kalman_epsilon"], ["kalman_eta"], ["kalman_etatau"], ["kalman_etamax"], ["kalman_q0"],
   ["kalman_qtau"], ["kalman_qmin"], ["kalman_lambda_short"], ["kalman_nue_short"],
   ["memorize_symfunc_results"], ["force_weight"]] :
    List (List String)).map (List.map String.toList)

/-- Keys of the map `knownKeywords` (Settings.cpp:143-177): every spelling of every group. -/
def knownSpellings : List Str := keywordGroups.flatten

/-- `*knownKeywords.at(keyword)`: the `Key` object (list of spellings) behind a spelling. -/
def keyGroup (kw : Str) : Option (List Str) := keywordGroups.find? (fun g => g.contains kw)

/-- One entry of the multimap `contents`: keyword, (value, line index). -/
structure Entry where
  key : Str
  value : Str
  line : Nat
  deriving DecidableEq, Repr

/-- The multimap `contents`, in insertion order. -/
abbrev Contents := List Entry

/-- `line.erase(line.find(c))` if present (Settings.cpp:339-346). -/
def cutAt (c : Char) (s : Str) : Str := s.takeWhile (· != c)

/-- Body of the loop in `parseLines` for line number `i` (Settings.cpp:325-375): the entry
inserted, if any. -/
def parseLine (i : Nat) (line : Str) : Option Entry :=
  if line.isEmpty then none
  else if line == ['\r'] then none
  else
    let line := cutAt '!' (cutAt '#' line)
    if line.all (· == ' ') then none
    else
      let line := reduce line
      if line.contains ' ' then
        some ⟨line.takeWhile (· != ' '), (line.dropWhile (· != ' ')).drop 1, i⟩
      else some ⟨line, [], i⟩

/-- Settings.cpp:323-375 `parseLines` (the loop). -/
def parseFrom : Nat → List Str → Contents
  | _, [] => []
  | i, l :: ls => (parseLine i l).toList ++ parseFrom (i + 1) ls

def parseLines (lines : List Str) : Contents := parseFrom 0 lines

/-- `contents.find(k)`: the first inserted element with that key (libstdc++ behaviour). -/
def Contents.find? (c : Contents) (k : Str) : Option Entry := List.find? (fun e => e.key == k) c

/-- `contents.count(k)`. -/
def Contents.count (c : Contents) (k : Str) : Nat := List.countP (fun e => e.key == k) c

/-- `contents.equal_range(k)`. -/
def Contents.range (c : Contents) (k : Str) : List Entry := List.filter (fun e => e.key == k) c

/-- Errors of the lookup functions. `ub` is the dereference of `contents.end()`. -/
inductive SetErr
  | notAllowed
  | notFound
  | ub
  deriving DecidableEq, Repr

/-- Settings.cpp:199-219 `keywordExists(keyword, exact)`. -/
def keywordExists (c : Contents) (kw : Str) (exact : Bool := false) : Except SetErr Bool :=
  match keyGroup kw with
  | none => .error .notAllowed
  | some g =>
    if exact || g.length == 1 then .ok (c.find? kw).isSome
    else .ok (g.any (fun alt => (c.find? alt).isSome))

/-- Settings.cpp:221-249 `keywordCheck`: the spelling under which the value is stored. -/
def keywordCheck (c : Contents) (kw : Str) : Except SetErr Str :=
  match keywordExists c kw false with
  | .error e => .error e
  | .ok false => .error .notFound
  | .ok true =>
    match keywordExists c kw true with
    | .error e => .error e
    | .ok true => .ok kw
    | .ok false =>
      match keyGroup kw with
      | none => .error .notAllowed
      | some g => .ok ((g.find? (fun alt => (c.find? alt).isSome)).getD kw)

/-- Settings.cpp:256-259 `getValue(keyword)`. -/
def getValue (c : Contents) (kw : Str) : Except SetErr Str :=
  match keywordCheck c kw with
  | .error e => .error e
  | .ok k =>
    match c.find? k with
    | some e => .ok e.value
    | none => .error .ub

/-- Settings.cpp:261-264 `getValues(keyword)`. -/
def getValues (c : Contents) (kw : Str) : Except SetErr (List Entry) :=
  match keywordCheck c kw with
  | .error e => .error e
  | .ok k => .ok (c.range k)

/-- Settings.cpp:415-420: keywords that may be repeated. -/
def repeatable : List Str :=
  ["symfunction", "symfunction_short", "atom_energy", "element_nodes_short", "fixed_gausswidth",
   "initial_hardness"].map String.toList

/-- Settings.cpp:391-459 `sanityCheck`: (number of problems, number of critical problems).
The three loops run over `contents`, over all spellings, and again over all spellings. -/
def sanityCheck (c : Contents) : Nat × Nat :=
  let unknown := List.countP (fun e => !knownSpellings.contains e.key) c
  let multiple := knownSpellings.countP (fun k => decide (c.count k > 1) && !repeatable.contains k)
  let versions := knownSpellings.countP (fun k =>
    match keyGroup k with
    | none => false
    | some g => !(g.length == 1) &&
        decide ((g.filter (fun alt => (c.find? alt).isSome)).length > 1))
  (unknown + multiple + versions, multiple + versions)

/-- Settings.cpp:289-292 `readFile`: lines of a text file, one `getline` per round. -/
def readLines (text : Str) : List Str := split text '\n'

/-- Mode.cpp:2204-2219 `writePrunedSettingsFile`: the text written. -/
def prunedFrom (prune : List Nat) : Nat → List Str → Str
  | _, [] => []
  | i, l :: ls =>
    (if prune.contains i then ['#', ' '] else []) ++ l ++ ['\n'] ++ prunedFrom prune (i + 1) ls

def writePruned (prune : List Nat) (lines : List Str) : Str := prunedFrom prune 0 lines

/-- Settings.cpp:301-321 `writeSettingsFile(file, replacements)`: text written; replacement texts
carry their own line end. -/
def writeSettingsFrom (repl : Nat → Option Str) : Nat → List Str → Str
  | _, [] => []
  | i, l :: ls =>
    (match repl i with
      | some r => r
      | none => l ++ ['\n']) ++ writeSettingsFrom repl (i + 1) ls

end N2P2
