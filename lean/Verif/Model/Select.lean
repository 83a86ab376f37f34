import Verif.Model.DataFile

/-! Selecting structures from a data file: nnp-select.cpp. Messages to the log are left out. -/

namespace N2P2

/-- nnp-select.cpp:69-96: mode and arguments. Interval: the argument as an integer (`atoi`). Random: the
ratio, and what `rand()` returns, in order; `randMax` is `RAND_MAX`. -/
inductive SelectMode
  | interval (arg : ℤ)
  | random (ratio : ℝ) (rand : ℕ → ℕ) (randMax : ℕ)

/-- nnp-select.cpp:90 `(size_t)atoi(argv[2])`, with 64 bits. -/
def intervalSize (arg : ℤ) : ℕ := (arg % 2 ^ 64).toNat

open Classical in
/-- nnp-select.cpp:109-118: is structure number `k` selected? `none`: division by zero. The random number
is number `k` as `rand()` is called once for each structure. -/
noncomputable def SelectMode.decide' (mode : SelectMode) (k : ℕ) : Option Bool :=
  match mode with
  | .interval arg => if intervalSize arg = 0 then none else some (k % intervalSize arg = 0)
  | .random ratio rand randMax => some (decide ((rand k : ℝ) / randMax ≤ ratio))

/-- nnp-select.cpp:48-50 and the files written. -/
structure SelectState where
  writeStructure : Bool
  countStructures : ℕ
  countSelected : ℕ
  output : List Str
  reject : List Str

/-- nnp-select.cpp:48-50. -/
def SelectState.start : SelectState := ⟨false, 0, 0, [], []⟩

/-- nnp-select.cpp:109-124, a line starting with "begin". -/
noncomputable def SelectState.onBegin (mode : SelectMode) (s : SelectState) : Option SelectState := do
  let w ← mode.decide' s.countStructures
  some { s with
    writeStructure := w
    countStructures := s.countStructures + 1
    countSelected := if w then s.countSelected + 1 else s.countSelected }

/-- nnp-select.cpp:107-125. -/
noncomputable def SelectState.onKey (mode : SelectMode) (s : SelectState) (key : Str) :
    Option SelectState :=
  if key = keyBegin then s.onBegin mode else some s

/-- nnp-select.cpp:126-133. -/
def SelectState.put (s : SelectState) (line : Str) : SelectState :=
  if s.writeStructure then { s with output := s.output ++ [line] }
  else { s with reject := s.reject ++ [line] }

/-- nnp-select.cpp:105-134, one line. `none`: exception of `at(0)`, or undefined behaviour. -/
noncomputable def SelectState.line (mode : SelectMode) (s : SelectState) (line : Str) :
    Option SelectState := do
  let key ← firstWord line
  let s ← s.onKey mode key
  some (s.put line)

/-- nnp-select.cpp:101-137. -/
noncomputable def select (mode : SelectMode) (file : List Str) : Option SelectState :=
  file.foldlM (fun s l => s.line mode l) SelectState.start

end N2P2
