import Mathlib.Data.Real.Basic
import Mathlib.Data.List.Perm.Basic

/-! Training set selection, epoch schedule and choice of update candidates. `double` is ℝ,
`size_t` is ℕ. The random number generators are input sequences, `std::shuffle` gives any
permutation. -/

namespace N2P2

namespace Training

/-- Structure.h:42-56 `SampleType`. -/
inductive SampleType
  | unknown | training | validation | test
  deriving DecidableEq

/-- Mode.h `NNPType`. -/
inductive NNPType
  | HDNNP_2G | HDNNP_4G | HDNNP_Q
  deriving DecidableEq

/-- Keys of the property map `p` (Training.cpp:4108-4129: all other keys throw). -/
inductive Key
  | energy | force | charge
  deriving DecidableEq

/-- The members of `Structure` used here; `atoms` lists the `index` members of the atoms. -/
structure Struct where
  sampleType : SampleType
  numAtoms : ℕ
  atoms : List ℕ

/-- Training.h:369-382 `SubCandidate`. The error is left out: it is used only for sorting. -/
structure SubCandidate where
  a : ℕ
  c : ℕ
  deriving DecidableEq

/-- Training.h:384-402 `UpdateCandidate`. The error is left out: it is used only for sorting. -/
structure UpdateCandidate where
  s : ℕ
  posSubCandidates : ℕ
  subCandidates : List SubCandidate
  deriving DecidableEq

/-- Training.h:405-483 `Property`: the members set by `selectSets`. -/
structure Property where
  numTrainPatterns : ℕ
  numTestPatterns : ℕ
  updateCandidates : List UpdateCandidate

/-- Training.cpp:4085-4107 the constructor. -/
def Property.init : Property := ⟨0, 0, []⟩

/-- Training.h:486-500 `PropertyMap`; `none` means that the key is absent. -/
abbrev PropertyMap := Key → Option Property

/-- `if (p.exists(k)) f(p[k])`. -/
def PropertyMap.ifExists (p : PropertyMap) (k : Key) (f : Property → Property) : PropertyMap :=
  fun k' => if k' = k then (p k').map f else p k'

/-- `numTestPatterns += n`. -/
def Property.addTest (n : ℕ) (q : Property) : Property :=
  { q with numTestPatterns := q.numTestPatterns + n }

/-- `numTrainPatterns += n`. -/
def Property.addTrain (n : ℕ) (q : Property) : Property :=
  { q with numTrainPatterns := q.numTrainPatterns + n }

/-- `updateCandidates.push_back(UpdateCandidate()); updateCandidates.back().s = i;`. The new
candidate is value-initialised, hence all zero. -/
def Property.pushCandidate (i : ℕ) (q : Property) : Property :=
  { q with updateCandidates := q.updateCandidates ++ [⟨i, 0, []⟩] }

/-- Apply `f` to `back()`. For an empty vector `back()` is undefined; in `selectSets` it is only
used after a `push_back`. -/
def modifyBack {α : Type} (f : α → α) (l : List α) : List α :=
  l.dropLast ++ (l.getLast?.map f).toList

/-- `updateCandidates.back().subCandidates.push_back(SubCandidate());` followed by setting `a` and
`c` of the new entry. -/
def Property.pushSub (a c : ℕ) (q : Property) : Property :=
  { q with updateCandidates := (modifyBack
      (fun u => { u with subCandidates := u.subCandidates ++ [⟨a, c⟩] }) q.updateCandidates) }

/-- Training.cpp:151-167 the loop over atoms and components for property "force". -/
def forceCandidates (nnp : NNPType) (i : ℕ) (atoms : List ℕ) (q : Property) : Property :=
  atoms.foldl (fun q a => [0, 1, 2].foldl (fun q j =>
    let q := if nnp ≠ .HDNNP_4G then q.pushCandidate i else q
    q.pushSub a j) q) q

/-- Training.cpp:181-190 the loop over atoms for property "charge". The member `c` keeps its initial
value 0. -/
def chargeCandidates (i : ℕ) (atoms : List ℕ) (q : Property) : Property :=
  atoms.foldl (fun q a => (q.pushCandidate i).pushSub a 0) q

/-- Training.cpp:113-199 the part of the loop body after the sample type is known. The log messages
and the atom count per element, used only for a warning, are left out. -/
def registerStructure (nnp : NNPType) (i : ℕ) (s : Struct) (p : PropertyMap) : PropertyMap :=
  match s.sampleType with
  | .test =>
    let p := p.ifExists .energy (·.addTest 1)
    let p := p.ifExists .force (·.addTest (3 * s.numAtoms))
    if nnp = .HDNNP_4G then p.ifExists .charge (·.addTest 1)
    else p.ifExists .charge (·.addTest s.numAtoms)
  | .training =>
    let p := p.ifExists .energy fun q => (q.addTrain 1).pushCandidate i
    let p := p.ifExists .force fun q =>
      let q := q.addTrain (3 * s.numAtoms)
      let q := if nnp = .HDNNP_4G then q.pushCandidate i else q
      forceCandidates nnp i s.atoms q
    p.ifExists .charge fun q =>
      if nnp = .HDNNP_4G then (q.addTrain 1).pushCandidate i
      else chargeCandidates i s.atoms (q.addTrain s.numAtoms)
  | _ => p

open Classical in
/-- Training.cpp:107-112 an undetermined structure gets its set. -/
noncomputable def assign (testSetFraction r : ℝ) (s : Struct) : Struct :=
  { s with sampleType := if r < testSetFraction then .test else .training }

open Classical in
/-- Training.cpp:103-200 the loop over structures. `i` is the structure index, `n` the count of
random numbers drawn so far from the sequence `rnd`. -/
noncomputable def selectLoop (nnp : NNPType) (testSetFraction : ℝ) (rnd : ℕ → ℝ) :
    ℕ → ℕ → List Struct → PropertyMap → List Struct × PropertyMap
  | _, _, [], p => ([], p)
  | i, n, s :: rest, p =>
    let s' := if s.sampleType = .unknown then assign testSetFraction (rnd n) s else s
    let n' := if s.sampleType = .unknown then n + 1 else n
    let r := selectLoop nnp testSetFraction rnd (i + 1) n' rest (registerStructure nnp i s' p)
    (s' :: r.1, r.2)

/-- Training.cpp:82-228 `selectSets` on one process before the `MPI_Allreduce`. -/
noncomputable def selectSets (nnp : NNPType) (testSetFraction : ℝ) (rnd : ℕ → ℝ)
    (structures : List Struct) (p : PropertyMap) : List Struct × PropertyMap :=
  selectLoop nnp testSetFraction rnd 0 0 structures p

/-- Training.cpp:214-215 `MPI_Allreduce` of `numTrainPatterns`, `numTestPatterns`: each process gets
the sum over all processes. Absent keys are not in `pk` and not reduced. -/
def allreducePatterns (ps : List PropertyMap) (k : Key) : ℕ × ℕ :=
  ((ps.map fun p => ((p k).map (·.numTrainPatterns)).getD 0).sum,
   (ps.map fun p => ((p k).map (·.numTestPatterns)).getD 0).sum)

/-! ### Epoch schedule -/

/-- Training.cpp:2095-2098 the schedule before shuffling. `numUpdates` lists `p[pk.at(i)].numUpdates`
for all `i`; the loop runs from the last property to the first. -/
def buildSchedule (numUpdates : List ℕ) : List ℕ :=
  (List.range numUpdates.length).reverse.foldl
    (fun sched i => sched ++ List.replicate (numUpdates.getD i 0) i) []

/-- Training.cpp:2086-2112 `setEpochSchedule`: `sched` is a possible content of `epochSchedule`
afterwards. -/
def SetEpochSchedule (numUpdates : List ℕ) (sched : List ℕ) : Prop :=
  if numUpdates.length = 1 then sched = buildSchedule numUpdates
  else sched.Perm (buildSchedule numUpdates)

/-- Training.cpp:2191, 2208-2213 the update counters of the properties during an epoch: set to zero,
then each scheduled update adds one to its property. -/
def epochCounts (sched : List ℕ) : ℕ → ℕ :=
  sched.foldl (fun count i => Function.update count i (count i + 1)) fun _ => 0

/-! ### Choice of update candidates -/

/-- Training.h `SelectionMode`. -/
inductive SelectionMode
  | random | sort | threshold
  deriving DecidableEq

/-- How choosing a candidate can fail. -/
inductive SelectError
  /-- `at()` throws: the list of candidates is empty. -/
  | outOfRange
  /-- The pointer to the current candidate was never set and is dereferenced. -/
  | nullPointer
  deriving DecidableEq

/-- The local variables of the trial loop in `update` and the position counter `*posCandidates`.
Candidates are named by their position in the list. -/
structure Trial where
  /-- `*posCandidates`. -/
  pos : ℕ
  /-- The candidate `c` (or sub-candidate `sC`) used for error and Jacobian. -/
  used : Option ℕ
  /-- `currentUpdateCandidates.at(b)`. -/
  current : ℕ
  /-- `indexBest`. -/
  indexBest : ℕ
  /-- `rmseFractionBest`. -/
  best : ℝ
  /-- `il`. -/
  il : ℕ

open Classical in
/-- Training.cpp:2309-2475 the trial loop with `n` trials left. `size` is the length of the candidate
list, `rmse` the error fraction of each candidate; the networks do not change during the loop, so it
is a function of the candidate. Memory handling is left out. Non-threshold modes leave the loop after
the first pass. -/
noncomputable def trialLoop (mode : SelectionMode) (size : ℕ) (rmse : ℕ → ℝ) (threshold : ℝ) :
    ℕ → Trial → Except SelectError Trial
  | 0, t => .ok t
  | n + 1, t =>
    let pos := if size ≤ t.pos then 0 else t.pos
    if size ≤ pos then .error .outOfRange
    else if mode = .threshold then
      if threshold < rmse pos then
        .ok { t with pos := pos + 1, used := some pos, current := pos }
      else
        trialLoop mode size rmse threshold n
          { pos := pos + 1, used := some pos, current := pos, il := t.il + 1
            indexBest := if t.best < rmse pos then pos else t.indexBest
            best := if t.best < rmse pos then rmse pos else t.best }
    else .ok { t with pos := pos + 1, used := some pos, current := pos }

/-- Outcome of choosing one candidate. -/
structure Choice where
  /-- Candidate used for error and Jacobian. -/
  used : ℕ
  /-- Candidate index kept for the training log. -/
  logged : ℕ
  /-- Number of candidates rejected (column of the training log). -/
  loopCount : ℕ
  /-- Position counter afterwards. -/
  pos : ℕ

open Classical in
/-- Training.cpp:2296-2494 choice of the candidate for one element of the batch, starting at position
`pos`. If no trial succeeded, line 2483 sets only the logged index to the best one; `c` stays the
last candidate tried. Line 2487 dereferences `c`, which is `NULL` if there were no trials. -/
noncomputable def choose (mode : SelectionMode) (size : ℕ) (rmse : ℕ → ℝ) (threshold : ℝ)
    (rmseThresholdTrials pos : ℕ) : Except SelectError Choice :=
  let trials := if mode = .threshold then rmseThresholdTrials else 1
  match trialLoop mode size rmse threshold trials ⟨pos, none, 0, 0, 0, 0⟩ with
  | .error e => .error e
  | .ok t =>
    let logged := if mode = .threshold ∧ t.il = trials then t.indexBest else t.current
    match t.used with
    | none => .error .nullPointer
    | some u => .ok ⟨u, logged, t.il, t.pos⟩

/-- The candidates used by one `update` with batch size `b` (Training.cpp:2296-2494, random or sorted
selection), in order, and the position afterwards. -/
noncomputable def chooseBatch (size : ℕ) :
    ℕ → ℕ → Except SelectError (List ℕ × ℕ)
  | 0, pos => .ok ([], pos)
  | b + 1, pos =>
    match choose .random size (fun _ => 0) 0 0 pos with
    | .error e => .error e
    | .ok c =>
      match chooseBatch size b c.pos with
      | .error e => .error e
      | .ok (l, pos') => .ok (c.used :: l, pos')

/-- A training epoch seen from one property (Training.cpp:2197-2213): the position is reset by the
shuffle or sort, then the updates run one after the other; `batches` lists their batch sizes. The
result lists the candidates used. -/
noncomputable def chooseEpochFrom {α : Type} (cands : List α) :
    List ℕ → ℕ → Except SelectError (List α)
  | [], _ => .ok []
  | b :: rest, pos =>
    match chooseBatch cands.length b pos with
    | .error e => .error e
    | .ok (l, pos') =>
      match chooseEpochFrom cands rest pos' with
      | .error e => .error e
      | .ok l' => .ok (l.filterMap (cands[·]?) ++ l')

/-- An epoch starting at position 0 with the list `cands` as shuffled. -/
noncomputable def chooseEpoch {α : Type} (cands : List α) (batches : List ℕ) :
    Except SelectError (List α) :=
  chooseEpochFrom cands batches 0

/-- Training.cpp:2062-2084 `shuffleUpdateCandidates`: any permutation of the candidates. -/
def Shuffled {α : Type} (before after : List α) : Prop := after.Perm before

/-! ### Grouped force candidates (HDNNP-4G) -/

/-- Position counters of a property with sub-candidates. -/
structure Group where
  /-- `posUpdateCandidates`. -/
  pos : ℕ
  /-- `posSubCandidates` of each candidate. -/
  sub : ℕ → ℕ
  /-- `countGroupedSubCand`. -/
  count : ℕ
  /-- `numGroupedSubCand`. -/
  numGrouped : ℕ

/-- Training.cpp:2312-2336, 2468-2512 one batch element with `useSubCandidates`, random or sorted
selection: candidate and sub-candidate used. `nsub` gives the number of sub-candidates of each
candidate, `groupSize` the value of `numGroupedSubCand` for a new group (a fraction of `nsub`,
reduced over the processes, hence arbitrary here). -/
def groupStep (size : ℕ) (nsub groupSize : ℕ → ℕ) (g : Group) :
    Except SelectError ((ℕ × ℕ) × Group) :=
  let pos := if size ≤ g.pos then 0 else g.pos
  if size ≤ pos then .error .outOfRange
  else
    let sp := if nsub pos ≤ g.sub pos then 0 else g.sub pos
    if nsub pos ≤ sp then .error .outOfRange
    else .ok ((pos, sp),
      { pos := pos
        sub := Function.update g.sub pos (sp + 1)
        numGrouped := if g.count = 0 then groupSize pos else g.numGrouped
        count := g.count + 1 })

/-- `b` batch elements. -/
def groupBatch (size : ℕ) (nsub groupSize : ℕ → ℕ) :
    ℕ → Group → Except SelectError (List (ℕ × ℕ) × Group)
  | 0, g => .ok ([], g)
  | b + 1, g =>
    match groupStep size nsub groupSize g with
    | .error e => .error e
    | .ok (x, g') =>
      match groupBatch size nsub groupSize b g' with
      | .error e => .error e
      | .ok (l, g'') => .ok (x :: l, g'')

/-- Training.cpp:3144-3151 moving on to the next candidate at the end of `update`. -/
def groupAdvance (g : Group) : Group :=
  if g.numGrouped ≤ g.count then { g with count := 0, numGrouped := 0, pos := g.pos + 1 } else g

/-- A sequence of updates with the given batch sizes. -/
def groupEpochFrom (size : ℕ) (nsub groupSize : ℕ → ℕ) :
    List ℕ → Group → Except SelectError (List (ℕ × ℕ) × Group)
  | [], g => .ok ([], g)
  | b :: rest, g =>
    match groupBatch size nsub groupSize b g with
    | .error e => .error e
    | .ok (l, g') =>
      match groupEpochFrom size nsub groupSize rest (groupAdvance g') with
      | .error e => .error e
      | .ok (l', g'') => .ok (l ++ l', g'')

/-! ### Training log -/

/-- Training.cpp:3059-3085 what is written to the training log for a chosen candidate:
structure, atom and component. Atom and component are set only with `useSubCandidates`; otherwise
they keep the initial value 0. `index` is `currentUpdateCandidates.at(i)`, `pos` the position of the
candidate list. `none` is the exception of `at()`. -/
def logEntry (useSub : Bool) (cands : List UpdateCandidate) (pos index : ℕ) :
    Option (ℕ × ℕ × ℕ) :=
  if useSub then do
    let c ← cands[pos]?
    let sc ← c.subCandidates[index]?
    some (c.s, sc.a, sc.c)
  else do
    let c ← cands[index]?
    some (c.s, 0, 0)

end Training

end N2P2
