import Verif.Model.LearningCurve

/-! Neighbour lists and atomic environments in files: Dataset.cpp:1466-1710 and nnp-atomenv.cpp:73-87. -/

namespace N2P2

/-- Dataset.cpp:1466-1488 `sortNeighborLists` for one structure, before and after: `sort` with
`Atom::Neighbor::operator<` (Atom.cpp:600-610), which compares distances (elements are commented out). -/
def SortsNeighbors (s t : Structure) : Prop :=
  t = { s with atoms := t.atoms } ∧
    List.Forall₂ (fun a b : Atom => b = { a with neighbors := b.neighbors } ∧
      a.neighbors.Perm b.neighbors ∧ b.neighbors.Pairwise fun m n => m.d ≤ n.d) s.atoms t.atoms

/-! ### writeNeighborLists -/

/-- Dataset.cpp:1507-1518: line of an atom. `Z` is `elementMap.atomicNumber`, `k` is `numElements`. `none`: `at`
throws, or the buffer is too short. -/
def neighborListAtom (Z : ℕ → ℕ) (k : ℕ) (a : Atom) : Option Str := do
  let first ← strpr (natText (Z a.element))
  let counts ← (List.range k).mapM fun i => do
    let c ← a.numNeighborsPerElement[i]?
    strpr (' ' :: natText c)
  let list ← a.neighbors.mapM fun n => strpr (' ' :: natText n.index)
  some (first ++ counts.flatten ++ list.flatten ++ ['\n'])

/-- Dataset.cpp:1501-1520: text of a process. -/
def neighborListText (Z : ℕ → ℕ) (k : ℕ) (structures : List Structure) : Option Str := do
  let ts ← structures.mapM fun s => do
    let first ← strpr (natText s.numAtoms ++ ['\n'])
    let lines ← s.atoms.mapM (neighborListAtom Z k)
    some (first ++ lines.flatten)
  some ts.flatten

/-- Dataset.cpp:1490-1534 `writeNeighborLists`, all processes together. -/
def writeNeighborLists (Z : ℕ → ℕ) (k : ℕ) (file : Str) (procs : List (List Structure)) (fs : Files) :
    Option Files := do
  let texts ← procs.mapM (neighborListText Z k)
  comparisonFile file texts fs

/-! ### writeAtomicEnvironmentFile -/

/-- What is written for an atom to the files with symmetry functions and the three files with
derivatives. (Without `derivatives` the latter are not open and the text vanishes.) -/
structure EnvText where
  G : Str
  d : Fin 3 → Str

def EnvText.add (t u : EnvText) : EnvText := ⟨t.G ++ u.G, fun c => t.d c ++ u.d c⟩

/-- Dataset.cpp:1606-1611 and alike: numbers with `%16.8E`. -/
noncomputable def envFields (N : NumberText) (xs : List ℝ) : Except Fault Str := do
  let fs ← orUndefined (xs.mapM fun x => strpr (' ' :: padLeft 16 (N.print x)))
  .ok fs.flatten

/-- Dataset.cpp:1614-1620 and 1648-1655. -/
noncomputable def envVectors (N : NumberText) (vs : List Vec3) : Except Fault (Fin 3 → Str) := do
  let x ← envFields N (vs.map (· 0))
  let y ← envFields N (vs.map (· 1))
  let z ← envFields N (vs.map (· 2))
  .ok ![x, y, z]

/-- Dataset.cpp:1638-1656: `b` is the neighbour, the derivatives are those of the first entry for `a` in its list. If there is
none, `end()` is used (undefined). -/
noncomputable def envMutual (N : NumberText) (a b : Atom) : Except Fault (Fin 3 → Str) := do
  let n ← orUndefined (b.neighbors.find? fun n => n.index = a.index)
  envVectors N n.dGdr

/-- `if (derivatives)`. -/
def onlyDerivatives (derivatives : Bool) (text : Except Fault (Fin 3 → Str)) : Except Fault (Fin 3 → Str) :=
  if derivatives then text else .ok fun _ => []

/-- Dataset.cpp:1622-1659: one neighbour. The state is `neighCount` and the text so far; `cut` is
`neighCutoff.at(ea)`. -/
noncomputable def envNeighbor (N : NumberText) (cut : List ℕ) (derivatives : Bool) (s : Structure)
    (a : Atom) (st : List ℕ × EnvText) (n : Neighbor) : Except Fault (List ℕ × EnvText) := do
  let c ← orThrow st.1[n.element]?
  let m ← orThrow cut[n.element]?
  if c < m then do
    let b ← orThrow s.atoms[n.index]?
    let g ← envFields N b.G
    let d ← onlyDerivatives derivatives (envMutual N a b)
    .ok (st.1.set n.element (c + 1), st.2.add ⟨g, d⟩)
  else .ok st

/-- Dataset.cpp:1589-1600. -/
def envEnough (k : ℕ) (cut : List ℕ) (a : Atom) : Except Fault Unit :=
  (List.range k).forM fun i => do
    let c ← orThrow a.numNeighborsPerElement[i]?
    let m ← orThrow cut[i]?
    if c < m then .error .exception else .ok ()

/-- Dataset.cpp:1586-1670: one atom. `sym` is `elementMap[...]`. (`neighCount` is zero at the start and set
to zero after each atom.) -/
noncomputable def envAtom (N : NumberText) (sym : ℕ → Str) (k : ℕ) (cutoffs : List (List ℕ))
    (derivatives : Bool) (s : Structure) (a : Atom) : Except Fault EnvText := do
  let cut ← orThrow cutoffs[a.element]?
  envEnough k cut a
  let name ← orUndefined (strpr (padLeft 2 (sym a.element)))
  let g ← envFields N a.G
  let d ← onlyDerivatives derivatives (envVectors N a.dGdr)
  let r ← a.neighbors.foldlM (envNeighbor N cut derivatives s a)
    (List.replicate k 0, (⟨name, fun _ => name⟩ : EnvText).add ⟨g, d⟩)
  .ok (r.2.add ⟨['\n'], fun _ => ['\n']⟩)

/-- Dataset.cpp:1579-1672: text of a process. -/
noncomputable def envText (N : NumberText) (sym : ℕ → Str) (k : ℕ) (cutoffs : List (List ℕ))
    (derivatives : Bool) (structures : List Structure) : Except Fault EnvText := do
  let ts ← structures.mapM fun s => s.atoms.mapM (envAtom N sym k cutoffs derivatives s)
  .ok ⟨(ts.flatten.map EnvText.G).flatten, fun c => (ts.flatten.map fun t => t.d c).flatten⟩

/-- Dataset.cpp:1548-1550. -/
def envSuffix (c : Fin 3) : Str := ".dGd".toList ++ [(![ 'x', 'y', 'z' ] : Fin 3 → Char) c]

/-- Dataset.cpp:1536-1710 `writeAtomicEnvironmentFile`, all processes together. (The log with the cutoffs is left
out. Each file is combined before the next one is written, the names differ. If one process
throws, the program ends.) -/
noncomputable def writeAtomicEnvironmentFile (N : NumberText) (sym : ℕ → Str) (k : ℕ)
    (cutoffs : List (List ℕ)) (derivatives : Bool) (file : Str) (procs : List (List Structure))
    (fs : Files) : Except Fault Files := do
  let ts ← procs.mapM (envText N sym k cutoffs derivatives)
  let fs ← orThrow (comparisonFile (file ++ ".G".toList) (ts.map EnvText.G) fs)
  if derivatives then do
    let fs ← orThrow (comparisonFile (file ++ envSuffix 0) (ts.map fun t => t.d 0) fs)
    let fs ← orThrow (comparisonFile (file ++ envSuffix 1) (ts.map fun t => t.d 1) fs)
    orThrow (comparisonFile (file ++ envSuffix 2) (ts.map fun t => t.d 2) fs)
  else .ok fs

/-- nnp-atomenv.cpp:73-87: cutoffs from the arguments behind the number of bins, already
read by `atof`. Conversion of numbers below zero or above the range of `size_t` is undefined. -/
noncomputable def envCutoffs (k : ℕ) (args : List ℝ) : Except Fault (List (List ℕ)) :=
  if args.length ≠ k * k then .error .exception
  else (List.range k).mapM fun i => (List.range k).mapM fun j =>
    match args[i * k + j]? with
    | none => .error .undefined
    | some x => if -1 < x ∧ x < 2 ^ 64 then .ok ⌊x⌋₊ else .error .undefined

end N2P2
