import Mathlib.Analysis.SpecialFunctions.Trigonometric.Inverse
import Verif.Model.Convert

/-! The tool nnp-dist (nnp-dist.cpp): radial and angular distribution functions. Not modelled: the log, headers and layout of the
files, conversion of the first three arguments. -/

namespace N2P2

/-- The arguments: `cutoffRadius`, `numBins`, `calcAdf`, and the number of elements. -/
structure DistributionSetup where
  cutoff : ℝ
  bins : ℕ
  angles : Bool
  elements : ℕ

/-- nnp-dist.cpp:98. -/
noncomputable def DistributionSetup.dr (D : DistributionSetup) : ℝ := D.cutoff / D.bins

/-- nnp-dist.cpp:101. -/
noncomputable def DistributionSetup.da (D : DistributionSetup) : ℝ := 180 / D.bins

/-- Histograms by pair of elements and bin. -/
abbrev PairTable := ℕ × ℕ → ℕ → ℝ

/-- nnp-dist.cpp:105-138: the histograms of (i, j) and (j, i) are the same object. `none`: there is no histogram, a null pointer is
dereferenced. -/
def pairKey (k i j : ℕ) : Option (ℕ × ℕ) :=
  if i < k ∧ j < k then some (min i j, max i j) else none

/-- nnp-dist.cpp:105-108: all pairs, each once. -/
def elementPairs (k : ℕ) : List (ℕ × ℕ) :=
  (List.range k).flatMap fun i => (List.range' i (k - i)).map fun j => (i, j)

/-- `hist[e]->at(n) += x`. `none`: out of range. -/
noncomputable def PairTable.add (t : PairTable) (bins : ℕ) (e : ℕ × ℕ) (n : ℕ) (x : ℝ) : Option PairTable :=
  if n < bins then some (Function.update t e (Function.update (t e) n (t e n + x))) else none

/-- nnp-dist.cpp:165-178: one neighbour of an atom of element `ei`. -/
noncomputable def countDistance (D : DistributionSetup) (ei : ℕ) (t : PairTable) (nj : Neighbor) : Option PairTable := do
  let e ← pairKey D.elements ei nj.element
  t.add D.bins e ⌊nj.d / D.dr⌋₊ (if ei = nj.element then 1 else 1 / 2)

open Classical in
/-- nnp-dist.cpp:185-204: the bin of an angle. `none`: the quotient is not a number, its conversion to `size_t` is undefined. -/
noncomputable def angleBin (D : DistributionSetup) (nj nk : Neighbor) : Option ℕ :=
  if nj.d * nk.d = 0 then none
  else
    let theta := nj.dr.dot nk.dr / (nj.d * nk.d)
    if theta ≥ 1 then some 0
    else if theta ≤ -1 then some (D.bins - 1)
    else some ⌊Real.arccos theta * 180 / Real.pi / D.da⌋₊

/-- nnp-dist.cpp:182-204: one pair of neighbours of an atom of some element, whose histograms are `t`. -/
noncomputable def countAngle (D : DistributionSetup) (nj : Neighbor) (t : PairTable) (nk : Neighbor) : Option PairTable := do
  let e ← pairKey D.elements nj.element nk.element
  let n ← angleBin D nj nk
  t.add D.bins e n 1

/-- nnp-dist.cpp:163-206, angles: each pair of neighbours once. -/
noncomputable def countAngles (D : DistributionSetup) : PairTable → List Neighbor → Option PairTable
  | t, [] => some t
  | t, nj :: ns => do
    let t ← ns.foldlM (countAngle D nj) t
    countAngles D t ns

/-- What is accumulated over the structures. The histograms `rhist`, `ahist` are those of the current structure. -/
structure DistributionState where
  rhist : PairTable
  rdf : PairTable
  ahist : ℕ → PairTable
  adf : ℕ → PairTable
  count : ℕ
  periodic : ℕ
  density : ℕ → ℝ
  cells : List (ℕ × ℝ × ℝ × ℝ)

/-- nnp-dist.cpp:79-80, 98-147. -/
noncomputable def DistributionState.start : DistributionState := ⟨0, 0, 0, 0, 0, 0, 0, []⟩

/-- nnp-dist.cpp:163-206: distances and angles are counted in different histograms, so the loops are taken apart. The number of
neighbours is the length of the list. -/
noncomputable def countAtom (D : DistributionSetup) (st : DistributionState) (a : Atom) : Option DistributionState := do
  let r ← a.neighbors.foldlM (countDistance D a.element) st.rhist
  if D.angles then do
    let t ← countAngles D (st.ahist a.element) a.neighbors
    some { st with rhist := r, ahist := Function.update st.ahist a.element t }
  else some { st with rhist := r }

/-- nnp-dist.cpp:213-235: one pair of elements. `none`: out of range. -/
noncomputable def normalizePair (D : DistributionSetup) (u : Structure) (t : PairTable × PairTable) (e : ℕ × ℕ) :
    Option (PairTable × PairTable) := do
  let nni ← u.numAtomsPerElement[e.1]?
  let nnj ← u.numAtomsPerElement[e.2]?
  if nni = 0 ∨ nnj = 0 then some t
  else
    let h : ℕ → ℝ := fun n => if u.isPeriodic then t.1 e n * (u.volume / ((nni * nnj : ℕ) : ℝ)) else t.1 e n
    some (Function.update t.1 e 0,
      Function.update t.2 e fun n => t.2 e n +
        h n / (4 * Real.pi * ((n + 1 / 2) * D.dr) * ((n + 1 / 2) * D.dr) * D.dr))

open Classical in
/-- nnp-dist.cpp:245-260: one element in the middle and one pair of elements. -/
noncomputable def normalizeAngles (D : DistributionSetup) (t : PairTable × PairTable) (e : ℕ × ℕ) : PairTable × PairTable :=
  let total := ∑ n ∈ Finset.range D.bins, t.1 e n
  (Function.update t.1 e 0,
    if total > 0 then Function.update t.2 e fun n => t.2 e n + t.1 e n / total / D.da else t.2)

/-- nnp-dist.cpp:213-217: densities. `none`: out of range. -/
noncomputable def addDensity (u : Structure) (d : ℕ → ℝ) (i : ℕ) : Option (ℕ → ℝ) := do
  let nni ← u.numAtomsPerElement[i]?
  some (if u.isPeriodic then Function.update d i (d i + nni / u.volume) else d)

/-- nnp-dist.cpp:152-264: one structure, whose neighbour list is known. -/
noncomputable def countStructure (D : DistributionSetup) (st : DistributionState) (u : Structure) :
    Option DistributionState := do
  let cells := if u.isPeriodic then st.cells ++ [(st.count, (u.box 0).norm, (u.box 1).norm, (u.box 2).norm)] else st.cells
  let st ← u.atoms.foldlM (countAtom D) st
  let density ← (List.range D.elements).foldlM (addDensity u) st.density
  let t ← (elementPairs D.elements).foldlM (normalizePair D u) (st.rhist, st.rdf)
  let a := fun i => if D.angles ∧ i < D.elements then
    (elementPairs D.elements).foldl (normalizeAngles D) (st.ahist i, st.adf i) else (st.ahist i, st.adf i)
  some ⟨t.1, t.2, fun i => (a i).1, fun i => (a i).2, st.count + 1,
    if u.isPeriodic then st.periodic + 1 else st.periodic, density, cells⟩

/-- nnp-dist.cpp:148-269. At least one line is read in each round, so the number of lines is enough fuel. -/
noncomputable def distributionLoop (N : NumberText) (m : EMap) (srt : List Neighbor → List Neighbor) (D : DistributionSetup) :
    ℕ → Structure → DistributionState → List Str → Option DistributionState
  | 0, _, st, _ => some st
  | fuel + 1, s, st, file =>
    if file = [] then some st
    else do
      let r ← s.readFromFile N m file
      let u ← r.1.calculateNeighborList srt D.cutoff false
      let st ← countStructure D st u
      distributionLoop N m srt D fuel (u.reset m.size) st r.2

/-- A line of a file with a distribution function. `scaled`: normalized to maximum 1 (`none`: not a number); `cn`: coordination
number, if it is there. -/
structure DistributionRow where
  low : ℝ
  high : ℝ
  value : ℝ
  scaled : Option ℝ
  cn : Option ℝ

/-- Elements of `v` from 0 to `n` (std::max_element). -/
noncomputable def largest (v : ℕ → ℝ) : ℕ → ℝ
  | 0 => v 0
  | n + 1 => max (largest v n) (v (n + 1))

open Classical in
/-- nnp-dist.cpp:399, 409, 478, 489. `none`: division by zero. -/
noncomputable def valueOfMaximum (v : ℕ → ℝ) (bins n : ℕ) : Option ℝ :=
  if largest v (bins - 1) = 0 then none else some (v n / largest v (bins - 1))

/-- nnp-dist.cpp:396-398, 410-418: the coordination number in line `n`; `v` is the sum of the distribution functions of all `count`
structures. -/
noncomputable def coordination (D : DistributionSetup) (count : ℕ) (density : ℝ) (v : ℕ → ℝ) : ℕ → ℝ
  | 0 => 0
  | n + 1 => coordination D count density v n +
      4 * Real.pi * D.dr * (1 / 2) / count / count * (((n : ℝ) + 1 + 1 / 2) * D.dr) * (((n : ℝ) + 1 + 1 / 2) * D.dr) * density *
        (v n + v (n + 1))

/-- nnp-dist.cpp:395-420. -/
noncomputable def rdfRows (D : DistributionSetup) (st : DistributionState) (e : ℕ × ℕ) : List DistributionRow :=
  (List.range D.bins).map fun n : ℕ =>
    ⟨(n : ℝ) * D.dr, ((n : ℝ) + 1) * D.dr, st.rdf e n / st.count, valueOfMaximum (st.rdf e) D.bins n,
      if st.count = st.periodic then some (coordination D st.count (st.density e.2) (st.rdf e) n) else none⟩

/-- nnp-dist.cpp:478-490. -/
noncomputable def adfRows (D : DistributionSetup) (st : DistributionState) (i : ℕ) (e : ℕ × ℕ) : List DistributionRow :=
  (List.range D.bins).map fun n : ℕ =>
    ⟨(n : ℝ) * D.da, ((n : ℝ) + 1) * D.da, st.adf i e n / st.count, valueOfMaximum (st.adf i e) D.bins n, none⟩

/-- The files: names and lines. `cells` is `cell-lengths.out` (number of the structure, lengths of the box vectors). -/
structure DistributionFiles where
  rdf : List (Str × List DistributionRow)
  adf : List (Str × List DistributionRow)
  cells : List (ℕ × ℝ × ℝ × ℝ)

/-- nnp-dist.cpp:350-352. `none`: no such element. -/
def rdfName (m : EMap) (e : ℕ × ℕ) : Option Str := do
  let a ← (m.symbol e.1).toOption
  let b ← (m.symbol e.2).toOption
  some ("rdf_".toList ++ a ++ '_' :: b ++ ".out".toList)

/-- nnp-dist.cpp:435-438. -/
def adfName (m : EMap) (i : ℕ) (e : ℕ × ℕ) : Option Str := do
  let a ← (m.symbol i).toOption
  let b ← (m.symbol e.1).toOption
  let c ← (m.symbol e.2).toOption
  some ("adf_".toList ++ a ++ '_' :: b ++ '_' :: c ++ ".out".toList)

/-- nnp-dist.cpp:34-504. `none`: the program ends with an error or its behaviour is undefined. Without elements, `argv[4]` (63) is a
null pointer. -/
noncomputable def distribution (N : NumberText) (srt : List Neighbor → List Neighbor) (cutoff : ℝ) (bins : ℕ) (angles : Bool)
    (args : List Str) (file : List Str) : Option DistributionFiles :=
  if args = [] then none
  else do
    let m ← (EMap.empty.registerElements (joinWords args)).toOption
    let D : DistributionSetup := ⟨cutoff, bins, angles, args.length⟩
    let st ← distributionLoop N m.1 srt D file.length (Structure.init.setElementMap m.1) .start file
    let rdf ← (elementPairs args.length).mapM fun e => (rdfName m.1 e).map fun w => (w, rdfRows D st e)
    let adf ← (if angles then (List.range args.length).flatMap fun i => (elementPairs args.length).map fun e => (i, e)
      else []).mapM fun p : ℕ × ℕ × ℕ => (adfName m.1 p.1 p.2).map fun w => (w, adfRows D st p.1 p.2)
    some ⟨rdf, adf, st.cells.map fun c => (c.1 + 1, c.2)⟩

end N2P2
