import Mathlib.Analysis.SpecialFunctions.Trigonometric.Arctan
import Verif.Model.SymFncSetup

/-! The interface to CabanaMD (libnnpif/CabanaMD): symmetry functions, their groups and scaling, the
atomic networks and the forces. The Kokkos views are zero after allocation. Parallel loops run in
sequence. `neighbor_parallel_for` of Cabana calls its function for all local atoms and all their
neighbours, or all pairs of neighbours in order of the list. Entries of the slice `G` are as many
as needed. `none` stands for an exception or undefined behaviour. -/

namespace N2P2

/-- typesCabana.h:21 `CFLENGTH`, Bohr per Angstrom. -/
noncomputable def CFLENGTH : ℝ := 1.889726

/-- typesCabana.h:22 `CFENERGY`, Hartree per electron volt. -/
noncomputable def CFENERGY : ℝ := 0.036749

/-- typesCabana.h:23 `CFFORCE`. -/
noncomputable def CFFORCE : ℝ := CFLENGTH / CFENERGY

/-! ### Symmetry functions -/

/-- A row of `SF`: columns 0 to 8. (Column 9 is not used by the kernels, columns 10 and 11 hold the
cutoff function, which is the same for all rows.) -/
structure CabanaRow where
  ec : ℕ
  type : ℕ
  e1 : ℕ
  e2 : ℕ
  eta : ℝ
  lambda : ℝ
  zeta : ℝ
  rc : ℝ
  rs : ℝ

/-- A row as allocated. -/
noncomputable def CabanaRow.zero : CabanaRow := ⟨0, 0, 0, 0, 0, 0, 0, 0, 0⟩

/-- ElementCabana_impl.h:54-59: index of a symbol; `el` keeps its value if the symbol is not found.
-/
def cabanaElement (names : List Str) (s : Str) (el : ℕ) : ℕ :=
  names.zipIdx.foldl (fun el p => if p.1 = s then p.2 else el) el

/-- ElementCabana_impl.h:51-83, type 2. The rows start as zeros. -/
noncomputable def cabanaRadialLine (E : SFEnv) (names : List Str) (c : ℝ) (tok : List Str) :
    Option CabanaRow := do
  let s0 ← tok[0]?
  let ec := cabanaElement names s0 0
  let s1 ← tok[2]?
  let e1 := cabanaElement names s1 ec
  let eta ← E.num tok 3
  let rs ← E.num tok 4
  let rc ← E.num tok 5
  some ⟨ec, 2, e1, 100000, eta / (c * c), 0, 0, rc * c, rs * c⟩

/-- ElementCabana_impl.h:85-147, type 3. -/
noncomputable def cabanaAngularLine (E : SFEnv) (names : List Str) (c : ℝ) (tok : List Str) :
    Option CabanaRow := do
  let s0 ← tok[0]?
  let ec := cabanaElement names s0 0
  let s1 ← tok[2]?
  let e1 := cabanaElement names s1 ec
  let s2 ← tok[3]?
  let e2 := cabanaElement names s2 e1
  let eta ← E.num tok 4
  let lambda ← E.num tok 5
  let zeta ← E.num tok 6
  let rc ← E.num tok 7
  let rs := ((E.num tok 8).map (· * c)).getD 0
  some ⟨ec, 3, if e2 < e1 then e2 else e1, if e2 < e1 then e1 else e2, eta / (c * c), lambda, zeta,
    rc * c, rs⟩

/-- ElementCabana_impl.h:40-166 `addSymmetryFunction` for the tokens of a line. The rows of the
element, with a row added or, for the types 9, 12 and 13, as before. -/
noncomputable def cabanaAddRow (E : SFEnv) (names : List Str) (c : ℝ) (rows : List CabanaRow)
    (tok : List Str) : Option (List CabanaRow) := do
  let ty ← tok[1]?
  if E.atoi ty = 2 then
    (cabanaRadialLine E names c tok).map (rows ++ [·])
  else if E.atoi ty = 3 then
    (cabanaAngularLine E names c tok).map (rows ++ [·])
  else if E.atoi ty = 9 ∨ E.atoi ty = 12 ∨ E.atoi ty = 13 then some rows
  else none

/-- ModeCabana_impl.h:151-166: a line is handed to the element of its first word (the first element
if there is no such element). -/
noncomputable def cabanaAddLine (E : SFEnv) (names : List Str) (c : ℝ)
    (tables : List (List CabanaRow)) (tok : List Str) : Option (List (List CabanaRow)) := do
  let s0 ← tok[0]?
  let type := cabanaElement names s0 0
  let rows ← tables[type]?
  let rows ← cabanaAddRow E names c rows tok
  some (tables.set type rows)

/-- ModeCabana_impl.h:119-166: the rows of all elements. -/
noncomputable def cabanaRows (E : SFEnv) (names : List Str) (c : ℝ) (lines : List (List Str)) :
    Option (List (List CabanaRow)) :=
  lines.foldlM (cabanaAddLine E names c) (List.replicate names.length [])

/-- ElementCabana_impl.h:205-267 `compareSF(a, b)`: does `b` come before `a`? The columns 11 and 12
compared in between are zero at this point. -/
def cabanaCompare (a b : CabanaRow) : Prop :=
  SymFnc.lexStep b.ec a.ec <| SymFnc.lexStep b.type a.type <| SymFnc.lexStep b.rc a.rc <|
  SymFnc.lexStep b.eta a.eta <| SymFnc.lexStep b.rs a.rs <| SymFnc.lexStep b.zeta a.zeta <|
  SymFnc.lexStep b.lambda a.lambda <| SymFnc.lexStep b.e1 a.e1 <| SymFnc.lexStep b.e2 a.e2 False

open Classical in
/-- ElementCabana_impl.h:182-191: move the new entry down by exchanges. `done` is the sorted part,
last entry first. -/
noncomputable def cabanaInsert (rows : ℕ → CabanaRow) (i : ℕ) : List ℕ → List ℕ
  | [] => [i]
  | k :: done =>
    if cabanaCompare (rows k) (rows i) then k :: cabanaInsert rows i done else i :: k :: done

/-- ElementCabana_impl.h:168-191: the array `h_SFsort`. -/
noncomputable def cabanaSort (rows : ℕ → CabanaRow) (n : ℕ) : List ℕ :=
  ((List.range n).foldl (fun done i => cabanaInsert rows i done) []).reverse

/-- ElementCabana_impl.h:193-199: column 14, the position of a row in the order. -/
def cabanaRank (order : List ℕ) : ℕ → ℕ :=
  order.zipIdx.foldl (fun r p => Function.update r p.1 p.2) fun _ => 0

/-- ElementCabana_impl.h:326-344: same neighbour elements and cutoff radius. (The columns of the
cutoff function are equal.) -/
def CabanaRow.SameGroup (a b : CabanaRow) : Prop :=
  a.ec = b.ec ∧ a.e1 = b.e1 ∧ a.e2 = b.e2 ∧ a.rc = b.rc

open Classical in
/-- ElementCabana_impl.h:321-387: enter row `k` in the first group it fits in, or in a new one. (The
members of a group are of one type, as column 3 is 100000 for type 2, so that both counters are the
number of members.) -/
noncomputable def cabanaEnter (rows : ℕ → CabanaRow) (k : ℕ) : List (List ℕ) → List (List ℕ)
  | [] => [[k]]
  | g :: gs =>
    if (rows k).SameGroup (rows (g.headD 0)) then (g ++ [k]) :: gs else g :: cabanaEnter rows k gs

/-- ElementCabana_impl.h:307-391 `setupSymmetryFunctionGroups`. -/
noncomputable def cabanaGroups (rows : ℕ → CabanaRow) (order : List ℕ) : List (List ℕ) :=
  order.foldl (fun gs k => cabanaEnter rows k gs) []

/-! ### Scaling -/

/-- A row of `SFscaling` (the columns used by the kernels). -/
structure CabanaScaling where
  Gmin : ℝ
  Gmean : ℝ
  Smin : ℝ
  factor : ℝ
  type : ScalingType

/-- A row as allocated. -/
noncomputable def CabanaScaling.zero : CabanaScaling := ⟨0, 0, 0, 0, .none⟩

/-- ElementCabana.h:282-324 `setScalingType`. -/
noncomputable def cabanaScaling (t : ScalingType) (l : StatisticsLine) (Smin Smax : ℝ) :
    CabanaScaling :=
  { Gmin := l.gmin
    Gmean := l.gmean
    Smin := Smin
    factor := match t with
      | .none => 1
      | .scale => (Smax - Smin) / (l.gmax - l.gmin)
      | .center => 1
      | .scaleCenter => (Smax - Smin) / (l.gmax - l.gmin)
      | .scaleSigma => (Smax - Smin) / l.gsigma.getD 0
    type := t }

/-- ElementCabana_impl.h:431-449 `setScaling`: line `k` belongs to row number `k` in the order. -/
noncomputable def cabanaSetScaling (t : ScalingType) (Smin Smax : ℝ) (order : List ℕ)
    (lines : List StatisticsLine) : Option (ℕ → CabanaScaling) :=
  order.zipIdx.foldlM (fun sc p => do
    let l ← lines[p.2]?
    some (Function.update sc p.1 (cabanaScaling t l Smin Smax))) fun _ => .zero

/-- ModeCabana.h:314-341 `scale`. -/
noncomputable def CabanaScaling.scale (s : CabanaScaling) (v : ℝ) : ℝ :=
  match s.type with
  | .none => v
  | .scale => s.Smin + s.factor * (v - s.Gmin)
  | .center => v - s.Gmean
  | .scaleCenter => s.Smin + s.factor * (v - s.Gmean)
  | .scaleSigma => s.Smin + s.factor * (v - s.Gmean)

/-- The views of one element after the setup. -/
structure CabanaTable where
  rows : ℕ → CabanaRow
  num : ℕ
  rank : ℕ → ℕ
  groups : List (List ℕ)
  scaling : ℕ → CabanaScaling

/-- ModeCabana_impl.h:185-200, 350-366, 411-419: setup of one element from its rows, and the lines
of the scaling file left for the next elements. -/
noncomputable def cabanaTable (t : ScalingType) (Smin Smax : ℝ) (lines : List StatisticsLine)
    (rows : List CabanaRow) : Option (CabanaTable × List StatisticsLine) := do
  let view := fun k => (rows[k]?).getD .zero
  let order := cabanaSort view rows.length
  let sc ← cabanaSetScaling t Smin Smax order lines
  some (⟨view, rows.length, cabanaRank order, cabanaGroups view order, sc⟩, lines.drop rows.length)

/-- The loops over the elements. -/
noncomputable def cabanaTables (t : ScalingType) (Smin Smax : ℝ) :
    List StatisticsLine → List (List CabanaRow) → Option (List CabanaTable)
  | _, [] => some []
  | lines, rows :: rest => do
    let (table, lines) ← cabanaTable t Smin Smax lines rows
    let tables ← cabanaTables t Smin Smax lines rest
    some (table :: tables)

/-! ### Kernels -/

open Classical in
/-- ModeCabana.h:283-312 `compute_cutoff`: cutoff function and derivative. `none`: the variables
keep their values. -/
noncomputable def cabanaCutoff (t : CutoffType) (alpha r rc : ℝ) : Option (ℝ × ℝ) :=
  match t with
  | .TANHU =>
    let temp := Real.tanh (1 - r / rc)
    some (temp * temp * temp, 3 * temp * temp * (temp * temp - 1) / rc)
  | .COS =>
    let rci := rc * alpha
    let iw := 1 / (rc - rci)
    let PI := 4 * Real.arctan 1
    if r < rci then some (1, 0)
    else
      let temp := Real.cos (PI * (r - rci) * iw)
      some (0.5 * (temp + 1), -0.5 * iw * PI * √(1 - temp * temp))
  | _ => none

/-- What the kernels take: the tables, the cutoff function and the conversion factors. -/
structure Cabana where
  tables : List CabanaTable
  cutoffType : CutoffType
  cutoffAlpha : ℝ
  convLength : ℝ
  convEnergy : ℝ

/-- Positions, types and the neighbour lists of the local atoms. -/
structure CabanaAtoms where
  x : ℕ → Vec3
  type : ℕ → ℕ
  nLocal : ℕ
  neigh : ℕ → List ℕ

/-- All pairs of entries, in order of the list. -/
def listPairs {α : Type} : List α → List (α × α)
  | [] => []
  | a :: l => l.map (fun b => (a, b)) ++ listPairs l

/-- ModeCabana_impl.h:649-651: vector from `j` to `i` in internal units. -/
noncomputable def Cabana.disp (M : Cabana) (A : CabanaAtoms) (i j : ℕ) : Vec3 :=
  fun c => (A.x i c - A.x j c) * CFLENGTH * M.convLength

/-- `G(i, k) += v`. -/
noncomputable def addEntry (G : ℕ → ℝ) (k : ℕ) (v : ℝ) : ℕ → ℝ := Function.update G k (G k + v)

open Classical in
/-- ModeCabana_impl.h:636-669, one group of `calc_radial_symm_op`. -/
noncomputable def Cabana.radialGroup (M : Cabana) (T : CabanaTable) (nej : ℕ) (rij : ℝ)
    (G : ℕ → ℝ) (g : List ℕ) : ℕ → ℝ :=
  let r0 := T.rows (g.headD 0)
  if r0.type = 2 ∧ r0.e1 = nej ∧ rij < r0.rc then
    let pfcij := ((cabanaCutoff M.cutoffType M.cutoffAlpha rij r0.rc).getD (0, 0)).1
    g.foldl (fun G m =>
      let r := T.rows m
      addEntry G (T.rank m) (Real.exp (-r.eta * (rij - r.rs) * (rij - r.rs)) * pfcij)) G
  else G

/-- ModeCabana_impl.h:624-672 `calc_radial_symm_op`. -/
noncomputable def Cabana.radialOp (M : Cabana) (T : CabanaTable) (A : CabanaAtoms) (i : ℕ)
    (G : ℕ → ℝ) (j : ℕ) : ℕ → ℝ :=
  T.groups.foldl (M.radialGroup T (A.type j) (M.disp A i j).norm) G

open Classical in
/-- ModeCabana_impl.h:760-783, 1079-1098: the exponential and the power. -/
noncomputable def CabanaRow.angular (r : CabanaRow) (dij dik djk : Vec3) (plambda : ℝ) : ℝ :=
  let rij := dij.norm
  let rik := dik.norm
  let rjk := √djk.norm2
  let vexp := if 0 < r.rs then
      Real.exp (-r.eta * ((rij - r.rs) * (rij - r.rs) + (rik - r.rs) * (rik - r.rs)
        + (rjk - r.rs) * (rjk - r.rs)))
    else Real.exp (-r.eta * (dij.norm2 + dik.norm2 + djk.norm2))
  if plambda ≤ 0 then 0 else vexp * plambda ^ (r.zeta - 1)

/-- ModeCabana_impl.h:693-735, 1021-1067: is a pair of neighbours within the scope of a group? -/
def CabanaRow.InScope (r : CabanaRow) (nej nek : ℕ) (dij dik : Vec3) : Prop :=
  r.type = 3 ∧ ((r.e1 = nej ∨ r.e2 = nej) ∧ dij.norm < r.rc) ∧
    ((r.e1 = nej ∧ r.e2 = nek) ∨ (r.e2 = nej ∧ r.e1 = nek)) ∧ dik.norm < r.rc ∧
    (dik - dij).norm2 < r.rc * r.rc

open Classical in
/-- ModeCabana_impl.h:691-791, one group of `calc_angular_symm_op`. -/
noncomputable def Cabana.angularGroup (M : Cabana) (T : CabanaTable) (nej nek : ℕ)
    (dij dik : Vec3) (G : ℕ → ℝ) (g : List ℕ) : ℕ → ℝ :=
  let r0 := T.rows (g.headD 0)
  if r0.InScope nej nek dij dik then
    let fc := fun r => ((cabanaCutoff M.cutoffType M.cutoffAlpha r r0.rc).getD (0, 0)).1
    let djk := dik - dij
    let costijk := dij.dot dik * (1 / dij.norm / dik.norm)
    g.foldl (fun G m =>
      let r := T.rows m
      let plambda := 1 + r.lambda * costijk
      addEntry G (T.rank m)
        (r.angular dij dik djk plambda * plambda * fc dij.norm * fc dik.norm * fc √djk.norm2)) G
  else G

/-- ModeCabana_impl.h:678-793 `calc_angular_symm_op`. -/
noncomputable def Cabana.angularOp (M : Cabana) (T : CabanaTable) (A : CabanaAtoms) (i : ℕ)
    (G : ℕ → ℝ) (p : ℕ × ℕ) : ℕ → ℝ :=
  T.groups.foldl (M.angularGroup T (A.type p.1) (A.type p.2) (M.disp A i p.1) (M.disp A i p.2)) G

/-- ModeCabana_impl.h:799-826 `scale_symm_op`, one group. (`raw_value` is set as the type is 2 or 3.)
-/
noncomputable def CabanaTable.scaleGroup (T : CabanaTable) (G : ℕ → ℝ) (g : List ℕ) : ℕ → ℝ :=
  g.foldl (fun G m =>
    let raw := if (T.rows (g.headD 0)).type = 2 then G (T.rank m)
      else G (T.rank m) * (2 : ℝ) ^ (1 - (T.rows m).zeta)
    Function.update G (T.rank m) ((T.scaling m).scale raw)) G

/-- ModeCabana_impl.h:604-831 `calculateSymmetryFunctionGroups`: the row of `G` of local atom `i`. -/
noncomputable def Cabana.symmetryFunctions (M : Cabana) (A : CabanaAtoms) (i : ℕ) :
    Option (ℕ → ℝ) := do
  let T ← M.tables[A.type i]?
  let G := (A.neigh i).foldl (M.radialOp T A i) fun _ => 0
  let G := (listPairs (A.neigh i)).foldl (M.angularOp T A i) G
  some (T.groups.foldl T.scaleGroup G)

/-! ### Neural networks -/

/-- The views of the networks; `neurons` is `numNeuronsPerLayer`, `weights` and `bias` those of the
element of the atom. -/
structure CabanaNet where
  numLayers : ℕ
  neurons : ℕ → ℕ
  AF : ℕ → ℕ
  maxNeurons : ℕ
  weights : ℕ → ℕ → ℕ → ℕ → ℝ
  bias : ℕ → ℕ → ℕ → ℝ

/-- ModeCabana_impl.h:442-521 `setupNeuralNetwork`: sizes and activation functions. `hidden` are the
sizes of the hidden layers, `nums` the numbers of symmetry functions of the elements, in order. -/
def cabanaNeurons (hidden : List ℕ) (nums : List ℕ) (l : ℕ) : ℕ :=
  if l = 0 then nums.foldl (fun _ m => m) 0
  else if l = hidden.length + 1 then 1
  else (hidden[l - 1]?).getD 0

/-- ModeCabana_impl.h:460-477. -/
def cabanaAF (numLayers l : ℕ) : ℕ := if l = 0 then 0 else if l = numLayers - 1 then 0 else 1

/-- ModeCabana_impl.h:513-521; weights and biases are zero until the files are read. -/
noncomputable def cabanaNet (hidden : List ℕ) (nums : List ℕ) : CabanaNet where
  numLayers := 2 + hidden.length
  neurons := cabanaNeurons hidden nums
  AF := cabanaAF (2 + hidden.length)
  maxNeurons := (List.range (2 + hidden.length)).foldl
    (fun m l => max m (cabanaNeurons hidden nums l)) 0
  weights := fun _ _ _ _ => 0
  bias := fun _ _ _ => 0

/-- ModeCabana_impl.h:875-885: value and derivative (left as allocated for other numbers). -/
noncomputable def cabanaActivation (AF : ℕ) (x : ℝ) : ℝ × ℝ :=
  if AF = 0 then (x, 1)
  else if AF = 1 then (Real.tanh x, 1 - Real.tanh x * Real.tanh x)
  else (0, 0)

/-- ModeCabana_impl.h:856-886: the values and derivatives of layer `l` of element `e` with `n0`
symmetry functions. -/
noncomputable def CabanaNet.layer (N : CabanaNet) (e n0 : ℕ) (G : ℕ → ℝ) : ℕ → ℕ → ℝ × ℝ
  | 0, k => (G k, 0)
  | l + 1, i =>
    let prev := if l + 1 = 1 then n0 else N.neurons l
    cabanaActivation (N.AF (l + 1))
      (∑ j ∈ Finset.range prev, N.weights e l i j * (N.layer e n0 G l j).1 + N.bias e l i)

/-- ModeCabana_impl.h:893-914: the arrays `inner` (`l = 0` and copies of `outer`), for input `k`. -/
noncomputable def CabanaNet.inner (N : CabanaNet) (e n0 : ℕ) (G : ℕ → ℝ) (k : ℕ) : ℕ → ℕ → ℝ
  | 0, i => N.weights e 0 i k * (N.layer e n0 G 1 i).2
  | l + 1, i => (∑ i1 ∈ Finset.range (N.neurons (l + 1)), N.weights e (l + 1) i i1
      * N.inner e n0 G k l i1) * (N.layer e n0 G (l + 2) i).2

/-- ModeCabana_impl.h:833-920 `calculateAtomicNeuralNetworks` for one atom of element `e`: energy and
the row of `dEdG`, where `old` is what the slice held before. `none`: access outside the arrays, if
the inputs are more than the largest number of neurons or there is no hidden layer. -/
noncomputable def CabanaNet.evaluate (N : CabanaNet) (e n0 : ℕ) (G old : ℕ → ℝ) :
    Option (ℝ × (ℕ → ℝ)) :=
  if N.maxNeurons < n0 then none
  else if N.numLayers < 3 then none
  else some ((N.layer e n0 G (N.numLayers - 1) 0).1, fun k =>
    if k < N.neurons 0 then N.inner e n0 G k (N.numLayers - 2) 0 else old k)

/-! ### Forces -/

/-- `f_a(p, c) += v` for the three components. -/
noncomputable def addForce (f : ℕ → Vec3) (p : ℕ) (v : Vec3) : ℕ → Vec3 :=
  Function.update f p (f p + v)

open Classical in
/-- ModeCabana_impl.h:962-1011, one group of `calc_radial_force_op`. (The variables for the cutoff
function start as zeros.) -/
noncomputable def Cabana.radialForceGroup (M : Cabana) (T : CabanaTable) (nej i j : ℕ) (dij : Vec3)
    (dEdG : ℕ → ℝ) (f : ℕ → Vec3) (g : List ℕ) : ℕ → Vec3 :=
  let r0 := T.rows (g.headD 0)
  let rij := dij.norm
  if r0.type = 2 ∧ r0.e1 = nej ∧ rij < r0.rc then
    let fc := (cabanaCutoff M.cutoffType M.cutoffAlpha rij r0.rc).getD (0, 0)
    g.foldl (fun f m =>
      let r := T.rows m
      let pexp := Real.exp (-r.eta * (rij - r.rs) * (rij - r.rs))
      let p1 := (T.scaling m).factor * (fc.2 - 2 * r.eta * (rij - r.rs) * fc.1) * pexp / rij
      let F : Vec3 := fun c =>
        dEdG (T.rank m) * (p1 * dij c) * CFFORCE * (M.convLength / M.convEnergy)
      addForce (addForce f i (-F)) j F) f
  else f

open Classical in
/-- ModeCabana_impl.h:1019-1192, one group of `calc_angular_force_op`. `none`: the variables for the
cutoff function at `rik` and `rjk` are used without having been set. -/
noncomputable def Cabana.angularForceGroup (M : Cabana) (T : CabanaTable) (nej nek i j k : ℕ)
    (dij dik : Vec3) (dEdG : ℕ → ℝ) (f : ℕ → Vec3) (g : List ℕ) : Option (ℕ → Vec3) :=
  let r0 := T.rows (g.headD 0)
  if r0.InScope nej nek dij dik then do
    let djk := dik - dij
    let rij := dij.norm
    let rik := dik.norm
    let rjk := √djk.norm2
    let cij := (cabanaCutoff M.cutoffType M.cutoffAlpha rij r0.rc).getD (0, 0)
    let cik ← cabanaCutoff M.cutoffType M.cutoffAlpha rik r0.rc
    let cjk ← cabanaCutoff M.cutoffType M.cutoffAlpha rjk r0.rc
    let rinvijik := 1 / rij / rik
    let costijk := dij.dot dik * rinvijik
    let pfc := cij.1 * cik.1 * cjk.1
    let pr1 := cik.1 * cjk.1 * cij.2 / rij
    let pr2 := cij.1 * cjk.1 * cik.2 / rik
    let pr3 := cij.1 * cik.1 * cjk.2 / rjk
    some (g.foldl (fun f m =>
      let r := T.rows m
      let plambda := 1 + r.lambda * costijk
      let fg := r.angular dij dik djk plambda * ((2 : ℝ) ^ (1 - r.zeta) * (T.scaling m).factor)
      let pfczl := pfc * r.zeta * r.lambda
      let p2etapl := plambda * (2 * r.eta / r.zeta / r.lambda)
      let q1 := if 0 < r.rs then p2etapl * (rij - r.rs) / rij else p2etapl
      let q2 := if 0 < r.rs then p2etapl * (rik - r.rs) / rik else p2etapl
      let q3 := if 0 < r.rs then p2etapl * (rjk - r.rs) / rjk else p2etapl
      let p1 := fg * (pfczl * (rinvijik - costijk / dij.norm2 - q1) + pr1 * plambda)
      let p2 := fg * (pfczl * (rinvijik - costijk / dik.norm2 - q2) + pr2 * plambda)
      let p3 := fg * (pfczl * (rinvijik + q3) - pr3 * plambda)
      let conv := M.convLength / M.convEnergy
      let Fi : Vec3 := fun c => dEdG (T.rank m) * (p1 * dij c + p2 * dik c) * CFFORCE * conv
      let Fj : Vec3 := fun c => dEdG (T.rank m) * (p1 * dij c + p3 * djk c) * CFFORCE * conv
      let Fk : Vec3 := fun c => dEdG (T.rank m) * (p2 * dik c - p3 * djk c) * CFFORCE * conv
      addForce (addForce (addForce f i (-Fi)) j Fj) k Fk) f)
  else some f

/-- ModeCabana_impl.h:945-1018: the radial contributions of atom `i`. -/
noncomputable def Cabana.radialForces (M : Cabana) (A : CabanaAtoms) (dEdG : ℕ → ℕ → ℝ)
    (f : ℕ → Vec3) (i : ℕ) : Option (ℕ → Vec3) := do
  let T ← M.tables[A.type i]?
  some ((A.neigh i).foldl (fun f j =>
    T.groups.foldl (M.radialForceGroup T (A.type j) i j (M.disp A i j) (dEdG i)) f) f)

/-- ModeCabana_impl.h:1019-1214: the angular contributions of atom `i`. -/
noncomputable def Cabana.angularForces (M : Cabana) (A : CabanaAtoms) (dEdG : ℕ → ℕ → ℝ)
    (f : ℕ → Vec3) (i : ℕ) : Option (ℕ → Vec3) := do
  let T ← M.tables[A.type i]?
  (listPairs (A.neigh i)).foldlM (fun f p =>
    T.groups.foldlM (M.angularForceGroup T (A.type p.1) (A.type p.2) i p.1 p.2 (M.disp A i p.1)
      (M.disp A i p.2) (dEdG i)) f) f

/-- ModeCabana_impl.h:927-1216 `calculateForces`. -/
noncomputable def Cabana.forces (M : Cabana) (A : CabanaAtoms) (dEdG : ℕ → ℕ → ℝ)
    (f : ℕ → Vec3) : Option (ℕ → Vec3) := do
  let f ← (List.range A.nLocal).foldlM (M.radialForces A dEdG) f
  (List.range A.nLocal).foldlM (M.angularForces A dEdG) f

/-- The three calls of a step: `calculateSymmetryFunctionGroups` (ModeCabana_impl.h:604-831),
`calculateAtomicNeuralNetworks` (833-925) and `calculateForces` (927-1216). Result: the sum of the
atomic energies and the forces. `old` and `f` are the derivatives and forces stored before. -/
noncomputable def Cabana.compute (M : Cabana) (net : CabanaNet) (A : CabanaAtoms)
    (old : ℕ → ℕ → ℝ) (f : ℕ → Vec3) : Option (ℝ × (ℕ → Vec3)) := do
  let rows ← (List.range A.nLocal).mapM fun i => do
    let T ← M.tables[A.type i]?
    let G ← M.symmetryFunctions A i
    net.evaluate (A.type i) T.num G (old i)
  let f ← M.forces A (fun i => ((rows[i]?).map Prod.snd).getD (old i)) f
  some ((rows.map Prod.fst).sum, f)

end N2P2
