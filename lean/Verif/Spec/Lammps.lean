import Verif.Model.Lammps
import Verif.Spec.Mode

/-! What LAMMPS expects: energies and forces as functions of its own arrays of positions. -/

namespace N2P2

/-- `env` lists places seen from an atom: things of a kind `Q`, each once, among them all within distance
`R`. -/
def IsEnvOf {α : Type} (Q : α → Prop) (site : α → Site) (R : ℝ) (env : List Site) : Prop :=
  ∃ l : List α, l.Nodup ∧ (∀ p ∈ l, Q p) ∧ (∀ p, Q p → (site p).dr.norm ≤ R → p ∈ l) ∧
    env = l.map site

/-- As above, with nothing beyond distance `R`. -/
def IsBallOf {α : Type} (Q : α → Prop) (site : α → Site) (R : ℝ) (env : List Site) : Prop :=
  ∃ l : List α, l.Nodup ∧ (∀ p, p ∈ l ↔ Q p ∧ (site p).dr.norm ≤ R) ∧ env = l.map site

namespace Domain

/-- Position of atom `i`. -/
def position (D : Domain) (i : ℕ) : Vec3 := (D.x[i]?).getD 0

/-- The domain with other positions. -/
def move (D : Domain) (pos : ℕ → Vec3) : Domain := { D with x := D.x.mapIdx fun i _ => pos i }

end Domain

namespace Lammps

/-- One LAMMPS unit of length in units of the potential. -/
noncomputable def lengthUnit (L : Lammps) : ℝ :=
  L.cflength * if L.normalize then L.units.convLength else 1

/-- One physical unit of energy in units of the potential. -/
noncomputable def energyUnit (L : Lammps) : ℝ := if L.normalize then L.units.convEnergy else 1

/-- Energy of an atom of element `e` which the potential does not describe, in physical units. -/
noncomputable def baseEnergy (L : Lammps) (e : ℕ) : ℝ :=
  (if L.normalize then L.units.meanEnergy else 0) + L.offsets.getD e 0

/-- Element of atom `i`, `none` if its type is ignored. -/
def elementOf (L : Lammps) (D : Domain) (i : ℕ) : Option ℕ := (D.type[i]?).bind L.typeToElement

/-- `j` is another local or ghost atom which is not ignored. -/
def IsOther (L : Lammps) (D : Domain) (i j : ℕ) : Prop :=
  j < D.x.length ∧ j ≠ i ∧ (L.elementOf D j).isSome

/-- Atom `j` seen from atom `i`, in units of the potential. -/
noncomputable def site (L : Lammps) (D : Domain) (i j : ℕ) : Site :=
  ⟨(L.elementOf D j).getD 0, L.lengthUnit • (D.position i - D.position j)⟩

/-- Energy of local atom `i` in LAMMPS units, given its environment. Ignored atoms have none. -/
noncomputable def energyOf (L : Lammps) (P : Potential) (D : Domain) (i : ℕ) (env : List Site) : ℝ :=
  match L.elementOf D i with
  | some e => (P.atomic e env / L.energyUnit + L.baseEnergy e) / L.cfenergy
  | none => 0

/-- `X` is the energy of the local atoms in LAMMPS units. -/
def IsEnergy (L : Lammps) (P : Potential) (R : ℝ) (D : Domain) (X : ℝ) : Prop :=
  ∃ env : ℕ → List Site,
    (∀ i < D.nlocal, (L.elementOf D i).isSome → IsEnvOf (L.IsOther D i) (L.site D i) R (env i)) ∧
    X = ∑ i ∈ Finset.range D.nlocal, L.energyOf P D i (env i)

/-- The interface was set up for the potential `P` with `n` elements and the pair cutoff radius `rc`
(checked in InterfaceLammps.cpp:144-149). Its structure may have any past with such potentials. -/
structure Ready (L : Lammps) (P : Potential) (n : ℕ) (rc : ℝ) : Prop where
  setup : L.mode.SetUp P n
  offsets : L.offsets.length = n
  types : ∀ t e, L.typeToElement t = some e → e < n
  energyUnit : L.energyUnit ≠ 0
  cfenergy : L.cfenergy ≠ 0
  cflength : 0 < L.cflength
  convLength : L.normalize = true → 0 < L.units.convLength
  cutoff : L.getMaxCutoffRadius ≤ rc
  counts : L.structure'.numAtomsPerElement.length = n
  elec : L.structure'.energyElec = 0

/-- The arrays are consistent, and the neighbour list is full: it has all other atoms within distance `rc` of
each local atom, each once. -/
structure Lists (D : Domain) (rc : ℝ) : Prop where
  local_le : D.nlocal ≤ D.x.length
  types : D.type.length = D.x.length
  tags : D.tag.length = D.x.length
  ilist : D.ilist.Nodup ∧ ∀ i, i ∈ D.ilist ↔ i < D.nlocal
  neighbors : ∀ i < D.nlocal, (D.firstneigh i).Nodup ∧
    (∀ j ∈ D.firstneigh i, j < D.x.length ∧ j ≠ i) ∧
    ∀ j < D.x.length, j ≠ i → (D.position i - D.position j).norm ≤ rc → j ∈ D.firstneigh i

/-- The potential can be evaluated: no atom on top of a local atom, triplets in order. -/
structure Suits (L : Lammps) (P : Potential) (rc : ℝ) (D : Domain) : Prop where
  apart : ∀ i < D.nlocal, ∀ j, (L.elementOf D i).isSome → L.IsOther D i j →
    D.position i ≠ D.position j
  triplets : ∀ i < D.nlocal, ∀ e, L.elementOf D i = some e → ∀ S ∈ P.functions e, ∀ env,
    IsBallOf (L.IsOther D i) (L.site D i) (L.lengthUnit * rc) env → S.TripletsOK env

/-- Symmetry functions and networks are differentiable at the positions. -/
def Smooth (L : Lammps) (P : Potential) (rc : ℝ) (D : Domain) : Prop :=
  ∀ i < D.nlocal, ∀ e, L.elementOf D i = some e → ∀ env,
    IsBallOf (L.IsOther D i) (L.site D i) (L.lengthUnit * rc) env →
    (∀ S ∈ P.functions e, S.Smooth env) ∧
    (P.shape e).RegularAt (P.weights e) (P.input e env)

/-- No cutoff radius of the potential with `n` elements exceeds `R`. -/
def _root_.N2P2.Potential.Reach (P : Potential) (n : ℕ) (R : ℝ) : Prop :=
  ∀ e < n, ∀ S ∈ P.functions e, S.rc ≤ R

/-- Entry `i` of an array of forces. -/
def forceAt (F : List Vec3) (i : ℕ) : Vec3 := (F[i]?).getD 0

end Lammps

end N2P2
