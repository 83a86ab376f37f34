import Mathlib.Analysis.SpecialFunctions.Trigonometric.Inverse
import Mathlib.Data.Set.Card
import Verif.Model.Distribution
import Verif.Spec.Geometry

/-! Distribution functions of distances and angles, by counting. -/

namespace N2P2

/-- `p`: an atom, another atom (or itself) and the lattice vector by which the latter is shifted. Their elements are `i` and `j`, the
vector between them is `v`. -/
def IsBond (u : Structure) (i j : ℕ) (p : ℕ × ℕ × (Fin 3 → ℤ)) (v : Vec3) : Prop :=
  ∃ a c, u.atoms[p.1]? = some a ∧ u.atoms[p.2.1]? = some c ∧ a.element = i ∧ c.element = j ∧
    (u.isPeriodic = true ∨ p.2.2 = 0) ∧ p.2 ≠ (p.1, 0) ∧ v = a.r - c.r + shift u.box p.2.2

/-- The pairs with distances from `lo` to below `hi`. -/
def bondsIn (u : Structure) (i j : ℕ) (lo hi : ℝ) : Set (ℕ × ℕ × (Fin 3 → ℤ)) :=
  {p | ∃ v, IsBond u i j p v ∧ lo ≤ len v ∧ len v < hi}

/-- Number of atoms of an element. -/
def Structure.elementCount (u : Structure) (i : ℕ) : ℕ := u.atoms.countP fun a => a.element = i

/-- Radial distribution function of the elements `i` and `j` between `lo` and `hi`: the number of pairs, divided by the volume of
the shell and, with periodic boundary conditions, by the number expected for independent atoms. -/
noncomputable def pairDistribution (u : Structure) (i j : ℕ) (lo hi : ℝ) : ℝ :=
  (if u.isPeriodic then |Matrix.det (Matrix.of u.box)| / (u.elementCount i * u.elementCount j) else 1) *
    (bondsIn u i j lo hi).ncard / (4 * Real.pi * ((lo + hi) / 2) ^ 2 * (hi - lo))

/-- Angle between two vectors in degrees. -/
noncomputable def degrees (v w : Vec3) : ℝ := Real.arccos ((∑ k, v k * w k) / (len v * len w)) * 180 / Real.pi

/-- Angles at atoms of element `i` between neighbours within `rc` of elements `j` and `k`, as far as they satisfy `P`. -/
def anglesWith (u : Structure) (rc : ℝ) (i j k : ℕ) (P : ℝ → Prop) : Set (ℕ × (ℕ × (Fin 3 → ℤ)) × (ℕ × (Fin 3 → ℤ))) :=
  {t | t.2.1 ≠ t.2.2 ∧ ∃ v w, IsBond u i j (t.1, t.2.1) v ∧ IsBond u i k (t.1, t.2.2) w ∧ len v ≤ rc ∧ len w ≤ rc ∧
    P (degrees v w)}

/-- Interval number `n` of `bins` equal ones from 0 to 180 degrees (180 belongs to the last). -/
def InAngleBin (bins n : ℕ) (x : ℝ) : Prop :=
  n * (180 / bins : ℝ) ≤ x ∧ (x < (n + 1) * (180 / bins : ℝ) ∨ n + 1 = bins)

/-- Angular distribution function: fraction of angles in an interval, divided by its length; zero without such angles. -/
noncomputable def angleDistribution (u : Structure) (rc : ℝ) (bins i j k n : ℕ) : ℝ :=
  ((anglesWith u rc i j k (InAngleBin bins n)).ncard : ℝ) / (anglesWith u rc i j k fun _ => True).ncard / (180 / bins)

/-- Mean number of neighbours of element `j` closer than `hi` around atoms of element `i`. -/
noncomputable def meanNeighbors (u : Structure) (i j : ℕ) (hi : ℝ) : ℝ :=
  ((bondsIn u i j 0 hi).ncard : ℝ) / u.elementCount i

/-- The structures are proper: boxes have a volume. -/
def ProperBox (u : Structure) : Prop := u.isPeriodic = true → NonSingular u.box

/-- Mean over the structures. -/
noncomputable def meanOver (U : List Structure) (f : Structure → ℝ) : ℝ := (U.map f).sum / U.length

/-- Number of atoms of an element per volume, for a periodic structure. -/
noncomputable def numberDensity (i : ℕ) (u : Structure) : ℝ := (u.elementCount i : ℝ) / |Matrix.det (Matrix.of u.box)|

/-- The lines of a file with a distribution function: `bins` equal intervals from 0 to `width`, the values `f` on the intervals, and
the values divided by the largest one. -/
structure IsDistribution (rows : List DistributionRow) (width : ℝ) (bins : ℕ) (f : ℕ → ℝ → ℝ → ℝ) : Prop where
  length : rows.length = bins
  row : ∀ (n : ℕ) (r : DistributionRow), rows[n]? = some r → r.low = n * (width / bins) ∧ r.high = (n + 1) * (width / bins) ∧
    r.value = f n r.low r.high
  scaled : ∀ M ≠ 0, (∃ r ∈ rows, r.value = M) → (∀ r ∈ rows, r.value ≤ M) → ∀ r ∈ rows, r.scaled = some (r.value / M)

/-- The file with the radial distribution function of the elements `i` and `j`. -/
def IsRdfFile (m : EMap) (U : List Structure) (rc : ℝ) (bins i j : ℕ) (f : Str × List DistributionRow) : Prop :=
  (∃ a b, m.symbol i = .ok a ∧ m.symbol j = .ok b ∧ f.1 = "rdf_".toList ++ a ++ "_".toList ++ b ++ ".out".toList) ∧
    IsDistribution f.2 rc bins fun _ lo hi => meanOver U fun u => pairDistribution u i j lo hi

/-- The file with the distribution function of angles at atoms of element `i` between neighbours of elements `j` and `k`. -/
def IsAdfFile (m : EMap) (U : List Structure) (rc : ℝ) (bins i j k : ℕ) (f : Str × List DistributionRow) : Prop :=
  (∃ a b c, m.symbol i = .ok a ∧ m.symbol j = .ok b ∧ m.symbol k = .ok c ∧
    f.1 = "adf_".toList ++ a ++ "_".toList ++ b ++ "_".toList ++ c ++ ".out".toList) ∧
    IsDistribution f.2 180 bins fun n _ _ => meanOver U fun u => angleDistribution u rc bins i j k n

/-- No distance is the cutoff radius. -/
def NoneAtCutoff (u : Structure) (rc : ℝ) : Prop := ∀ i j p v, IsBond u i j p v → len v ≠ rc

/-- No two atoms are at the same place. -/
def AllApart (u : Structure) : Prop := ∀ i j p v, IsBond u i j p v → v ≠ 0

end N2P2
