import Verif.Model.Sensitivity
import Verif.Spec.Histogram

/-! What is expected from the analysis of sensitivities and from pruning. -/

namespace N2P2

/-- What is printed are words on one line which are no comments; NaN is read as NaN. -/
structure FloatText.Data (F : FloatText) : Prop where
  word : ∀ x, IsWord (F.print x) ∧ '\n' ∉ F.print x ∧ (F.print x).head? ≠ some '#'
  nan : F.atof (F.print none) = none

/-- Derivatives with respect to symmetry function `j`, of all atoms of element `k` in the data set. -/
def sensValues (structures : List (List Structure)) (k j : ℕ) : List ℝ :=
  ((allAtoms structures).filter fun a => a.element = k).map fun a => a.dEdG.getD j 0

/-- Root of the mean square. -/
noncomputable def rmsOf (vs : List ℝ) : ℝ := Real.sqrt ((vs.map fun v => v ^ 2).sum / vs.length)

/-- The same, undefined without values. -/
noncomputable def msaOf (vs : List ℝ) : Option ℝ := if vs = [] then none else some (rmsOf vs)

/-- Largest absolute value, 0 without values. -/
noncomputable def largestAbs (vs : List ℝ) : ℝ := (vs.map fun v => |v|).foldl max 0

/-- The share of number `j` in the sum of `n` numbers, in percent. If all are zero there is none. -/
noncomputable def share (x : ℕ → ℝ) (n j : ℕ) : Option ℝ :=
  if ∑ i ∈ Finset.range n, x i = 0 then none else some (x j / (∑ i ∈ Finset.range n, x i) * 100)

/-- The processes have atoms of the given elements, with enough derivatives. -/
def SensData (els : List SensElement) (structures : List (List Structure)) : Prop :=
  structures ≠ [] ∧ ∀ a ∈ allAtoms structures, ∃ e, els[a.element]? = some e ∧ e.n ≤ a.dEdG.length

/-- Elements which differ, with symbols and at least one symmetry function. -/
structure SensElements (els : List SensElement) : Prop where
  distinct : els.Pairwise fun e e' => e.Z ≠ e'.Z
  number : ∀ e ∈ els, e.Z < 2 ^ 31
  symbol : ∀ e ∈ els, e.symbol.length ≤ 2 ∧ '\n' ∉ e.symbol
  functions : ∀ e ∈ els, 0 < e.n ∧ e.n < 2 ^ 31

/-- Name of the file of an element. -/
def sensitivityFile (Z : ℕ) : Str := "sensitivity.".toList ++ zeroPadded 3 Z ++ ".out".toList

/-- Table for an element, where `v j` are the derivatives with respect to function `j`: for each function its number, the
shares of mean and largest derivative in percent, and both in the units given. -/
noncomputable def sensTable (F : FloatText) (units : List ℝ) (v : ℕ → List ℝ) (n : ℕ) : List (List Str) :=
  (List.range n).map fun j => natText (j + 1) ::
    ([share (fun i => rmsOf (v i)) n j, share (fun i => largestAbs (v i)) n j] ++
      units.flatMap fun u => [(msaOf (v j)).map (· / u), some (largestAbs (v j) / u)]).map F.print

/-- A number after it was written and read. -/
def FloatText.rounded (F : FloatText) (x : Option ℝ) : Option ℝ := F.atof (F.print x)

/-- Both programs have the same elements with the same numbers of symmetry functions. -/
def SameFunctions (els : List SensElement) (pels : List PruneElement) : Prop :=
  List.Forall₂ (fun e p => p.Z = e.Z ∧ p.lines.length = e.n) els pels

/-- The measures of sensitivity. -/
inductive Measures : Str → (List ℝ → ℝ) → Prop
  | msa : Measures "msa".toList rmsOf
  | max : Measures "max".toList largestAbs

/-- Lines of the functions whose share in the sensitivity of their element is less than the threshold. -/
def insensitiveLines (F : FloatText) (measure : List ℝ → ℝ) (threshold : ℝ) (structures : List (List Structure))
    (pels : List PruneElement) : Set ℕ :=
  {l | ∃ (k j : ℕ) (p : PruneElement) (x : ℝ), pels[k]? = some p ∧ p.lines[j]? = some l ∧
    F.rounded (share (fun i => measure (sensValues structures k i)) p.lines.length j) = some x ∧ x < threshold}

/-- Lines of the functions whose values in the data set differ by less than the threshold. -/
def narrowLines (N : NumberText) (threshold : ℝ) (data : List (ℕ → List StatAtom)) (numbers : List (List ℕ)) : Set ℕ :=
  {l | ∃ (k j : ℕ) (ls : List ℕ) (lo hi : ℝ), numbers[k]? = some ls ∧ ls[j]? = some l ∧
    IsLeast {v | v ∈ dataValues data k j} lo ∧ IsGreatest {v | v ∈ dataValues data k j} hi ∧
    |N.rounded hi - N.rounded lo| < threshold}

/-- The settings text keeps the lines with numbers not in `selected`. -/
def Disables (selected : Set ℕ) (settings : List Str) (text : Str) : Prop :=
  (readLines text).length = settings.length ∧
  (∀ i ∈ selected, (readLines text)[i]? = settings[i]?.map ("# ".toList ++ ·)) ∧
  (∀ i ∉ selected, (readLines text)[i]? = settings[i]?) ∧
  ∀ e, e ∈ parseLines (readLines text) ↔ e ∈ parseLines settings ∧ e.line ∉ selected

end N2P2
