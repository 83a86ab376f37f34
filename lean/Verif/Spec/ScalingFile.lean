import Verif.Model.ScalingFile
import Verif.Spec.WeightFile
import Mathlib.Order.Bounds.Basic

/-! What is expected from the file with symmetry function statistics. -/

namespace N2P2

/-- Functions know their element and their position, as after sorting (Mode.cpp:640-667). -/
def InOrder (fs : List (List SymFncScaling)) : Prop :=
  ∀ (k : ℕ) (f : List SymFncScaling), fs[k]? = some f →
    ∀ (i : ℕ) (sf : SymFncScaling), f[i]? = some sf → sf.ec = k ∧ sf.index = i

/-- The numbers of elements and functions are of type `int`. -/
def FewFunctions (fs : List (List SymFncScaling)) : Prop :=
  fs.length < 2 ^ 31 - 1 ∧ ∀ f ∈ fs, f.length < 2 ^ 31 - 1

/-- Every process has atoms of the given elements, with a value for every symmetry function. -/
def GoodData (fs : List (List SymFncScaling)) (data : List (ℕ → List StatAtom)) : Prop :=
  data ≠ [] ∧ ∀ atoms ∈ data, ∀ (k : ℕ) (f : List SymFncScaling),
    fs[k]? = some f → ∀ a ∈ atoms k,
    a.element = k ∧ a.numSymmetryFunctions = f.length ∧ a.G.length = f.length

/-- The values of function `i` of element `k` in the whole data set. -/
def dataValues (data : List (ℕ → List StatAtom)) (k i : ℕ) : List ℝ :=
  data.flatMap fun atoms => (atoms k).map fun a => a.G.getD i 0

/-- Average. -/
noncomputable def listMean (vs : List ℝ) : ℝ := vs.sum / vs.length

/-- Standard deviation of a sample. -/
noncomputable def listSigma (vs : List ℝ) : ℝ :=
  Real.sqrt ((vs.map fun v => (v - listMean vs) ^ 2).sum / (vs.length - 1))

/-- The formulas of the documentation (Mode.cpp:724-751). -/
noncomputable def scaledValue (t : ScalingType) (Smin Smax Gmin Gmax Gmean Gsigma v : ℝ) : ℝ :=
  match t with
  | .none => v
  | .scale => Smin + (Smax - Smin) * (v - Gmin) / (Gmax - Gmin)
  | .center => v - Gmean
  | .scaleCenter => Smin + (Smax - Smin) * (v - Gmean) / (Gmax - Gmin)
  | .scaleSigma => Smin + (Smax - Smin) * (v - Gmean) / Gsigma

/-- The formula of the given type does not divide by zero. -/
def Divides (t : ScalingType) (Gmin Gmax Gsigma : ℝ) : Prop :=
  (t = .scale ∨ t = .scaleCenter → Gmin ≠ Gmax) ∧ (t = .scaleSigma → Gsigma ≠ 0)

/-- `new` is `old` with scaling of type `t` and the statistics of the values `vs`, up to the precision
of the numbers in the file. -/
structure ScaledFor (N : NumberText) (dblMax : ℝ) (vs : List ℝ) (t : ScalingType) (Smin Smax : ℝ)
    (old new : SymFncScaling) : Prop where
  ec : new.ec = old.ec
  index : new.index = old.index
  type : new.type = old.type
  scalingType : new.scalingType = t
  Smin : new.Smin = Smin
  Smax : new.Smax = Smax
  range : vs ≠ [] → (∀ v ∈ vs, |v| ≤ dblMax) → ∃ lo hi, IsLeast {v | v ∈ vs} lo ∧
    IsGreatest {v | v ∈ vs} hi ∧ new.Gmin = N.rounded lo ∧ new.Gmax = N.rounded hi
  mean : vs ≠ [] → new.Gmean = N.rounded (listMean vs)
  sigma : 2 ≤ vs.length → new.Gsigma = N.rounded (listSigma vs)
  scale : Divides t new.Gmin new.Gmax new.Gsigma → ∀ v, new.scale v =
    scaledValue t new.Smin new.Smax new.Gmin new.Gmax new.Gmean new.Gsigma v

/-- The settings contain the keyword. -/
def Contents.Has (c : Contents) (kw : String) : Prop := ∃ e ∈ c, e.key = kw.toList

/-- Type of scaling selected with keywords. -/
inductive Selects (c : Contents) : ScalingType → Prop
  | scale : c.Has "scale_symmetry_functions" → ¬ c.Has "center_symmetry_functions" → Selects c .scale
  | center : ¬ c.Has "scale_symmetry_functions" → c.Has "center_symmetry_functions" →
      Selects c .center
  | both : c.Has "scale_symmetry_functions" → c.Has "center_symmetry_functions" →
      Selects c .scaleCenter
  | sigma : ¬ c.Has "scale_symmetry_functions" → ¬ c.Has "center_symmetry_functions" →
      c.Has "scale_symmetry_functions_sigma" → Selects c .scaleSigma
  | none : ¬ c.Has "scale_symmetry_functions" → ¬ c.Has "center_symmetry_functions" →
      ¬ c.Has "scale_symmetry_functions_sigma" → Selects c .none

/-- The value given for a keyword, or its default. -/
def Limit (N : NumberText) (c : Contents) (kw : String) (default x : ℝ) : Prop :=
  (¬ c.Has kw ∧ x = default) ∨ ∃ e ∈ c, e.key = kw.toList ∧ x = N.atof e.value

/-- Interval selected with keywords, for those types which use it. -/
def Limits (N : NumberText) (c : Contents) (t : ScalingType) (Smin Smax : ℝ) : Prop :=
  if t = .none ∨ t = .center then Smin = 0 ∧ Smax = 0
  else Limit N c "scale_min_short" 0 Smin ∧ Limit N c "scale_max_short" 1 Smax

/-- The number is printed and read without change. -/
def NumberText.Exact (N : NumberText) (x : ℝ) : Prop := N.rounded x = x

/-- All statistics of the values are printed exactly. -/
def NumberText.ExactFor (N : NumberText) (vs : List ℝ) : Prop :=
  (∀ v ∈ vs, N.Exact v) ∧ N.Exact (listMean vs) ∧ N.Exact (listSigma vs)

/-- What scaling makes of the values. -/
def ScaledAs (t : ScalingType) (Smin Smax : ℝ) (vs scaled : List ℝ) : Prop :=
  match t with
  | .none => scaled = vs
  | .scale => IsLeast {v | v ∈ scaled} Smin ∧ IsGreatest {v | v ∈ scaled} Smax
  | .center => listMean scaled = 0 ∧ listSigma scaled = listSigma vs
  | .scaleCenter => listMean scaled = Smin ∧ ∃ lo hi, IsLeast {v | v ∈ scaled} lo ∧
      IsGreatest {v | v ∈ scaled} hi ∧ hi - lo = Smax - Smin
  | .scaleSigma => listMean scaled = Smin ∧ listSigma scaled = Smax - Smin

end N2P2
