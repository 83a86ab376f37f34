import Verif.Model.ShapeFile
import Verif.Spec.SymFnc
import Verif.Spec.Sensitivity
import Verif.Spec.Histogram

/-! What is expected from the files with the shape of symmetry functions. -/

namespace N2P2

namespace SymFnc

open Classical in
/-- Factor for one distance. -/
noncomputable def radialPart (S : SymFnc) (r : ℝ) : ℝ := if S.IsExp then S.gauss r * S.fc.f r else S.radial r

open Classical in
/-- Factor for the angle. -/
noncomputable def angularPart (S : SymFnc) (θ : ℝ) : ℝ :=
  if ¬ S.IsAng then 1
  else if S.IsExp then S.angularFactor (Real.cos θ)
  else compact S.ca S.angleLeftRadians S.angleRightRadians θ

/-- Angle between two neighbours. -/
noncomputable def angleOf (x y : Site) : ℝ := Real.arccos (cosAngle x.dr y.dr)

open Classical in
/-- A symmetry function with radial part `R` and angular part `A`: radial functions sum up `R`. In angular functions each
pair of neighbours contributes `A` times `R` for the distances from the atom; narrow ones have a third factor
for the distance between the neighbours. -/
noncomputable def fromParts (S : SymFnc) (R A : ℝ → ℝ) (env : List Site) : ℝ :=
  let wide := fun x y => A (angleOf x y) * (R x.dr.norm * R y.dr.norm)
  let narrow := fun (x y : Site) => wide x y * R (x.dr - y.dr).norm
  match S.kind with
  | .ExpRad => (env.map fun x => if x.element = S.e1 then R x.dr.norm else 0).sum
  | .CompRad => (env.map fun x => if x.element = S.e1 then R x.dr.norm else 0).sum
  | .ExpRadWeighted => (env.map fun x => S.Z x * R x.dr.norm).sum
  | .CompRadWeighted => (env.map fun x => S.Z x * R x.dr.norm).sum
  | .ExpAngn => pairSum (fun x y => S.ofPair x y * narrow x y) env
  | .CompAngn => pairSum (fun x y => S.ofPair x y * narrow x y) env
  | .ExpAngw => pairSum (fun x y => S.ofPair x y * wide x y) env
  | .CompAngw => pairSum (fun x y => S.ofPair x y * wide x y) env
  | .ExpAngnWeighted => pairSum (fun x y => S.Z x * S.Z y * narrow x y) env
  | .CompAngnWeighted => pairSum (fun x y => S.Z x * S.Z y * narrow x y) env
  | .CompAngwWeighted => pairSum (fun x y => S.Z x * S.Z y * wide x y) env

/-- Distances for which the radial part in the file is right. -/
def RadialShown (S : SymFnc) (r : ℝ) : Prop := S.kind ≠ .ExpAngnWeighted ∧ (¬ S.IsExp → S.rl < r ∧ r < S.rc)

/-- Angles for which the angular part in the file is right. -/
def AngularShown (S : SymFnc) (θ : ℝ) : Prop :=
  (S.IsExp → S.IsAng → |S.lambda| ≤ 1) ∧ (¬ S.IsExp → S.IsAng → S.angleLeftRadians < θ ∧ θ < S.angleRightRadians)

end SymFnc

/-- Name of the file of symmetry function number `i` for atomic number `Z`. -/
def shapeFile (Z i : ℕ) : Str := "sf.".toList ++ zeroPadded 3 Z ++ ['.'] ++ zeroPadded 4 i ++ ".out".toList

/-- A line of the file for distance `r` and angle `θ`. -/
def ShapeRow (F : FloatText) (S : SymFnc) (r θ : ℝ) (row : List Str) : Prop :=
  ∃ u v, row = [F.print (some r), u, F.print (some θ), v] ∧
    (S.RadialShown r → u = F.print (some (S.radialPart r))) ∧
    (S.AngularShown θ → v = F.print (some (S.angularPart θ)))

/-- Elements with symmetry functions as they are set up by the tool (without normalization). -/
structure ShapeSetup (els : List ShapeElement) : Prop where
  distinct : els.Pairwise fun a b => a.Z ≠ b.Z
  number : ∀ e ∈ els, e.Z < 2 ^ 64 ∧ e.functions.length < 2 ^ 64
  info : ∀ e ∈ els, ∀ i, ∀ l ∈ e.info i, '\n' ∉ l
  valid : ∀ e ∈ els, ∀ S ∈ e.functions, S.Valid ∧ S.convLength = 1

end N2P2
