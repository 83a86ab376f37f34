import Verif.Model.SymFnc
import Verif.Model.Histogram
import Verif.Model.Sensitivity

/-! Shape of symmetry functions, written by nnp-symfunc. -/

namespace N2P2

open Classical in
/-- `pow` for real numbers; `none` if the result is not finite. -/
noncomputable def cPow (x e : ℝ) : Option ℝ :=
  if (x < 0 ∧ ¬ ∃ n : ℤ, (n : ℝ) = e) ∨ (x = 0 ∧ e < 0) then none else some (x ^ e)

open Classical in
/-- CompactFunction.h:148-152 `f`; `none` if the result is not finite (the exponential function at the ends). -/
noncomputable def CompactFunction.finite (c : CompactFunction) (x : ℝ) : Option ℝ :=
  if c.Defined x then some (c.f x) else none

namespace SymFnc

/-- `calculateRadialPart`: SymFncExpRad.cpp:218-223, SymFncExpRadWeighted.cpp:201-206, SymFncBaseExpAng.cpp:166-172,
SymFncExpAngnWeighted.cpp:325-331, SymFncCompRad.cpp:210-215, SymFncCompRadWeighted.cpp:190-195,
SymFncBaseCompAng.cpp:178-183, SymFncBaseCompAngWeighted.cpp:157-162. -/
noncomputable def calculateRadialPart (S : SymFnc) (distance : ℝ) : Option ℝ :=
  let r := distance * S.convLength
  let p := Real.exp (-S.eta * (r - S.rs) * (r - S.rs)) * S.fc.f r
  match S.kind with
  | .ExpRad => some p
  | .ExpRadWeighted => some p
  | .ExpAngn => some p
  | .ExpAngw => some p
  | .ExpAngnWeighted => some (p * p * p)
  | .CompRad => S.cr.finite r
  | .CompRadWeighted => S.cr.finite r
  | .CompAngn => S.cr.finite r
  | .CompAngw => S.cr.finite r
  | .CompAngnWeighted => S.cr.finite r
  | .CompAngwWeighted => S.cr.finite r

/-- `calculateAngularPart`: SymFncExpRad.cpp:225-228, SymFncExpRadWeighted.cpp:208-211, SymFncBaseExpAng.cpp:174-177,
SymFncExpAngnWeighted.cpp:333-336, SymFncCompRad.cpp:217-220, SymFncCompRadWeighted.cpp:197-200,
SymFncBaseCompAng.cpp:185-188, SymFncBaseCompAngWeighted.cpp:164-167. -/
noncomputable def calculateAngularPart (S : SymFnc) (angle : ℝ) : Option ℝ :=
  let power := (cPow ((1.0 + S.lambda * Real.cos angle) / 2.0) S.zeta).map (2.0 * ·)
  match S.kind with
  | .ExpRad => some 1.0
  | .ExpRadWeighted => some 1.0
  | .CompRad => some 1.0
  | .CompRadWeighted => some 1.0
  | .ExpAngn => power
  | .ExpAngw => power
  | .ExpAngnWeighted => power
  | .CompAngn => S.ca.finite angle
  | .CompAngw => S.ca.finite angle
  | .CompAngnWeighted => S.ca.finite angle
  | .CompAngwWeighted => S.ca.finite angle

end SymFnc

/-- An element with its atomic number, the lines of `infoSymmetryFunction` and its symmetry functions. -/
structure ShapeElement where
  Z : ℕ
  info : ℕ → List Str
  functions : List SymFnc

/-- Mode.cpp:651-657, Element.cpp:414-425: the largest cutoff radius. -/
noncomputable def shapeCutoff (els : List ShapeElement) : ℝ :=
  els.foldl (fun m e => max (e.functions.foldl (fun m S => max S.rc m) 0) m) 0

/-- SetupAnalysis.h:37: the format `"sf.%03zu.%04zu.out"`. -/
def shapeName (Z i : ℕ) : Option Str :=
  strpr ("sf.".toList ++ zeroPadded 3 Z ++ ['.'] ++ zeroPadded 4 i ++ ".out".toList)

/-- SetupAnalysis.cpp:58-81. -/
def shapeHeader : Option (List Str) :=
  createFileHeader ["Symmetry function shape.".toList] [16, 16, 16, 16]
    ["distance".toList, "sf_radial".toList, "angle".toList, "sf_angular".toList]
    ["Distance from center.".toList, "Radial part of symmetry function at given distance.".toList,
      "Angle in degrees.".toList, "Angular part of symmetry function at given angle.".toList] '#'

/-- SetupAnalysis.cpp:85-89. Step lengths are `none` if they are not finite (no points). -/
noncomputable def shapeLine (F : FloatText) (S : SymFnc) (dr da : Option ℝ) (k : ℕ) : Str :=
  let d := dr.map fun x => (k : ℝ) * x
  let a := da.map fun x => (k : ℝ) * x
  fieldLine (padLeft 16 (F.print d))
    [padLeft 16 (F.print (d.bind S.calculateRadialPart)), padLeft 16 (F.print a),
      padLeft 16 (F.print (a.bind S.calculateAngularPart))]

/-- SetupAnalysis.cpp:34-36: a length divided by the number of points. -/
noncomputable def shapeStep (x : ℝ) (numPoints : ℕ) : Option ℝ := if numPoints = 0 then none else some (x / numPoints)

/-- SetupAnalysis.cpp:44-91: the file of symmetry function number `j` of an element. -/
noncomputable def writeShape (F : FloatText) (rc : ℝ) (numPoints : ℕ) (e : ShapeElement) (fs : Files) (p : SymFnc × ℕ) :
    Option Files := do
  let name ← shapeName e.Z (p.2 + 1)
  let header ← shapeHeader
  some (fs.write name (((e.info p.1.index).map fun l => "#SFINFO ".toList ++ l ++ ['\n']).flatten ++ header.flatten ++
    ((List.range (numPoints + 1)).map (shapeLine F p.1 (shapeStep rc numPoints) (shapeStep Real.pi numPoints))).flatten))

/-- SetupAnalysis.cpp:24-99 `writeSymmetryFunctionShape`, called by nnp-symfunc.cpp:56. -/
noncomputable def writeSymmetryFunctionShape (F : FloatText) (numPoints : ℕ) (els : List ShapeElement) (fs : Files) :
    Option Files :=
  els.foldlM (fun fs e => e.functions.zipIdx.foldlM (writeShape F (shapeCutoff els) numPoints e) fs) fs

end N2P2
