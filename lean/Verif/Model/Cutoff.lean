import Mathlib.Analysis.SpecialFunctions.Trigonometric.Basic
import Mathlib.Analysis.SpecialFunctions.Exp
import Mathlib.Analysis.SpecialFunctions.Sqrt

/-! Core, cutoff, compact and screening functions. `double` is ℝ; the constants `PI`, `PI_2`, `E`
are the real numbers π, π/2, e. -/

namespace N2P2

/-- CoreFunction.h:32-52 `CoreFunction::Type`. -/
inductive CoreType
  | COS | POLY1 | POLY2 | POLY3 | POLY4 | EXP
  deriving DecidableEq

/-- CoreFunction.h:118-130 members of `CoreFunction` (the function pointers are determined by
`type`, CoreFunction.cpp:39-86). -/
structure CoreFunction where
  type : CoreType
  asymmetric : Bool

namespace CoreType

/-- CoreFunction.h:204-207, 222-225, 239-242, 257-261, 276-281, 301-304: the functions `fPtr` can
point to. For `EXP` and `x² = 1` the code divides by zero; see `CoreFunction.Defined`. -/
noncomputable def f (t : CoreType) (x : ℝ) : ℝ :=
  match t with
  | COS => 0.5 * (Real.cos (Real.pi * x) + 1.0)
  | POLY1 => (2.0 * x - 3.0) * x * x + 1.0
  | POLY2 => ((15.0 - 6.0 * x) * x - 10.0) * x * x * x + 1.0
  | POLY3 =>
    let x2 := x * x
    (x * (x * (20.0 * x - 70.0) + 84.0) - 35.0) * x2 * x2 + 1.0
  | POLY4 =>
    let x2 := x * x
    (x * (x * ((315.0 - 70.0 * x) * x - 540.0) + 420.0) - 126.0) * x2 * x2 * x + 1.0
  | EXP => Real.exp 1 * Real.exp (1.0 / (x * x - 1.0))

/-- CoreFunction.h:209-212, 227-230, 244-247, 263-266, 283-288, 306-310. -/
noncomputable def df (t : CoreType) (x : ℝ) : ℝ :=
  match t with
  | COS => -(Real.pi / 2) * Real.sin (Real.pi * x)
  | POLY1 => x * (6.0 * x - 6.0)
  | POLY2 => x * x * ((60.0 - 30.0 * x) * x - 30.0)
  | POLY3 => x * x * x * (x * (x * (140.0 * x - 420.0) + 420.0) - 140.0)
  | POLY4 =>
    let x2 := x * x
    x2 * x2 * (x * (x * ((2520.0 - 630.0 * x) * x - 3780.0) + 2520.0) - 630.0)
  | EXP =>
    let temp := 1.0 / (x * x - 1.0)
    (-2.0) * Real.exp 1 * x * temp * temp * Real.exp temp

/-- CoreFunction.h:214-220, 232-237, 249-255, 268-274, 290-299, 312-319: value and derivative. -/
noncomputable def fdf (t : CoreType) (x : ℝ) : ℝ × ℝ :=
  match t with
  | COS =>
    let temp := Real.cos (Real.pi * x)
    (0.5 * (temp + 1.0), -0.5 * Real.pi * Real.sqrt (1.0 - temp * temp))
  | POLY1 => ((2.0 * x - 3.0) * x * x + 1.0, x * (6.0 * x - 6.0))
  | POLY2 =>
    let x2 := x * x
    (((15.0 - 6.0 * x) * x - 10.0) * x * x2 + 1.0, x2 * ((60.0 - 30.0 * x) * x - 30.0))
  | POLY3 =>
    let x2 := x * x
    ((x * (x * (20.0 * x - 70.0) + 84.0) - 35.0) * x2 * x2 + 1.0,
      x2 * x * (x * (x * (140.0 * x - 420.0) + 420.0) - 140.0))
  | POLY4 =>
    let x4 := x * x * (x * x)
    ((x * (x * ((315.0 - 70.0 * x) * x - 540.0) + 420.0) - 126.0) * x * x4 + 1.0,
      x4 * (x * (x * ((2520.0 - 630.0 * x) * x - 3780.0) + 2520.0) - 630.0))
  | EXP =>
    let temp := 1.0 / (x * x - 1.0)
    let temp2 := Real.exp temp
    (Real.exp 1 * temp2, -2.0 * Real.exp 1 * x * temp * temp * temp2)

end CoreType

namespace CoreFunction

/-- Argument handed to the selected function, CoreFunction.h:174, 182, 194. -/
noncomputable def arg (c : CoreFunction) (x : ℝ) : ℝ := if c.asymmetric then (2.0 - x) * x else x

/-- No division by zero happens when evaluating at `x`. -/
def Defined (c : CoreFunction) (x : ℝ) : Prop := c.type = .EXP → c.arg x * c.arg x - 1 ≠ 0

/-- CoreFunction.h:171-177 -/
noncomputable def f (c : CoreFunction) (x : ℝ) : ℝ :=
  let x := if c.asymmetric then (2.0 - x) * x else x
  c.type.f x

/-- CoreFunction.h:179-187 -/
noncomputable def df (c : CoreFunction) (x : ℝ) : ℝ :=
  if c.asymmetric then (2.0 - 2.0 * x) * c.type.df ((2.0 - x) * x) else c.type.df x

/-- CoreFunction.h:189-202 -/
noncomputable def fdf (c : CoreFunction) (x : ℝ) : ℝ × ℝ :=
  if c.asymmetric then
    let p := c.type.fdf ((2.0 - x) * x)
    (p.1, p.2 * (2.0 - 2.0 * x))
  else c.type.fdf x

end CoreFunction

/-- CutoffFunction.h:43-72 `CutoffType`. -/
inductive CutoffType
  | HARD | COS | TANHU | TANH | EXP | POLY1 | POLY2 | POLY3 | POLY4
  deriving DecidableEq

/-- CutoffFunction.h:132-144 members of `CutoffFunction`. -/
structure CutoffFunction where
  cutoffType : CutoffType
  rc : ℝ
  rcinv : ℝ
  rci : ℝ
  alpha : ℝ
  iw : ℝ
  core : CoreFunction

namespace CutoffFunction

/-- CutoffFunction.cpp:30-40; the core function is `POLY2`, symmetric (CoreFunction.cpp:28-37). -/
noncomputable def init : CutoffFunction := ⟨.HARD, 0, 0, 0, 0, 0, ⟨.POLY2, false⟩⟩

/-- CutoffFunction.cpp:42-93 (the enumeration has no further values). -/
def setCutoffType (c : CutoffFunction) (t : CutoffType) : CutoffFunction :=
  { c with
    cutoffType := t
    core := match t with
      | .POLY1 => { c.core with type := .POLY1 }
      | .POLY2 => { c.core with type := .POLY2 }
      | .POLY3 => { c.core with type := .POLY3 }
      | .POLY4 => { c.core with type := .POLY4 }
      | .EXP => { c.core with type := .EXP }
      | _ => c.core }

/-- CutoffFunction.cpp:95-100 -/
noncomputable def setCutoffRadius (c : CutoffFunction) (r : ℝ) : CutoffFunction :=
  { c with rc := r, rcinv := 1.0 / r }

open Classical in
/-- CutoffFunction.cpp:102-112; `none` is the exception. -/
noncomputable def setCutoffParameter (c : CutoffFunction) (a : ℝ) : Option CutoffFunction :=
  if a < 0 ∨ a ≥ 1 then none
  else some { c with alpha := a, rci := c.rc * a, iw := 1.0 / (c.rc - c.rc * a) }

/-- CutoffFunction.cpp:28 -/
noncomputable def TANH_PRE : ℝ :=
  ((Real.exp 1 + 1 / Real.exp 1) / (Real.exp 1 - 1 / Real.exp 1)) ^ 3

open Classical in
/-- CutoffFunction.h:222-225, CutoffFunction.cpp:114-119, 143-147, 165-169, 187-192. -/
noncomputable def fInner (c : CutoffFunction) (r : ℝ) : ℝ :=
  match c.cutoffType with
  | .HARD => 1.0
  | .COS =>
    if r < c.rci then 1.0
    else
      let x := (r - c.rci) * c.iw
      0.5 * (Real.cos (Real.pi * x) + 1.0)
  | .TANHU =>
    let temp := Real.tanh (1.0 - r * c.rcinv)
    temp * temp * temp
  | .TANH =>
    let temp := Real.tanh (1.0 - r * c.rcinv)
    TANH_PRE * temp * temp * temp
  | _ =>
    if r < c.rci then 1.0
    else
      let x := (r - c.rci) * c.iw
      c.core.f x

open Classical in
/-- CutoffFunction.h:227-230, CutoffFunction.cpp:121-126, 149-154, 171-176, 194-199. -/
noncomputable def dfInner (c : CutoffFunction) (r : ℝ) : ℝ :=
  match c.cutoffType with
  | .HARD => 0.0
  | .COS =>
    if r < c.rci then 0.0
    else
      let x := (r - c.rci) * c.iw
      (-(Real.pi / 2)) * c.iw * Real.sin (Real.pi * x)
  | .TANHU =>
    let temp := Real.tanh (1.0 - r * c.rcinv)
    let temp := temp * temp
    3.0 * temp * (temp - 1.0) * c.rcinv
  | .TANH =>
    let temp := Real.tanh (1.0 - r * c.rcinv)
    let temp := temp * temp
    3.0 * TANH_PRE * temp * (temp - 1.0) * c.rcinv
  | _ =>
    if r < c.rci then 0.0
    else
      let x := (r - c.rci) * c.iw
      c.iw * c.core.df x

open Classical in
/-- CutoffFunction.h:232-239, CutoffFunction.cpp:128-141, 156-163, 178-185, 201-213. -/
noncomputable def fdfInner (c : CutoffFunction) (r : ℝ) : ℝ × ℝ :=
  match c.cutoffType with
  | .HARD => (1.0, 0.0)
  | .COS =>
    if r < c.rci then (1.0, 0.0)
    else
      let x := (r - c.rci) * c.iw
      let temp := Real.cos (Real.pi * x)
      (0.5 * (temp + 1.0), -0.5 * c.iw * Real.pi * Real.sqrt (1.0 - temp * temp))
  | .TANHU =>
    let temp := Real.tanh (1.0 - r * c.rcinv)
    let temp2 := temp * temp
    (temp * temp2, 3.0 * temp2 * (temp2 - 1.0) * c.rcinv)
  | .TANH =>
    let temp := Real.tanh (1.0 - r * c.rcinv)
    let temp2 := temp * temp
    (TANH_PRE * temp * temp2, 3.0 * TANH_PRE * temp2 * (temp2 - 1.0) * c.rcinv)
  | _ =>
    if r < c.rci then (1.0, 0.0)
    else
      let x := (r - c.rci) * c.iw
      let p := c.core.fdf x
      (p.1, p.2 * c.iw)

open Classical in
/-- CutoffFunction.h:198-202 -/
noncomputable def f (c : CutoffFunction) (r : ℝ) : ℝ := if r ≥ c.rc then 0.0 else c.fInner r

open Classical in
/-- CutoffFunction.h:204-208 -/
noncomputable def df (c : CutoffFunction) (r : ℝ) : ℝ := if r ≥ c.rc then 0.0 else c.dfInner r

open Classical in
/-- CutoffFunction.h:210-220 -/
noncomputable def fdf (c : CutoffFunction) (r : ℝ) : ℝ × ℝ :=
  if r ≥ c.rc then (0.0, 0.0) else c.fdfInner r

end CutoffFunction

/-- `std::copysign(x, a)` for real numbers; a zero `a` counts as positive (the callers produce zeros
only by subtracting equal numbers, which gives +0). -/
noncomputable def copysign (x a : ℝ) : ℝ := open Classical in if a < 0 then -|x| else |x|

/-- CompactFunction.h:112-123 -/
structure CompactFunction where
  center : ℝ
  width : ℝ
  left : ℝ
  right : ℝ
  scale : ℝ
  core : CoreFunction

namespace CompactFunction

/-- CompactFunction.cpp:23-30 -/
noncomputable def init : CompactFunction := ⟨0, 0, 0, 0, 0, ⟨.POLY2, false⟩⟩

open Classical in
/-- CompactFunction.cpp:47-61; `none` is the exception. -/
noncomputable def setCenterWidth (c : CompactFunction) (center width : ℝ) :
    Option CompactFunction :=
  if width ≤ 0 then none
  else some { c with
    center := center, width := width, left := center - width, right := center + width,
    scale := 1.0 / width }

open Classical in
/-- CompactFunction.cpp:63-77; `none` is the exception. -/
noncomputable def setLeftRight (c : CompactFunction) (left right : ℝ) : Option CompactFunction :=
  if left ≥ right then none
  else some { c with
    left := left, right := right, center := (right + left) / 2.0, width := (right - left) / 2.0,
    scale := 1.0 / ((right - left) / 2.0) }

/-- CompactFunction.h:148-152 -/
noncomputable def f (c : CompactFunction) (a : ℝ) : ℝ :=
  let a := (a - c.center) * c.scale
  c.core.f |a|

/-- CompactFunction.h:154-158 -/
noncomputable def df (c : CompactFunction) (a : ℝ) : ℝ :=
  let a := (a - c.center) * c.scale
  copysign (c.scale * c.core.df |a|) a

/-- CompactFunction.h:160-167 -/
noncomputable def fdf (c : CompactFunction) (a : ℝ) : ℝ × ℝ :=
  let a := (a - c.center) * c.scale
  let p := c.core.fdf |a|
  (p.1, p.2 * copysign c.scale a)

/-- No division by zero happens when evaluating at `a`. -/
def Defined (c : CompactFunction) (a : ℝ) : Prop := c.core.Defined |(a - c.center) * c.scale|

end CompactFunction

/-- ScreeningFunction.h:92-99 -/
structure ScreeningFunction where
  inner : ℝ
  outer : ℝ
  scale : ℝ
  core : CoreFunction

namespace ScreeningFunction

/-- ScreeningFunction.cpp:24-29 -/
noncomputable def init : ScreeningFunction := ⟨0, 0, 0, ⟨.POLY2, false⟩⟩

/-- ScreeningFunction.h:107-112 -/
def setCoreFunction (s : ScreeningFunction) (t : CoreType) : ScreeningFunction :=
  { s with core := { s.core with type := t } }

open Classical in
/-- ScreeningFunction.cpp:31-44; `none` is the exception. -/
noncomputable def setInnerOuter (s : ScreeningFunction) (inner outer : ℝ) :
    Option ScreeningFunction :=
  if inner ≥ outer then none
  else some { s with inner := inner, outer := outer, scale := 1.0 / (outer - inner) }

/-- ScreeningFunction.cpp:46-51 -/
noncomputable def changeLengthUnits (s : ScreeningFunction) (conv : ℝ) : ScreeningFunction :=
  { s with inner := s.inner * conv, outer := s.outer * conv, scale := s.scale / conv }

open Classical in
/-- ScreeningFunction.h:135-140 -/
noncomputable def f (s : ScreeningFunction) (r : ℝ) : ℝ :=
  if r ≥ s.outer then 1.0
  else if r ≤ s.inner then 0.0
  else 1.0 - s.core.f ((r - s.inner) * s.scale)

open Classical in
/-- ScreeningFunction.h:142-146 -/
noncomputable def df (s : ScreeningFunction) (r : ℝ) : ℝ :=
  if r ≥ s.outer ∨ r ≤ s.inner then 0.0
  else -s.scale * s.core.df ((r - s.inner) * s.scale)

open Classical in
/-- ScreeningFunction.h:148-168 -/
noncomputable def fdf (s : ScreeningFunction) (r : ℝ) : ℝ × ℝ :=
  if r ≥ s.outer then (1.0, 0.0)
  else if r ≤ s.inner then (0.0, 0.0)
  else
    let p := s.core.fdf ((r - s.inner) * s.scale)
    (1.0 - p.1, -s.scale * p.2)

end ScreeningFunction

end N2P2
