import Verif.Model.Cutoff

/-! Vocabulary for the cutoff function properties: histories of setter calls. -/

namespace N2P2

/-- A call of one of the three setters of a cutoff function object. -/
inductive CutoffOp
  | type (t : CutoffType)
  | radius (rc : ℝ)
  | parameter (alpha : ℝ)

noncomputable def CutoffOp.apply (c : CutoffFunction) : CutoffOp → Option CutoffFunction
  | .type t => some (c.setCutoffType t)
  | .radius r => some (c.setCutoffRadius r)
  | .parameter a => c.setCutoffParameter a

/-- Run a history of setter calls on a new object; `none` if one of them throws. -/
noncomputable def CutoffOp.run (ops : List CutoffOp) : Option CutoffFunction :=
  ops.foldlM CutoffOp.apply CutoffFunction.init

/-- The history last asked for type `t`, radius `rc` and parameter `alpha`, and the parameter was
set (again) after the radius, as all callers in the library do. -/
def CutoffOp.Requests (ops : List CutoffOp) (t : CutoffType) (rc alpha : ℝ) : Prop :=
  (∃ pre post, ops = pre ++ .type t :: post ∧ ∀ o ∈ post, ∀ t', o ≠ .type t') ∧
  ∃ pre mid post, ops = pre ++ .radius rc :: (mid ++ .parameter alpha :: post) ∧
    (∀ o ∈ mid ++ post, ∀ r, o ≠ .radius r) ∧ (∀ o ∈ post, ∀ a, o ≠ .parameter a)

/-- Types with an inner radius. -/
def CutoffType.HasInner (t : CutoffType) : Prop := t ≠ .HARD ∧ t ≠ .TANHU ∧ t ≠ .TANH

/-- The object is in the state requested by some history of setter calls. -/
def CutoffFunction.Configured (c : CutoffFunction) (t : CutoffType) (rc alpha : ℝ) : Prop :=
  ∃ ops, CutoffOp.Requests ops t rc alpha ∧ CutoffOp.run ops = some c

/-- The object was obtained by one of the two ways of giving the support `[l, r]`. -/
def CompactFunction.Configured (c : CompactFunction) (t : CoreType) (asym : Bool)
    (l r : ℝ) : Prop :=
  c.core = ⟨t, asym⟩ ∧
  ((∃ c0 : CompactFunction, c0.setLeftRight l r = some c) ∨
   (∃ (c0 : CompactFunction) (m w : ℝ), c0.setCenterWidth m w = some c ∧ l = m - w ∧ r = m + w))

/-- The object was set up with inner and outer radius `i`, `o`. -/
def ScreeningFunction.Configured (s : ScreeningFunction) (i o : ℝ) : Prop :=
  ∃ s0 : ScreeningFunction, s0.setInnerOuter i o = some s

end N2P2
