import Mathlib.Data.Real.Basic
import Mathlib.Algebra.BigOperators.Group.Finset.Basic
import Mathlib.Algebra.BigOperators.Intervals

/-! C++ counting loops and writable arrays. -/

namespace N2P2

/-- `for (int i = 0; i < n; i++) s = body(i, s);`. -/
def loop {S : Type*} : ℕ → (ℕ → S → S) → S → S
  | 0, _, s => s
  | n + 1, body, s => body n (loop n body s)

/-- `for (int i = n - 1; i >= 0; i--) s = body(i, s);`. -/
def loopDown {S : Type*} : ℕ → (ℕ → S → S) → S → S
  | 0, _, s => s
  | n + 1, body, s => loopDown n body (body n s)

/-- A `double*` buffer: the value at each offset. Reads outside the allocated part are not
detected by this type; where it matters the theorems say which offsets are read and written. -/
abbrev Buf := ℕ → ℝ

/-- `a[i] = v`. -/
def Buf.set (a : Buf) (i : ℕ) (v : ℝ) : Buf := Function.update a i v

@[simp] theorem loop_zero {S : Type*} (b : ℕ → S → S) (s : S) : loop 0 b s = s := rfl

theorem loop_succ {S : Type*} (n : ℕ) (b : ℕ → S → S) (s : S) :
    loop (n + 1) b s = b n (loop n b s) := rfl

@[simp] theorem loopDown_zero {S : Type*} (b : ℕ → S → S) (s : S) : loopDown 0 b s = s := rfl

theorem loopDown_succ {S : Type*} (n : ℕ) (b : ℕ → S → S) (s : S) :
    loopDown (n + 1) b s = loopDown n b (b n s) := rfl

/-- A loop which only adds up is a sum. -/
theorem loop_add {M : Type*} [AddCommMonoid M] (n : ℕ) (f : ℕ → M) (s : M) :
    loop n (fun i d => d + f i) s = s + ∑ i ∈ Finset.range n, f i := by
  induction n with
  | zero => simp
  | succ n ih => rw [loop_succ, ih, Finset.sum_range_succ, add_assoc]

/-- Induction principle for loops. -/
theorem loop_induction {S : Type*} {n : ℕ} {b : ℕ → S → S} {s : S} (P : ℕ → S → Prop)
    (h0 : P 0 s) (hs : ∀ i < n, ∀ t, P i t → P (i + 1) (b i t)) : P n (loop n b s) := by
  have : ∀ m ≤ n, P m (loop m b s) := by
    intro m
    induction m with
    | zero => intro _; exact h0
    | succ m ih => intro hm; exact hs m (by omega) _ (ih (by omega))
  exact this n le_rfl

/-- Induction principle for descending loops. -/
theorem loopDown_induction {S : Type*} {n : ℕ} {b : ℕ → S → S} {s : S} (P : ℕ → S → Prop)
    (h0 : P n s) (hs : ∀ i < n, ∀ t, P (i + 1) t → P i (b i t)) : P 0 (loopDown n b s) := by
  induction n generalizing s with
  | zero => exact h0
  | succ n ih =>
    rw [loopDown_succ]
    exact ih (hs n (by omega) _ h0) (fun i hi t => hs i (by omega) t)

theorem loop_congr {S : Type*} {n : ℕ} {b b' : ℕ → S → S} (s : S)
    (h : ∀ i < n, ∀ t, b i t = b' i t) : loop n b s = loop n b' s := by
  induction n with
  | zero => rfl
  | succ n ih =>
    rw [loop_succ, loop_succ, ih (fun i hi t => h i (by omega) t), h n (by omega)]

theorem Buf.set_apply (a : Buf) (i j : ℕ) (v : ℝ) : a.set i v j = if j = i then v else a j := by
  unfold Buf.set; rw [Function.update_apply]

end N2P2
