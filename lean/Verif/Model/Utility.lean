import Mathlib.Data.Real.Basic

/-!
Model of `/repo/src/libnnp/utility.cpp`: string helpers and the integer power.
`std::string` is a list of characters.
-/

namespace N2P2

/-- A C++ `std::string`. -/
abbrev Str := List Char

/-- Membership in the default whitespace set `" \t"` (utility.h:49 and utility.h:61). -/
def isBlank (c : Char) : Bool := c == ' ' || c == '\t'

/-- Fuelled loop of `split`: each round is one `getline(ss, item, delimiter)`.
`getline` fails (loop ends) exactly when no character is left in the stream.
utility.cpp:40-42. -/
def splitFuel (d : Char) : Nat → Str → List Str
  | 0, _ => []
  | _ + 1, [] => []
  | n + 1, c :: cs =>
    (c :: cs).takeWhile (· != d) ::
      splitFuel d n (((c :: cs).dropWhile (· != d)).drop 1)

/-- utility.cpp:33-45 `split(input, delimiter)` (default delimiter `' '`, utility.h:40).
Each round consumes at least one character, so the string length is enough fuel. -/
def split (s : Str) (d : Char := ' ') : List Str := splitFuel d s.length s

/-- utility.cpp:47-58 `trim`: cut before the first and after the last non-blank.
Simplification: the two index searches and `substr` are written as `dropWhile` from both ends. -/
def trim (s : Str) : Str :=
  ((s.dropWhile isBlank).reverse.dropWhile isBlank).reverse

/-- Loop of `reduce` (utility.cpp:66-74) with `fill = " "`: find the next blank, replace the
maximal run of blanks starting there by one `fill`, continue behind it. -/
def reduceFuel : Nat → Str → Str
  | 0, s => s
  | _ + 1, [] => []
  | n + 1, c :: cs =>
    if isBlank c then ' ' :: reduceFuel n (cs.dropWhile isBlank)
    else c :: reduceFuel n cs

/-- utility.cpp:60-77 `reduce(line)` with default whitespace and fill. -/
def reduce (s : Str) : Str := reduceFuel (trim s).length (trim s)

/-- Body and condition of the do-while loop in `pow_int` (utility.cpp:307-314);
`m` strictly decreases while it is non-zero. -/
noncomputable def powLoop (x result : ℝ) (m : Nat) : ℝ :=
  let result' := if m % 2 = 1 then result * x else result
  if m / 2 = 0 then result' else powLoop (x * x) result' (m / 2)
termination_by m
decreasing_by omega

/-- utility.cpp:292-317 `pow_int(x, n)`. `n` is a 32-bit `int`; negating the most negative `int`
is undefined behaviour (`none`), as is any `n` outside the type. -/
noncomputable def powInt (x : ℝ) (n : Int) : Option ℝ :=
  if n ≤ -(2 ^ 31) ∨ 2 ^ 31 ≤ n then none
  else if n < 0 then some (powLoop (1 / x) 1 (-n).toNat)
  else some (powLoop x 1 n.toNat)

end N2P2
