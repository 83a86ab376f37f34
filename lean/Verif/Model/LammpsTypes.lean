import Verif.Model.Lammps
import Verif.Model.ElementMap
import Verif.Model.ScalingFile

/-! Which element of the potential an atom type of LAMMPS is: the command `pair_coeff` of the pair style
(interface/LAMMPS/src/ML-HDNNP/pair_hdnnp.cpp) and the end of `InterfaceLammps::initialize`
(libnnpif/LAMMPS/InterfaceLammps.cpp). Log output and the texts of messages are left out. -/

namespace N2P2

/-- How a function may fail: an exception, `error->all` of LAMMPS, or undefined behaviour. -/
inductive LmpErr
  | exception
  | lammps
  | undefined
  deriving DecidableEq

/-! ### The pair style -/

/-- pair_hdnnp.cpp:200-205: the mapping string. `args` are the arguments after the two asterisks;
argument `i` (from 0) belongs to atom type `i + 1`. -/
def coeffMapping (args : List Str) : Str :=
  args.zipIdx.foldl (fun emap p =>
    if p.1 ≠ "NULL".toList then
      (if emap ≠ [] then emap ++ [','] else emap) ++ (natText (p.2 + 1) ++ ':' :: p.1)
    else emap) []

/-- pair_hdnnp.cpp:197-198, 205: the array `map` of `n + 1` integers. The first loop initializes the entries
`0, …, n - 1`; `none` is a value which was never set. -/
def coeffMap (n : ℕ) (args : List Str) : List (Option ℤ) :=
  args.zipIdx.foldl (fun map p =>
    if p.1 ≠ "NULL".toList then map.set (p.2 + 1) (some 1) else map)
    (List.replicate n (some 0) ++ [none])

/-- `map[i] > 0`. -/
def mapPositive (map : List (Option ℤ)) (i : ℕ) : Except LmpErr Bool :=
  match map[i]? with
  | some (some v) => .ok (decide (v > 0))
  | _ => .error .undefined

/-- pair_hdnnp.cpp:212-215: one pair of types. The second operand of `&&` is evaluated only if the first is
true. -/
def coeffPair (map : List (Option ℤ)) (s : (ℕ → ℕ → Bool) × ℕ) (p : ℕ × ℕ) :
    Except LmpErr ((ℕ → ℕ → Bool) × ℕ) :=
  match mapPositive map p.1 with
  | .error e => .error e
  | .ok false => .ok s
  | .ok true =>
    match mapPositive map p.2 with
    | .error e => .error e
    | .ok false => .ok s
    | .ok true => .ok (fun i j => if i = p.1 ∧ j = p.2 then true else s.1 i j, s.2 + 1)

/-- The pairs of the two loops in pair_hdnnp.cpp:210-211. -/
def typePairs (n : ℕ) : List (ℕ × ℕ) :=
  (List.range n).flatMap fun i => (List.range (n - i)).map fun d => (i + 1, i + 1 + d)

/-- pair_hdnnp.cpp:186-220 `PairHDNNP::coeff`: the mapping string and `setflag`. `setflag` at the beginning is
what `allocate` or an earlier call left. -/
def coeff (n : ℕ) (setflag : ℕ → ℕ → Bool) (arg : List Str) : Except LmpErr (Str × (ℕ → ℕ → Bool)) :=
  if arg.length ≠ 2 + n then .error .lammps
  else if arg[0]? ≠ some ['*'] ∨ arg[1]? ≠ some ['*'] then .error .lammps
  else
    match (typePairs n).foldlM (coeffPair (coeffMap n (arg.drop 2))) (setflag, 0) with
    | .error e => .error e
    | .ok s => if s.2 = 0 then .error .lammps else .ok (coeffMapping (arg.drop 2), s.1)

/-! ### The interface -/

/-- Loop of `reduce` (utility.cpp:66-74) with an empty `fill`. -/
def reduceNoneFuel : ℕ → Str → Str
  | 0, s => s
  | _ + 1, [] => []
  | n + 1, c :: cs =>
    if isBlank c then reduceNoneFuel n (cs.dropWhile isBlank) else c :: reduceNoneFuel n cs

/-- utility.cpp:60-77 `reduce(line, " \t", "")`. -/
def reduceNone (s : Str) : Str := reduceNoneFuel (trim s).length (trim s)

/-- Sign and digits at the beginning of a text, as `strtol` reads them behind white space. `none`: no digits.
What follows the digits is not looked at. -/
def signedDigits : Str → Option ℤ
  | '-' :: t => if leadingDigits t = [] then none else some (-(Nat.ofDigitChars 10 (leadingDigits t) 0 : ℕ))
  | '+' :: t => if leadingDigits t = [] then none else some (Nat.ofDigitChars 10 (leadingDigits t) 0 : ℕ)
  | t => if leadingDigits t = [] then none else some (Nat.ofDigitChars 10 (leadingDigits t) 0 : ℕ)

/-- `std::stoi`. `none` is an exception (no digits, or not an `int`). (White space other than blanks does not
occur here.) -/
def stoi (s : Str) : Option ℤ :=
  match signedDigits (s.dropWhile isBlank) with
  | none => none
  | some v => if -(2 ^ 31) ≤ v ∧ v < 2 ^ 31 then some v else none

/-- InterfaceLammps.cpp:200-218: one entry of the mapping string, added to `mapTypeToElement`. -/
def addType (E : EMap) (n : ℕ) (m : CMap ℤ ℕ) (s : Str) : Except LmpErr (CMap ℤ ℕ) :=
  match split s ':' with
  | [a, b] =>
    match stoi a with
    | none => .error .exception
    | some t =>
      if t > n then .error .exception
      else match E.index b with
        | .error _ => .error .exception
        | .ok e => .ok (m.set t e)
  | _ => .error .exception

/-- InterfaceLammps.cpp:168-219: `mapTypeToElement`, for `n` types of LAMMPS. (`mapElementToType` is never
read.) -/
def typeMap (E : EMap) (emap : Str) (n : ℕ) : Except LmpErr (CMap ℤ ℕ) :=
  if emap = [] then
    if E.size ≠ n then .error .exception
    else .ok (loop n (fun i m => m.set (i + 1) i) [])
  else
    let emapSplit := split (reduceNone (trim emap)) ','
    if E.size < emapSplit.length then .error .exception
    else emapSplit.foldlM (addType E n) []

/-- InterfaceLammps.cpp:227-244: the loop over types `1, …, n` which writes the table to the log and sets
`ignoreType`. Symbol and atomic number of the element are looked up for the table. -/
def ignoreTypes (E : EMap) (m : CMap ℤ ℕ) (n : ℕ) : Except LmpErr (CMap ℤ Bool) :=
  (List.range n).foldlM (fun (ign : CMap ℤ Bool) (k : ℕ) =>
    match m.find? (k + 1) with
    | none => .ok (ign.set (k + 1) true)
    | some e =>
      match E.symbol e with
      | .error _ => .error .exception
      | .ok s =>
        match atomicNumber s with
        | .error _ => .error .exception
        | .ok _ => .ok (ign.set (k + 1) false)) []

open Classical in
/-- InterfaceLammps.cpp:144-244: the part of `initialize` behind the setup of the potential, for `n` types of
LAMMPS and the cutoff radius `rc` of the pair style. `typeToElement t` is what `ignoreType[t]` and
`mapTypeToElement[t]` give in InterfaceLammps.cpp:286, 293, 419, 429 (`operator[]` inserts `false` or 0). -/
noncomputable def Lammps.initialize (L : Lammps) (E : EMap) (emap : Str) (rc : ℝ) (n : ℕ) :
    Except LmpErr Lammps :=
  if rc < L.getMaxCutoffRadius then .error .exception
  else
    match typeMap E emap n with
    | .error e => .error e
    | .ok m =>
      match ignoreTypes E m n with
      | .error e => .error e
      | .ok ign => .ok { L with
          typeToElement := fun t =>
            if (ign.find? t).getD false then none else some ((m.find? t).getD 0) }

end N2P2
