import Verif.Model.Settings
import Verif.Spec.Utility

/-! Specification vocabulary for settings files. -/

namespace N2P2

/-- Text of a line before the first comment character `#` or `!`. -/
def uncommented (line : Str) : Str := line.takeWhile (fun c => c != '#' && c != '!')

/-- The line defines keyword `k` with value `v`: the words before any comment are `k` followed by
the words of `v` (joined by single spaces). A lone carriage return counts as an empty line. -/
def SpecEntry (line k v : Str) : Prop :=
  line ≠ ['\r'] ∧ ∃ ts, SpecTokens (uncommented line) (k :: ts) ∧ v = [' '].intercalate ts

/-- Two lines with the same words before any comment. -/
def SameLine (l l' : Str) : Prop :=
  (l = ['\r'] ↔ l' = ['\r']) ∧
    ∀ ts, SpecTokens (uncommented l) ts ↔ SpecTokens (uncommented l') ts

/-- Keyword `k` occurs in the parsed contents. -/
def Present (c : Contents) (k : Str) : Prop := ∃ e ∈ c, e.key = k

end N2P2
