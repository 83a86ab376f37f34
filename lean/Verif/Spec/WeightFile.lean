import Verif.Model.WeightFile
import Verif.Spec.StructureFile
import Verif.Spec.NeuralNetwork

/-! What is expected from files with network parameters and hardness. -/

namespace N2P2

open NeuralNetwork

/-- A comment line: begins with the comment character, ends with the only line end in it. -/
def IsCommentLine (c : Char) (l : Str) : Prop := ∃ t, l = c :: t ++ ['\n'] ∧ '\n' ∉ c :: t

/-- Printed numbers are words of at most 24 characters which do not begin with `#`. -/
def NumberText.Data (N : NumberText) : Prop := N.Sane ∧ ∀ x, (N.print x).head? ≠ some '#'

/-- A format short enough for the text buffers. -/
def NameFormat.Short (f : NameFormat) : Prop := f.pre.length + f.suf.length ≤ 900

/-- The atomic number belongs to the symbol. -/
def NetElement.Known (e : NetElement) : Prop := N2P2.atomicNumber e.symbol = .ok e.atomicNumber

/-- A network has parameters, and its sizes are of type `int`. -/
def IntSized (L : ℕ) (n : ℕ → ℕ) : Prop :=
  L < 2 ^ 31 ∧ (∀ l < L, n l < 2 ^ 31) ∧ NetShape.offset n (L - 1) < 2 ^ 31 ∧
    0 < NetShape.offset n (L - 1)

/-- The element has a network `id` of this architecture, with any past. -/
def NetElement.HasNet (e : NetElement) (id : Str) (L : ℕ) (n : ℕ → ℕ) (af : ℕ → Activation) : Prop :=
  ∃ nn, e.neuralNetworks.find? id = some nn ∧ Reachable L n af nn

/-- The same element in another program: its network `id` has the same architecture. -/
def Counterpart (id : Str) (e e' : NetElement) : Prop :=
  e'.symbol = e.symbol ∧ e'.atomicNumber = e.atomicNumber ∧
    ∃ L n af, IntSized L n ∧ e.HasNet id L n af ∧ e'.HasNet id L n af

/-- Network `b` has the architecture of `a` and its parameters, up to the precision of the numbers in
files. -/
def Restored (N : NumberText) (a b : NeuralNetwork) : Prop :=
  ∀ L n af, Reachable L n af a →
    Reachable L n af b ∧ ∀ p : Param, p.Valid L n → p.read b = N.rounded (p.read a)

/-- `e''` is `e'`, but with the networks `ids` of `e`. -/
structure Loaded (N : NumberText) (ids : List Str) (e e' e'' : NetElement) : Prop where
  symbol : e''.symbol = e'.symbol
  number : e''.atomicNumber = e'.atomicNumber
  hardness : e''.hardness = e'.hardness
  net : ∀ id ∈ ids, ∃ a b, e.neuralNetworks.find? id = some a ∧
    e''.neuralNetworks.find? id = some b ∧ Restored N a b
  others : ∀ id, id ∉ ids → e''.neuralNetworks.find? id = e'.neuralNetworks.find? id

/-- Element by element. -/
def LoadedAll (N : NumberText) (ids : List Str) :
    List NetElement → List NetElement → List NetElement → Prop
  | [], [], [] => True
  | e :: es, e' :: es', e'' :: es'' => Loaded N ids e e' e'' ∧ LoadedAll N ids es es' es''
  | _, _, _ => False

/-- The elements of two programs, all known and different, with the same networks `ids`. -/
structure Matching (ids : List Str) (els els' : List NetElement) : Prop where
  known : ∀ e ∈ els, e.Known
  distinct : (els.map NetElement.symbol).Nodup
  counterpart : ∀ id ∈ ids, List.Forall₂ (Counterpart id) els els'

/-- No file is written for two different networks. -/
def NoClash (ids : List Str) (format : Str → NameFormat) : Prop :=
  ∀ k ∈ ids, ∀ k' ∈ ids, k ≠ k' → ∀ z z' t, (format k).name z = some t → (format k').name z' ≠ some t

/-- The lines of a file which count: not empty, not beginning with `#`. -/
def dataLines (text : Str) : List Str :=
  (readLines text).filter fun l => l ≠ [] ∧ l.head? ≠ some '#'

/-- `y` is a multiple of a power of ten, nearest to `x`, where the power is the last of six digits. -/
def SixDigits (x y : ℝ) : Prop :=
  (x = 0 ∧ y = 0) ∨ ∃ e : ℤ, (10 : ℝ) ^ e ≤ |x| ∧ |x| < (10 : ℝ) ^ (e + 1) ∧
    ∃ m : ℤ, y = m * (10 : ℝ) ^ (e - 5) ∧ ∀ m' : ℤ, |x - y| ≤ |x - m' * (10 : ℝ) ^ (e - 5)|

/-- `file << x` with six significant digits: a word which is read back as the number rounded. -/
def ShownShort (N : NumberText) (shown : ℝ → Str) : Prop :=
  ∀ x, IsWord (shown x) ∧ '\n' ∉ shown x ∧ (shown x).head? ≠ some '#' ∧
    SixDigits x (N.atof (shown x))

/-- The conversion factors are usable. -/
def ModeUnits.Usable (u : ModeUnits) : Prop := u.convEnergy ≠ 0 ∧ u.convCharge ≠ 0

end N2P2
