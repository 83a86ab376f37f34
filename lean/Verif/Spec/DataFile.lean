import Verif.Model.DataFile
import Verif.Spec.StructureFile
import Verif.Spec.Message

/-! What is expected from data files with many structures. -/

namespace N2P2

/-- The lines of one structure: from "begin" to "end", no such line and no blank line in between. -/
def IsSection (l : List Str) : Prop :=
  ∃ b body e, l = b :: (body ++ [e]) ∧ firstWord b = some keyBegin ∧ firstWord e = some keyEnd ∧
    ∀ x ∈ body, ∃ w, firstWord x = some w ∧ w ≠ keyBegin ∧ w ≠ keyEnd

/-- Sum of the offsets of the atoms. -/
noncomputable def Structure.offsetSum (offs : List ℝ) (u : Structure) : ℝ :=
  (u.atoms.map fun a => offs.getD a.element 0).sum

variable {Byte : Type}

/-- What a process holds for the lines `l`, structure number `k` in the file: what is read from these
lines alone, with the offsets subtracted from the energy. -/
def DataSetup.Holds (D : DataSetup Byte) (l : List Str) (k : ℕ) (v : Structure) : Prop :=
  ∃ u, (Structure.forReading D.m k).readFromLines D.N D.m l = some u ∧
    v = { u with energyRef := u.energyRef - u.offsetSum D.offs }

/-- The lines `l` describe a structure which can be read, and sent to other processes. -/
def DataSetup.Readable (D : DataSetup Byte) (l : List Str) : Prop :=
  IsSection l ∧ ∀ k, ∃ u, (Structure.forReading D.m k).readFromLines D.N D.m l = some u ∧
    Char.ofNat 0 ∉ u.comment ∧ u.messageBytes D.F < 2 ^ 31

/-- One offset for each element; sizes in messages arrive (see C52). -/
structure DataSetup.Sane (D : DataSetup Byte) : Prop where
  offs : D.offs.length = D.m.size
  machine : D.machine.Survives

/-- Bytes of the message for a structure of `n` atoms just read, with `k` elements and a comment of `c`
letters. -/
def newMessageBytes (F : MpiFormat Byte) (n k c : ℕ) : ℕ :=
  (6 + c + 4 * n) * F.size .char + 4 * F.size .int + n * F.size .int64 +
    (7 + k + n * (15 + k)) * F.size .sizeT + (23 + 13 * n) * F.size .double

end N2P2
