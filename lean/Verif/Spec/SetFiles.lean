import Verif.Model.SetFiles
import Verif.Spec.DataFile
import Verif.Spec.Training

/-! What is expected from the files with the training and the test set. -/

namespace N2P2

variable {Byte : Type}

/-- `t` is a copy of structure number `i`, which has the lines `l`: whatever number `k` it gets in another
data file, what is read from `t` agrees with what is read from `l`. -/
def DataSetup.SameSection (D : DataSetup Byte) (i : ℕ) (l t : List Str) : Prop :=
  IsSection t ∧ ∃ u, (Structure.forReading D.m i).readFromLines D.N D.m l = some u ∧
    ∀ k, ∃ v, (Structure.forReading D.m k).readFromLines D.N D.m t = some v ∧
      u.FileCopy D.N D.m true k v

/-- The text of a file consists of copies of the structures with the numbers `I` of the data file `L`, one
behind the other. -/
def DataSetup.CopiesOf (D : DataSetup Byte) (L : List (List Str)) (I : List ℕ) (text : Str) : Prop :=
  ∃ T : List (List Str), readLines text = T.flatten ∧
    List.Forall₂ (fun i t => ∃ l, L[i]? = some l ∧ D.SameSection i l t) I T

/-- What is read from every structure of the data file can be written. -/
def DataSetup.Writable (D : DataSetup Byte) (l : List Str) : Prop :=
  ∀ k u, (Structure.forReading D.m k).readFromLines D.N D.m l = some u → u.Filable D.N D.m true

/-- The line "begin" of the lines `l` has no further words. -/
def NamesNoSet (l : List Str) : Prop := ∃ b rest, l = b :: rest ∧ split (reduce b) = [keyBegin]

/-- The structure is marked by "begin set=train". -/
def MarkedTrain (l : List Str) : Prop :=
  ∃ b rest, l = b :: rest ∧ split (reduce b) = [keyBegin, "set=train".toList]

/-- The structure is marked by "begin set=test". -/
def MarkedTest (l : List Str) : Prop :=
  ∃ b rest, l = b :: rest ∧ split (reduce b) = [keyBegin, "set=test".toList]

end N2P2
