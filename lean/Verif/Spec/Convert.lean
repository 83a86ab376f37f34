import Verif.Model.Convert
import Verif.Spec.DataFile

/-! How the files written by nnp-convert are read by other programs. -/

namespace N2P2

/-- What such files tell: box, elements and positions. -/
structure Frame where
  lattice : Option (Fin 3 → Vec3)
  atoms : List (Str × Vec3)

/-- A line with three numbers. -/
def ShowsVec (N : NumberText) (line : Str) (v : Vec3) : Prop :=
  ∃ a b c, SpecTokens line [a, b, c] ∧ v = ![N.atof a, N.atof b, N.atof c]

/-- A line with an element and its position. -/
def ShowsAtom (N : NumberText) (line : Str) (a : Str × Vec3) : Prop :=
  ∃ x y z, SpecTokens line [a.1, x, y, z] ∧ a.2 = ![N.atof x, N.atof y, N.atof z]

/-- Second line of a frame: the box, row by row, between quotation marks; or an empty line. -/
def ShowsLattice (N : NumberText) (line : Str) : Option (Fin 3 → Vec3) → Prop
  | none => line = []
  | some box => ∃ t ws, line = "Lattice=\"".toList ++ t ++ ['"'] ∧ '"' ∉ t ∧ SpecTokens t ws ∧
      ws.map N.atof = [box 0 0, box 0 1, box 0 2, box 1 0, box 1 1, box 1 2, box 2 0, box 2 1,
        box 2 2]

/-- Extended XYZ files, with any number of frames: number of atoms, box, one line for each atom. -/
inductive ReadsXyz (N : NumberText) : List Str → List Frame → Prop
  | done : ReadsXyz N [] []
  | frame {head comment body rest F Fs} : SpecTokens head [natText F.atoms.length] →
      ShowsLattice N comment F.lattice → List.Forall₂ (ShowsAtom N) body F.atoms →
      ReadsXyz N rest Fs → ReadsXyz N (head :: comment :: (body ++ rest)) (F :: Fs)

/-- POSCAR files: title with the elements, scale, three lines with the box, numbers of atoms of the
elements, kind of coordinates, and the positions, one element behind the other. -/
def ReadsPoscar (N : NumberText) (lines : List Str) (title : Str) (F : Frame) : Prop :=
  ∃ symbols ns box l0 l1 l2 counts pos vs,
    lines = (title ++ ", ATOM=".toList ++ joinWords symbols) :: "1.0".toList :: l0 :: l1 :: l2 ::
      counts :: "Cartesian".toList :: pos ∧
    (∀ w ∈ symbols, IsWord w) ∧
    ShowsVec N l0 (box 0) ∧ ShowsVec N l1 (box 1) ∧ ShowsVec N l2 (box 2) ∧
    SpecTokens counts (ns.map natText) ∧ ns.length = symbols.length ∧
    List.Forall₂ (ShowsVec N) pos vs ∧ pos.length = ns.sum ∧
    F.lattice = some box ∧
    F.atoms = List.zip ((List.zip symbols ns).flatMap fun p => List.replicate p.2 p.1) vs

/-- Symbol of an element. -/
def EMap.symbolOf (m : EMap) (e : ℕ) : Str := ((m.symbol e).toOption).getD []

/-- What the files should tell about a structure. -/
noncomputable def Structure.frame (N : NumberText) (m : EMap) (u : Structure) : Frame :=
  { lattice := if u.isPeriodic then some (u.roundedBox N) else none
    atoms := u.atoms.map fun a => (m.symbolOf a.element, N.roundedVec a.r) }

/-- Element after element, as in POSCAR files. -/
def Frame.grouped (F : Frame) (order : List Str) : Frame :=
  { F with atoms := order.flatMap fun w => F.atoms.filter fun a => a.1 = w }

/-- Arguments for the elements: known, each once. -/
def GoodElements (args : List Str) : Prop := args ≠ [] ∧ args.Nodup ∧ ∀ w ∈ args, w ∈ knownElements

/-- Numbers are printed without quotation marks. -/
def NumberText.Unquoted (N : NumberText) : Prop := ∀ x, '"' ∉ N.print x

end N2P2
