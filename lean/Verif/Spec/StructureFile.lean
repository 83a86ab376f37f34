import Verif.Model.StructureFile
import Verif.Spec.Geometry
import Verif.Spec.Utility

/-! What is expected from writing a structure to a file and reading it back. -/

namespace N2P2

/-- A number after it was written and read. With 17 significant digits this is the number itself for every
finite double. -/
noncomputable def NumberText.rounded (N : NumberText) (x : ℝ) : ℝ := N.atof (N.print x)

/-- Component-wise. -/
noncomputable def NumberText.roundedVec (N : NumberText) (v : Vec3) : Vec3 := fun c => N.rounded (v c)

/-- What is printed: a word of at most 24 characters (sign, digit, point, 16 digits, `E`, sign and at most
three digits) without line ends. -/
def NumberText.Sane (N : NumberText) : Prop :=
  ∀ x, IsWord (N.print x) ∧ '\n' ∉ N.print x ∧ (N.print x).length ≤ 24

/-- Indices and symbols belong together: `m` was made from known elements. -/
def EMap.Sane (m : EMap) : Prop :=
  ∀ i, i < m.size → ∃ w ∈ knownElements, m.symbol i = .ok w ∧ m.index w = .ok i

/-- A comment without line end and zero byte, of at most 1014 characters. -/
def Commentary (c : Str) : Prop := '\n' ∉ c ∧ Char.ofNat 0 ∉ c ∧ c.length ≤ 1014

/-- The forces, charges and energies written: reference values or computed values. -/
def Atom.fileForce (a : Atom) (ref : Bool) : Vec3 := if ref then a.fRef else a.f
def Atom.fileCharge (a : Atom) (ref : Bool) : ℝ := if ref then a.chargeRef else a.charge
def Structure.fileEnergy (s : Structure) (ref : Bool) : ℝ := if ref then s.energyRef else s.energy
def Structure.fileCharge (s : Structure) (ref : Bool) : ℝ := if ref then s.chargeRef else s.charge

/-- A new structure, as prepared for reading. -/
def Structure.forReading (m : EMap) (k : ℕ) : Structure :=
  { (Structure.init.setElementMap m) with index := k }

/-- The box after writing and reading. -/
noncomputable def Structure.roundedBox (N : NumberText) (s : Structure) : Fin 3 → Vec3 :=
  fun k => N.roundedVec (s.box k)

/-- Conditions for structures which can be written and read: elements known, and if periodic, a box which
is not singular, no charge and atoms not farther than `2^31` boxes away. -/
structure Structure.Filable (N : NumberText) (m : EMap) (s : Structure) (ref : Bool) : Prop where
  comment : Commentary s.comment
  element : ∀ a ∈ s.atoms, a.element < m.size
  box : s.isPeriodic = true → NonSingular (s.roundedBox N)
  neutral : s.isPeriodic = true → |N.rounded (s.fileCharge ref)| ≤ 10 * doubleEpsilon
  near : s.isPeriodic = true → ∀ a ∈ s.atoms, ∃ f, N.roundedVec a.r = cartesian (s.roundedBox N) f ∧
    ∀ k, -2147483649 < f k ∧ f k < 2147483648

/-- `b`, number `i` of structure `k`, agrees with `a` up to the precision of the numbers; in a periodic
structure up to a lattice vector. -/
structure Atom.FileCopy (N : NumberText) (ref pbc : Bool) (box : Fin 3 → Vec3) (i k : ℕ)
    (a b : Atom) : Prop where
  element : b.element = a.element
  charge : b.chargeRef = N.rounded (a.fileCharge ref)
  force : b.fRef = N.roundedVec (a.fileForce ref)
  index : b.index = i
  indexStructure : b.indexStructure = k
  tag : b.tag = i
  free : pbc = false → b.r = N.roundedVec a.r
  wrapped : pbc = true → InBox box b.r ∧ ∃ n, b.r = N.roundedVec a.r + shift box n
  inside : pbc = true → InBox box (N.roundedVec a.r) → b.r = N.roundedVec a.r

/-- `u` agrees with `s` up to the precision of the numbers. -/
structure Structure.FileCopy (N : NumberText) (m : EMap) (ref : Bool) (k : ℕ) (s u : Structure) :
    Prop where
  comment : u.comment = s.comment
  periodic : u.isPeriodic = s.isPeriodic
  box : s.isPeriodic = true → u.box = s.roundedBox N
  volume : s.isPeriodic = true → u.volume = |Matrix.det (Matrix.of u.box)|
  energy : u.energyRef = N.rounded (s.fileEnergy ref)
  charge : u.chargeRef = N.rounded (s.fileCharge ref)
  numAtoms : u.numAtoms = s.atoms.length
  length : u.atoms.length = s.atoms.length
  atom : ∀ (i : ℕ) (a b : Atom), s.atoms[i]? = some a → u.atoms[i]? = some b →
    a.FileCopy N ref s.isPeriodic (s.roundedBox N) i k b
  counts : u.numAtomsPerElement =
    (List.range m.size).map fun e => s.atoms.countP (fun a => a.element = e)
  present : u.numElementsPresent =
    (List.range m.size).countP fun e => s.atoms.any (fun a => a.element = e)
  fresh : u.Fresh
  boxed : Boxed u

end N2P2
