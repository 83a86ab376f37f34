import Verif.Model.Message

/-! What a message with a structure is expected to do. -/

namespace N2P2

/-- An atom as it arrives: the rest of the fields is as in a new atom. -/
def Atom.received (a : Atom) : Atom :=
  { a with
    neighborListIsSorted := false
    dEelecdQ := 0
    fElec := 0
    pEelecpr := 0
    dChidG := []
    dQdr := []
    dAdrQ := []
    neighborCutoffs := [] }

/-- The structure `s` as it arrives in `t`: these fields of `t` are kept. -/
def Structure.received (s t : Structure) : Structure :=
  { s with
    neighborListIsSorted := t.neighborListIsSorted
    energyShort := t.energyShort
    energyElec := t.energyElec
    hasCharges := t.hasCharges
    maxCutoffRadiusOverall := t.maxCutoffRadiusOverall
    lambda := t.lambda
    hasAMatrix := t.hasAMatrix
    A := t.A
    atoms := s.atoms.map Atom.received }

/-- Number of doubles in the message. -/
def Structure.doubles (s : Structure) : ℕ :=
  23 + (s.atoms.map fun a => 13 + a.G.length + a.dEdG.length + a.dQdG.length + 3 * a.dGdr.length +
    (a.neighbors.map fun n => 4 + n.cache.length + 3 * n.dGdr.length).sum).sum

/-- Number of sizes, indices and counts in the message. -/
def Structure.sizes (s : Structure) : ℕ :=
  7 + s.numAtomsPerElement.length + (s.atoms.map fun a => 15 + a.neighborsUnique.length +
    a.numNeighborsPerElement.length + a.numSymmetryFunctionDerivatives.length +
    a.cacheSizePerElement.length + 4 * a.neighbors.length).sum

/-- Number of tags in the message. -/
def Structure.tags (s : Structure) : ℕ := (s.atoms.map fun a => 1 + a.neighbors.length).sum

/-- Bytes needed for everything that is sent. -/
def Structure.messageBytes {Byte : Type} (F : MpiFormat Byte) (s : Structure) : ℕ :=
  (6 + s.comment.length + 4 * s.atoms.length) * F.size .char + 4 * F.size .int +
    s.tags * F.size .int64 + s.sizes * F.size .sizeT + s.doubles * F.size .double

/-- On the machine, an `int` which is not negative survives being packed and unpacked as `size_t`. -/
def IntAsSizeT.Survives (m : IntAsSizeT) : Prop :=
  ∀ x : ℤ, 0 ≤ x → x < 2 ^ 31 → ∃ v, m.read x = some v ∧ m.write v = some x

/-- C++ standard: access to eight bytes of a variable which has four is undefined. -/
def IntAsSizeT.strict : IntAsSizeT := ⟨fun _ => none, fun _ => none⟩

end N2P2
