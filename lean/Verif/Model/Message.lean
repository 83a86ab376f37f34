import Verif.Model.Structure

/-! Messages with structures between MPI processes (Dataset.cpp:165-707), default build (caches,
reduced derivative memory). -/

namespace N2P2

/-- The MPI data types used. -/
inductive MpiType
  | int | int64 | sizeT | double | char

/-- Values of the types. -/
abbrev MpiType.Val : MpiType → Type
  | .int => ℤ
  | .int64 => ℤ
  | .sizeT => ℕ
  | .double => ℝ
  | .char => Char

/-- The packed format: contract of `MPI_Pack_size`, `MPI_Pack` and `MPI_Unpack`. `Byte` is arbitrary,
because real numbers stand for doubles. An element takes exactly the size which `MPI_Pack_size` tells for
one element, and is restored by unpacking. -/
structure MpiFormat (Byte : Type) where
  size : MpiType → ℕ
  enc : (T : MpiType) → T.Val → List Byte
  dec : (T : MpiType) → List Byte → T.Val
  size_pos : ∀ T, 0 < size T
  length_enc : ∀ T v, (enc T v).length = size T
  dec_enc : ∀ T v, dec T (enc T v) = v

/-- What happens when an `int` variable is passed as `MPI_SIZE_T`: `read x` is the `size_t` found at the
address of an `int` with value `x`, `write v` the value of the `int` after a `size_t` was stored there
(and over the memory behind it). `none`: undefined behaviour, as the C++ standard has it. -/
structure IntAsSizeT where
  read : ℤ → Option ℕ
  write : ℕ → Option ℤ

/-- Conversion to 32 bit `int`. -/
def toInt32 (x : ℤ) : ℤ := (x + 2 ^ 31) % 2 ^ 32 - 2 ^ 31

/-- A `bool` seen as `char`. -/
def boolChar (b : Bool) : Char := if b then Char.ofNat 1 else Char.ofNat 0

/-- A `char` seen as `bool`. -/
def charBool (c : Char) : Bool := if c = Char.ofNat 0 then false else true

/-- `enum SampleType` as `int`. -/
def SampleType.toInt : SampleType → ℤ
  | .unknown => 0
  | .training => 1
  | .validation => 2
  | .test => 3

/-- An `int` as `enum SampleType`. -/
def SampleType.ofInt (i : ℤ) : SampleType :=
  if i = 1 then .training else if i = 2 then .validation else if i = 3 then .test else .unknown

/-- Components of a vector. -/
def Vec3.toList (v : Vec3) : List ℝ := [v 0, v 1, v 2]

/-- The vector with given components. -/
def Vec3.ofList (l : List ℝ) : Vec3 := ![l.getD 0 0, l.getD 1 0, l.getD 2 0]

variable {Byte : Type} (F : MpiFormat Byte)

/-! ### Size -/

/-- Dataset.cpp:227-242, one neighbour. -/
def Neighbor.bufferSize (n : Neighbor) : ℕ :=
  2 * F.size .sizeT + F.size .int64 + F.size .double + 3 * F.size .double +
    F.size .sizeT + n.cache.length * F.size .double +
    F.size .sizeT + n.dGdr.length * 3 * F.size .double

/-- Dataset.cpp:195-243, vectors of one atom. -/
def Atom.bufferSize (a : Atom) : ℕ :=
  F.size .sizeT + a.neighborsUnique.length * F.size .sizeT +
  F.size .sizeT + a.numNeighborsPerElement.length * F.size .sizeT +
  F.size .sizeT + a.numSymmetryFunctionDerivatives.length * F.size .sizeT +
  F.size .sizeT + a.cacheSizePerElement.length * F.size .sizeT +
  F.size .sizeT + a.G.length * F.size .double +
  F.size .sizeT + a.dEdG.length * F.size .double +
  F.size .sizeT + a.dQdG.length * F.size .double +
  F.size .sizeT + a.dGdr.length * 3 * F.size .double +
  F.size .sizeT + (a.neighbors.map (Neighbor.bufferSize F)).sum

/-- Dataset.cpp:165-249 `calculateBufferSize`. The sum is converted to `int` at each step,
which amounts to converting once (a step whose summands are all `int` would be undefined on overflow;
here it wraps, too). -/
def calculateBufferSize (s : Structure) : ℤ :=
  toInt32 (5 * F.size .char + 4 * F.size .sizeT + 4 * F.size .int + 5 * F.size .double +
    F.size .sizeT + (s.comment.length + 1) * F.size .char +
    9 * F.size .double + 9 * F.size .double +
    F.size .sizeT + s.numAtomsPerElement.length * F.size .sizeT +
    F.size .sizeT + s.atoms.length * (4 * F.size .char + 6 * F.size .sizeT + F.size .int64 +
      4 * F.size .double + 3 * 3 * F.size .double) +
    (s.atoms.map (Atom.bufferSize F)).sum : ℕ)

/-! ### Packing -/

/-- `MPI_Pack`: appends to the `p` bytes already in a buffer of `bs` bytes. `none`: no room left. -/
def mpiPack (bs : ℤ) (T : MpiType) (vs : List T.Val) (p : List Byte) : Option (List Byte) :=
  if (p.length + vs.length * F.size T : ℤ) ≤ bs then some (p ++ vs.flatMap (F.enc T)) else none

/-- A size, then the elements (`if (ts2 > 0)`), as it is done for each `std::vector`. -/
def mpiPackList (bs : ℤ) (T : MpiType) (vs : List T.Val) (p : List Byte) : Option (List Byte) := do
  let p ← mpiPack F bs .sizeT [vs.length] p
  if 0 < vs.length then mpiPack F bs T vs p else some p

/-- A size, then the vectors one by one. -/
def mpiPackVecs (bs : ℤ) (vs : List Vec3) (p : List Byte) : Option (List Byte) := do
  let p ← mpiPack F bs .sizeT [vs.length] p
  if 0 < vs.length then vs.foldlM (fun p v => mpiPack F bs .double v.toList p) p else some p

/-- Dataset.cpp:413-449, one neighbour. -/
def packNeighbor (bs : ℤ) (p : List Byte) (n : Neighbor) : Option (List Byte) := do
  let p ← mpiPack F bs .sizeT [n.index] p
  let p ← mpiPack F bs .int64 [n.tag] p
  let p ← mpiPack F bs .sizeT [n.element] p
  let p ← mpiPack F bs .double [n.d] p
  let p ← mpiPack F bs .double n.dr.toList p
  let p ← mpiPackList F bs .double n.cache p
  mpiPackVecs F bs n.dGdr p

/-- Dataset.cpp:312-451, one atom. -/
def packAtom (bs : ℤ) (p : List Byte) (a : Atom) : Option (List Byte) := do
  let p ← mpiPack F bs .char [boolChar a.hasNeighborList] p
  let p ← mpiPack F bs .char [boolChar a.hasSymmetryFunctions] p
  let p ← mpiPack F bs .char [boolChar a.hasSymmetryFunctionDerivatives] p
  let p ← mpiPack F bs .char [boolChar a.useChargeNeuron] p
  let p ← mpiPack F bs .sizeT [a.index] p
  let p ← mpiPack F bs .sizeT [a.indexStructure] p
  let p ← mpiPack F bs .int64 [a.tag] p
  let p ← mpiPack F bs .sizeT [a.element] p
  let p ← mpiPack F bs .sizeT [a.numNeighbors] p
  let p ← mpiPack F bs .sizeT [a.numNeighborsUnique] p
  let p ← mpiPack F bs .sizeT [a.numSymmetryFunctions] p
  let p ← mpiPack F bs .double [a.energy] p
  let p ← mpiPack F bs .double [a.chi] p
  let p ← mpiPack F bs .double [a.charge] p
  let p ← mpiPack F bs .double [a.chargeRef] p
  let p ← mpiPack F bs .double a.r.toList p
  let p ← mpiPack F bs .double a.f.toList p
  let p ← mpiPack F bs .double a.fRef.toList p
  let p ← mpiPackList F bs .sizeT a.neighborsUnique p
  let p ← mpiPackList F bs .sizeT a.numNeighborsPerElement p
  let p ← mpiPackList F bs .sizeT a.numSymmetryFunctionDerivatives p
  let p ← mpiPackList F bs .sizeT a.cacheSizePerElement p
  let p ← mpiPackList F bs .double a.G p
  let p ← mpiPackList F bs .double a.dEdG p
  let p ← mpiPackList F bs .double a.dQdG p
  let p ← mpiPackVecs F bs a.dGdr p
  let p ← mpiPack F bs .sizeT [a.neighbors.length] p
  if 0 < a.neighbors.length then a.neighbors.foldlM (packNeighbor F bs) p else some p

/-- Dataset.cpp:300-303. -/
def packElementCounts (bs : ℤ) (ts : ℤ) (l : List ℕ) (p : List Byte) : Option (List Byte) :=
  if 0 < ts then mpiPack F bs .sizeT (l.take ts.toNat) p else some p

/-- Dataset.cpp:251-461 `sendStructure`: the contents of the buffer after packing. The `int` variable
`ts` is passed as `MPI_SIZE_T`. `none`: the size is negative (`new` throws), no room in the buffer, or
undefined behaviour. -/
def sendStructure (m : IntAsSizeT) (s : Structure) : Option (List Byte) := do
  let bs := calculateBufferSize F s
  if bs < 0 then none
  else
    let p ← mpiPack F bs .char [boolChar s.isPeriodic] []
    let p ← mpiPack F bs .char [boolChar s.isTriclinic] p
    let p ← mpiPack F bs .char [boolChar s.hasNeighborList] p
    let p ← mpiPack F bs .char [boolChar s.hasSymmetryFunctions] p
    let p ← mpiPack F bs .char [boolChar s.hasSymmetryFunctionDerivatives] p
    let p ← mpiPack F bs .sizeT [s.index] p
    let p ← mpiPack F bs .sizeT [s.numAtoms] p
    let p ← mpiPack F bs .sizeT [s.numElements] p
    let p ← mpiPack F bs .sizeT [s.numElementsPresent] p
    let p ← mpiPack F bs .int [s.pbc 0, s.pbc 1, s.pbc 2] p
    let p ← mpiPack F bs .double [s.energy] p
    let p ← mpiPack F bs .double [s.energyRef] p
    let p ← mpiPack F bs .double [s.charge] p
    let p ← mpiPack F bs .double [s.chargeRef] p
    let p ← mpiPack F bs .double [s.volume] p
    let p ← mpiPack F bs .int [s.sampleType.toInt] p
    let ts := toInt32 (s.comment.length + 1)
    let v ← m.read ts
    let p ← mpiPack F bs .sizeT [v] p
    let p ← mpiPack F bs .char ((s.comment ++ [Char.ofNat 0]).take ts.toNat) p
    let p ← mpiPack F bs .double (s.box 0).toList p
    let p ← mpiPack F bs .double (s.box 1).toList p
    let p ← mpiPack F bs .double (s.box 2).toList p
    let p ← mpiPack F bs .double (s.invbox 0).toList p
    let p ← mpiPack F bs .double (s.invbox 1).toList p
    let p ← mpiPack F bs .double (s.invbox 2).toList p
    let ts := toInt32 s.numAtomsPerElement.length
    let v ← m.read ts
    let p ← mpiPack F bs .sizeT [v] p
    let p ← packElementCounts F bs ts s.numAtomsPerElement p
    let ts := toInt32 s.atoms.length
    let v ← m.read ts
    let p ← mpiPack F bs .sizeT [v] p
    if 0 < ts then s.atoms.foldlM (packAtom F bs) p else some p

/-! ### Unpacking -/

/-- Elements of `size` bytes each. -/
def decodeAll (T : MpiType) : ℕ → List Byte → List T.Val
  | 0, _ => []
  | n + 1, b => F.dec T (b.take (F.size T)) :: decodeAll T n (b.drop (F.size T))

/-- Reading from the rest of the buffer. -/
abbrev Recv (Byte α : Type) := List Byte → Option (α × List Byte)

/-- `MPI_Unpack` of `n` elements. `none`: beyond the end of the buffer. -/
def mpiUnpack (T : MpiType) (n : ℕ) : Recv Byte (List T.Val) := fun b =>
  if n * F.size T ≤ b.length then some (decodeAll F T n b, b.drop (n * F.size T)) else none

/-- `MPI_Unpack` of one element. -/
def mpiUnpack1 (T : MpiType) : Recv Byte T.Val := fun b => do
  let (l, b) ← mpiUnpack F T 1 b
  let v ← l.head?
  some (v, b)

/-- `MPI_Unpack` of a `bool`. -/
def mpiUnpackBool : Recv Byte Bool := fun b => do
  let (c, b) ← mpiUnpack1 F .char b
  some (charBool c, b)

/-- `MPI_Unpack` of a vector. -/
def mpiUnpackVec : Recv Byte Vec3 := fun b => do
  let (l, b) ← mpiUnpack F .double 3 b
  some (Vec3.ofList l, b)

/-- `n` times. -/
def recvMany {α : Type} (r : Recv Byte α) : ℕ → Recv Byte (List α)
  | 0, b => some ([], b)
  | n + 1, b => do
    let (x, b) ← r b
    let (l, b) ← recvMany r n b
    some (x :: l, b)

/-- A size, then elements. `old`: contents of the vector, kept if the size is 0. -/
def mpiUnpackList (T : MpiType) (old : List T.Val) : Recv Byte (List T.Val) := fun b => do
  let (n, b) ← mpiUnpack1 F .sizeT b
  if 0 < n then mpiUnpack F T n b else some (old, b)

/-- A size, then vectors. -/
def mpiUnpackVecs (old : List Vec3) : Recv Byte (List Vec3) := fun b => do
  let (n, b) ← mpiUnpack1 F .sizeT b
  if 0 < n then recvMany (mpiUnpackVec F) n b else some (old, b)

/-- Dataset.cpp:661-699, one neighbour. -/
def recvNeighbor : Recv Byte Neighbor := fun b => do
  let (index, b) ← mpiUnpack1 F .sizeT b
  let (tag, b) ← mpiUnpack1 F .int64 b
  let (element, b) ← mpiUnpack1 F .sizeT b
  let (d, b) ← mpiUnpack1 F .double b
  let (dr, b) ← mpiUnpackVec F b
  let (cache, b) ← mpiUnpackList F .double [] b
  let (dGdr, b) ← mpiUnpackVecs F [] b
  some (⟨index, tag, element, d, dr, cache, dGdr⟩, b)

/-- Dataset.cpp:656-700. -/
def recvNeighbors : Recv Byte (List Neighbor) := fun b => do
  let (ts2, b) ← mpiUnpack1 F .sizeT b
  if 0 < ts2 then recvMany (recvNeighbor F) ts2 b else some ([], b)

/-- Dataset.cpp:533-701, one atom (constructed by `resize`). -/
def recvAtom : Recv Byte Atom := fun b => do
  let (hasNeighborList, b) ← mpiUnpackBool F b
  let (hasSymmetryFunctions, b) ← mpiUnpackBool F b
  let (hasSymmetryFunctionDerivatives, b) ← mpiUnpackBool F b
  let (useChargeNeuron, b) ← mpiUnpackBool F b
  let (index, b) ← mpiUnpack1 F .sizeT b
  let (indexStructure, b) ← mpiUnpack1 F .sizeT b
  let (tag, b) ← mpiUnpack1 F .int64 b
  let (element, b) ← mpiUnpack1 F .sizeT b
  let (numNeighbors, b) ← mpiUnpack1 F .sizeT b
  let (numNeighborsUnique, b) ← mpiUnpack1 F .sizeT b
  let (numSymmetryFunctions, b) ← mpiUnpack1 F .sizeT b
  let (energy, b) ← mpiUnpack1 F .double b
  let (chi, b) ← mpiUnpack1 F .double b
  let (charge, b) ← mpiUnpack1 F .double b
  let (chargeRef, b) ← mpiUnpack1 F .double b
  let (r, b) ← mpiUnpackVec F b
  let (f, b) ← mpiUnpackVec F b
  let (fRef, b) ← mpiUnpackVec F b
  let (neighborsUnique, b) ← mpiUnpackList F .sizeT [] b
  let (numNeighborsPerElement, b) ← mpiUnpackList F .sizeT [] b
  let (numSymmetryFunctionDerivatives, b) ← mpiUnpackList F .sizeT [] b
  let (cacheSizePerElement, b) ← mpiUnpackList F .sizeT [] b
  let (G, b) ← mpiUnpackList F .double [] b
  let (dEdG, b) ← mpiUnpackList F .double [] b
  let (dQdG, b) ← mpiUnpackList F .double [] b
  let (dGdr, b) ← mpiUnpackVecs F [] b
  let (neighbors, b) ← recvNeighbors F b
  some ({ Atom.init with
    hasNeighborList := hasNeighborList
    hasSymmetryFunctions := hasSymmetryFunctions
    hasSymmetryFunctionDerivatives := hasSymmetryFunctionDerivatives
    useChargeNeuron := useChargeNeuron
    index := index
    indexStructure := indexStructure
    tag := tag
    element := element
    numNeighbors := numNeighbors
    numNeighborsUnique := numNeighborsUnique
    numSymmetryFunctions := numSymmetryFunctions
    energy := energy
    chi := chi
    charge := charge
    chargeRef := chargeRef
    r := r
    f := f
    fRef := fRef
    neighborsUnique := neighborsUnique
    numNeighborsPerElement := numNeighborsPerElement
    numSymmetryFunctionDerivatives := numSymmetryFunctionDerivatives
    cacheSizePerElement := cacheSizePerElement
    G := G
    dEdG := dEdG
    dQdG := dQdG
    dGdr := dGdr
    neighbors := neighbors }, b)

/-- Dataset.cpp:521-526. -/
def recvElementCounts (ts : ℤ) (old : List ℕ) : Recv Byte (List ℕ) := fun b =>
  if 0 < ts then mpiUnpack F .sizeT ts.toNat b else some (old, b)

/-- Dataset.cpp:531-702. -/
def recvAtoms (ts : ℤ) (old : List Atom) : Recv Byte (List Atom) := fun b =>
  if 0 < ts then recvMany (recvAtom F) ts.toNat b else some (old, b)

/-- Dataset.cpp:463-707 `recvStructure`, into the structure `s`. `buf` is the received buffer, of
the size which the sender has sent before. The `int` variable `ts` is passed as `MPI_SIZE_T`. -/
def recvStructure (m : IntAsSizeT) (s : Structure) (buf : List Byte) : Option Structure := do
  let (isPeriodic, b) ← mpiUnpackBool F buf
  let (isTriclinic, b) ← mpiUnpackBool F b
  let (hasNeighborList, b) ← mpiUnpackBool F b
  let (hasSymmetryFunctions, b) ← mpiUnpackBool F b
  let (hasSymmetryFunctionDerivatives, b) ← mpiUnpackBool F b
  let (index, b) ← mpiUnpack1 F .sizeT b
  let (numAtoms, b) ← mpiUnpack1 F .sizeT b
  let (numElements, b) ← mpiUnpack1 F .sizeT b
  let (numElementsPresent, b) ← mpiUnpack1 F .sizeT b
  let (pbc, b) ← mpiUnpack F .int 3 b
  let (energy, b) ← mpiUnpack1 F .double b
  let (energyRef, b) ← mpiUnpack1 F .double b
  let (charge, b) ← mpiUnpack1 F .double b
  let (chargeRef, b) ← mpiUnpack1 F .double b
  let (volume, b) ← mpiUnpack1 F .double b
  let (sampleType, b) ← mpiUnpack1 F .int b
  let (v, b) ← mpiUnpack1 F .sizeT b
  let ts ← m.write v
  let (comment, b) ← mpiUnpack F .char ts.toNat b
  let (box0, b) ← mpiUnpackVec F b
  let (box1, b) ← mpiUnpackVec F b
  let (box2, b) ← mpiUnpackVec F b
  let (invbox0, b) ← mpiUnpackVec F b
  let (invbox1, b) ← mpiUnpackVec F b
  let (invbox2, b) ← mpiUnpackVec F b
  let (v, b) ← mpiUnpack1 F .sizeT b
  let ts ← m.write v
  let (numAtomsPerElement, b) ← recvElementCounts F ts s.numAtomsPerElement b
  let (v, b) ← mpiUnpack1 F .sizeT b
  let ts ← m.write v
  let (atoms, _) ← recvAtoms F ts s.atoms b
  some { s with
    isPeriodic := isPeriodic
    isTriclinic := isTriclinic
    hasNeighborList := hasNeighborList
    hasSymmetryFunctions := hasSymmetryFunctions
    hasSymmetryFunctionDerivatives := hasSymmetryFunctionDerivatives
    index := index
    numAtoms := numAtoms
    numElements := numElements
    numElementsPresent := numElementsPresent
    pbc := ![pbc.getD 0 0, pbc.getD 1 0, pbc.getD 2 0]
    energy := energy
    energyRef := energyRef
    charge := charge
    chargeRef := chargeRef
    volume := volume
    sampleType := SampleType.ofInt sampleType
    comment := comment.takeWhile (· ≠ Char.ofNat 0)
    box := ![box0, box1, box2]
    invbox := ![invbox0, invbox1, invbox2]
    numAtomsPerElement := numAtomsPerElement
    atoms := atoms }

end N2P2
