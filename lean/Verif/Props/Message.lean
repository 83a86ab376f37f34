import Verif.Lemma.Message
import Mathlib.Tactic.NormNum

/-! Properties of messages with structures between processes. -/

namespace N2P2

/-- Example format: as many bytes as on common machines, the value being kept in the first. -/
def exFormat : MpiFormat (Option (Σ T : MpiType, T.Val)) where
  size
    | .int => 4
    | .int64 => 8
    | .sizeT => 8
    | .double => 8
    | .char => 1
  enc
    | .int, v => some ⟨.int, v⟩ :: List.replicate 3 none
    | .int64, v => some ⟨.int64, v⟩ :: List.replicate 7 none
    | .sizeT, v => some ⟨.sizeT, v⟩ :: List.replicate 7 none
    | .double, v => some ⟨.double, v⟩ :: List.replicate 7 none
    | .char, v => [some ⟨.char, v⟩]
  dec T b := match T, b with
    | .int, some ⟨.int, v⟩ :: _ => v
    | .int64, some ⟨.int64, v⟩ :: _ => v
    | .sizeT, some ⟨.sizeT, v⟩ :: _ => v
    | .double, some ⟨.double, v⟩ :: _ => v
    | .char, some ⟨.char, v⟩ :: _ => v
    | .int, _ => (0 : ℤ)
    | .int64, _ => (0 : ℤ)
    | .sizeT, _ => (0 : ℕ)
    | .double, _ => (0 : ℝ)
    | .char, _ => 'x'
  size_pos T := by cases T <;> decide
  length_enc T v := by cases T <;> rfl
  dec_enc T v := by cases T <;> rfl

/-- Example machine: the four bytes behind the variable hold `7`, and are overwritten unnoticed. -/
def exMachine : IntAsSizeT := ⟨fun x => some (x.toNat + 7 * 2 ^ 32), fun v => some (v % 2 ^ 32 : ℕ)⟩

theorem exMachine_survives : exMachine.Survives := by
  intro x h0 h
  refine ⟨x.toNat + 7 * 2 ^ 32, rfl, ?_⟩
  show some (((x.toNat + 7 * 2 ^ 32) % 2 ^ 32 : ℕ) : ℤ) = some x
  congr 1
  omega

/-- Example structure: an atom with a neighbour, symmetry functions and a comment. -/
def exMessage : Structure :=
  { Structure.init with
    isPeriodic := true
    comment := "two atoms".toList
    energyRef := -3
    sampleType := .test
    numAtoms := 2
    pbc := ![1, -1, 2]
    numAtomsPerElement := [2]
    box := fun _ => ![4, 5, 6]
    atoms :=
      [{ Atom.init with
          useChargeNeuron := true
          tag := -4
          r := ![1, 2, 3]
          G := [1, 2]
          dGdr := [![1, 2, 3]]
          numNeighbors := 1
          neighbors := [⟨1, 8, 0, 3, ![1, 2, 2], [5], [![0, 1, 0], ![1, 0, 0]]⟩] },
        { Atom.init with
          index := 1
          neighborsUnique := [0, 1] }] }

/-- C52: a message of less than 2 GiB fills its buffer exactly, and the receiver obtains every transmitted
field. Missing: the number of atoms, of elements and of letters is packed as `size_t` out of an `int`
variable, which is undefined behaviour (`C52_undefined`); this theorem is about machines where it has no
effect. A comment with a zero byte is cut, and an old list of the receiver stays if the list sent is
empty, hence the other hypotheses. -/
theorem C52_roundtrip_partial {Byte : Type} (F : MpiFormat Byte) (m : IntAsSizeT) (s t : Structure)
    (hm : m.Survives) (hs : s.messageBytes F < 2 ^ 31) (hc : Char.ofNat 0 ∉ s.comment)
    (he : s.numAtomsPerElement = [] → t.numAtomsPerElement = [])
    (ha : s.atoms = [] → t.atoms = []) :
    ∃ buf, sendStructure F m s = some buf ∧ (buf.length : ℤ) = calculateBufferSize F s ∧
      recvStructure F m t buf = some (s.received t) := by
  have h1 : s.comment.length + 1 ≤ s.messageBytes F := by
    unfold Structure.messageBytes
    have := Nat.le_mul_of_pos_right (6 + s.comment.length + 4 * s.atoms.length)
      (F.size_pos .char)
    omega
  have h2 : s.atoms.length ≤ s.messageBytes F := by
    unfold Structure.messageBytes
    have := Nat.le_mul_of_pos_right (6 + s.comment.length + 4 * s.atoms.length)
      (F.size_pos .char)
    omega
  have h3 : s.numAtomsPerElement.length ≤ s.messageBytes F := by
    have h4 : s.numAtomsPerElement.length ≤ s.sizes := by
      unfold Structure.sizes
      omega
    have := Nat.le_mul_of_pos_right s.sizes (F.size_pos .sizeT)
    unfold Structure.messageBytes
    omega
  obtain ⟨vc, rc, wc⟩ := hm (s.comment.length + 1 : ℕ) (by omega) (by omega)
  obtain ⟨ve, re, we⟩ := hm s.numAtomsPerElement.length (by omega) (by omega)
  obtain ⟨va, ra, wa⟩ := hm s.atoms.length (by omega) (by omega)
  have hl : ((bytesOfStructure F vc ve va s).length : ℤ) = calculateBufferSize F s := by
    rw [length_bytesOfStructure F vc ve va s, toInt32_of_lt (by omega)]
    rw [length_messageBytes]
    omega
  refine ⟨bytesOfStructure F vc ve va s, ?_, hl, recvStructure_eq F m s t hc he ha wc we wa⟩
  rw [sendStructure_eq F m s (by omega) (by omega) (by omega) rc re ra (by omega)]
  unfold fit
  rw [if_pos (by rw [← hl]; simp), List.nil_append]

/-- The example message has 935 bytes. -/
theorem exMessage_bytes : exMessage.messageBytes exFormat = 935 := by
  simp [Structure.messageBytes, Structure.tags, Structure.sizes, Structure.doubles, exMessage,
    exFormat, Structure.init, Atom.init]

example : ∃ buf, sendStructure exFormat exMachine exMessage = some buf ∧ buf.length = 935 ∧
    recvStructure exFormat exMachine Structure.init buf = some exMessage := by
  obtain ⟨buf, h1, h2, h3⟩ := C52_roundtrip_partial exFormat exMachine exMessage Structure.init
    exMachine_survives (by rw [exMessage_bytes]; norm_num) (by decide) (fun _ => rfl)
    (fun _ => rfl)
  refine ⟨buf, h1, ?_, h3⟩
  have h4 := (length_bytesOfStructure exFormat 0 0 0 exMessage).symm.trans h2.symm
  rw [length_messageBytes, exMessage_bytes, toInt32_of_lt (by norm_num) (by norm_num)] at h4
  exact_mod_cast h4.symm

/-- C52: the variable has four bytes and eight are read, so the C++ standard defines no result, for any
structure. -/
theorem C52_undefined {Byte : Type} (F : MpiFormat Byte) (s : Structure) :
    sendStructure F IntAsSizeT.strict s = none := by
  cases h : sendStructure F IntAsSizeT.strict s with
  | none => rfl
  | some p =>
    obtain ⟨-, ⟨v, hv⟩, -⟩ := sendStructure_reads F _ s h
    cases hv

example : sendStructure exFormat IntAsSizeT.strict exMessage = none := C52_undefined _ _

/-- C52: a structure which needs 2 GiB or more cannot be sent, because the size is kept in an `int`. -/
theorem C52_too_long {Byte : Type} (F : MpiFormat Byte) (m : IntAsSizeT) (s : Structure)
    (hs : 2 ^ 31 ≤ s.messageBytes F) (hc : s.comment.length + 1 < 2 ^ 31)
    (he : s.numAtomsPerElement.length < 2 ^ 31) (ha : s.atoms.length < 2 ^ 31) :
    sendStructure F m s = none := by
  cases h : sendStructure F m s with
  | none => rfl
  | some p =>
    obtain ⟨hb, ⟨vc, rc⟩, ⟨ve, re⟩, ⟨va, ra⟩⟩ := sendStructure_reads F m s h
    rw [toInt32_of_lt (by omega) (by omega)] at rc re ra
    rw [sendStructure_eq F m s hc he ha (by push_cast; exact rc) re ra hb] at h
    have hl := length_bytesOfStructure F vc ve va s
    have hn := length_messageBytes F vc ve va s
    have hlt := toInt32_lt (bytesOfStructure F vc ve va s).length
    unfold fit at h
    rw [if_neg (by rw [List.length_nil]; push_cast; omega)] at h
    cases h

/-- Example: an atom with `n` symmetry functions. -/
def exLong (n : ℕ) : Structure :=
  { Structure.init with
    atoms := [{ Atom.init with G := List.replicate n 0 }] }

example : sendStructure exFormat exMachine (exLong 300000000) = none := by
  have h : ∀ n, 300000000 ≤ n → sendStructure exFormat exMachine (exLong n) = none := by
    intro n hn
    refine C52_too_long exFormat exMachine (exLong n) ?_ ?_ ?_ ?_
    · have h : n ≤ (exLong n).doubles := by
        simp [Structure.doubles, exLong, Atom.init]
        omega
      have h8 : exFormat.size .double = 8 := rfl
      unfold Structure.messageBytes
      rw [h8]
      omega
    · show 0 + 1 < 2 ^ 31
      norm_num
    · show 0 < 2 ^ 31
      norm_num
    · show 1 < 2 ^ 31
      norm_num
  exact h _ le_rfl

end N2P2
