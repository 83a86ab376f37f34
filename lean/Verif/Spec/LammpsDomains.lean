import Verif.Spec.Lammps
import Verif.Spec.Prediction

/-! A system distributed over the processes of LAMMPS. The atoms of the system (without those of ignored
types) are a structure `G`, its lengths are in LAMMPS units. -/

namespace N2P2

namespace Lammps

/-- `X` is the energy of the whole system in LAMMPS units. -/
def IsTotal (L : Lammps) (P : Potential) (R : ℝ) (G : Structure) (X : ℝ) : Prop :=
  ∃ E, N2P2.IsEnergy P R (G.scaled L.lengthUnit) E ∧
    X = (E / L.energyUnit + ∑ a ∈ Finset.range G.atoms.length, L.baseEnergy (G.elementOf a)) /
      L.cfenergy

/-- The interfaces of two processes were initialized in the same way. -/
structure Alike (L L' : Lammps) : Prop where
  normalize : L'.normalize = L.normalize
  units : L'.units = L.units
  offsets : L'.offsets = L.offsets
  cflength : L'.cflength = L.cflength
  cfenergy : L'.cfenergy = L.cfenergy
  types : L'.typeToElement = L.typeToElement

/-- Atom `j` of the domain takes part. -/
def Takes (L : Lammps) (D : Domain) (j : ℕ) : Prop := j < D.x.length ∧ (L.elementOf D j).isSome

/-- The domain is a part of the system. Its atom `j` is an image of atom `(img j).1`, displaced by a lattice
vector, different ones are different images, and around local atoms all images within distance `rc` are
there. -/
structure Part (L : Lammps) (G : Structure) (rc : ℝ) (D : Domain) (img : ℕ → ℕ × (Fin 3 → ℤ)) :
    Prop where
  local_le : D.nlocal ≤ D.x.length
  atom : ∀ j, L.Takes D j → (img j).1 < G.atoms.length ∧ (G.isPeriodic = true ∨ (img j).2 = 0) ∧
    L.elementOf D j = some (G.elementOf (img j).1) ∧
    D.position j = G.position (img j).1 - shift G.box (img j).2
  injective : ∀ j j', L.Takes D j → L.Takes D j' → img j = img j' → j = j'
  complete : ∀ i < D.nlocal, L.Takes D i → ∀ p, G.IsPartner (img i).1 p →
    len (G.separation (img i).1 p) ≤ rc → ∃ j, L.Takes D j ∧ img j = (p.1, p.2 + (img i).2)

/-- The system is distributed over `K` domains: each atom is a local atom of exactly one of them. -/
structure Distributed (L : Lammps) (G : Structure) (rc : ℝ) (K : ℕ) (D : ℕ → Domain)
    (img : ℕ → ℕ → ℕ × (Fin 3 → ℤ)) : Prop where
  part : ∀ k < K, L.Part G rc (D k) (img k)
  owner : ∀ a < G.atoms.length, ∃! o : ℕ × ℕ, o.1 < K ∧ o.2 < (D o.1).nlocal ∧
    L.Takes (D o.1) o.2 ∧ (img o.1 o.2).1 = a

/-- All processes were initialized alike for the potential and have full neighbour lists of their parts of
the system. The potential can be evaluated. -/
structure Running (Ls : ℕ → Lammps) (P : Potential) (n : ℕ) (G : Structure) (rc : ℝ) (K : ℕ)
    (D : ℕ → Domain) (img : ℕ → ℕ → ℕ × (Fin 3 → ℤ)) : Prop where
  pos : 0 < K
  fits : P.Fits n
  elements : 0 < n
  ready : ∀ k < K, (Ls k).Ready P n rc
  alike : ∀ k < K, Alike (Ls 0) (Ls k)
  lists : ∀ k < K, Lists (D k) rc
  distributed : (Ls 0).Distributed G rc K D img
  apart : G.Apart
  triplets : P.TripletsOK ((Ls 0).lengthUnit * rc) (G.scaled (Ls 0).lengthUnit)

open Classical in
/-- Force on atom `a` of the system: what the processes added to their force arrays for the atom itself and
its ghosts (LAMMPS adds these up, `reverse_comm`). -/
noncomputable def netForce (L : Lammps) (K : ℕ) (D : ℕ → Domain) (img : ℕ → ℕ → ℕ × (Fin 3 → ℤ))
    (F F' : ℕ → List Vec3) (a : ℕ) : Vec3 :=
  ∑ k ∈ Finset.range K, ∑ j ∈ Finset.range (D k).x.length,
    if L.Takes (D k) j ∧ (img k j).1 = a then forceAt (F' k) j - forceAt (F k) j else 0

end Lammps

end N2P2
