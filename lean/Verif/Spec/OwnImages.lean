import Verif.Spec.Mode

/-! The energy the forces of the program refer to: if an atom moves, the other atoms see it and its
periodic images move, but the atom itself sees its own images stay where they were. Without own images
within the cutoff radii this is the potential energy. -/

namespace N2P2

/-- The structure with atom `i` displaced by `x`. -/
def Structure.displace (s : Structure) (i : ℕ) (x : Vec3) : Structure :=
  s.move fun k => s.position k + if k = i then x else 0

/-- An environment of atom `i` displaced by `x`, while all other atoms and all images stay. -/
def IsEnvDisplaced (s : Structure) (R : ℝ) (i : ℕ) (x : Vec3) (env : List Site) : Prop :=
  ∃ imgs : List (ℕ × (Fin 3 → ℤ)), imgs.Nodup ∧ (∀ p ∈ imgs, s.IsPartner i p) ∧
    (∀ p, s.IsPartner i p → len (s.separation i p + x) ≤ R → p ∈ imgs) ∧
    env = imgs.map fun p => ⟨s.elementOf p.1, s.separation i p + x⟩

/-- The sum of the atomic energies with atom `i` displaced by `x`, where atom `i` sees its own images
at the old places. -/
def IsEnergyFrozen (P : Potential) (R : ℝ) (s : Structure) (i : ℕ) (x : Vec3) (E : ℝ) : Prop :=
  ∃ env : ℕ → List Site, (∀ j < s.atoms.length, j ≠ i → IsEnv (s.displace i x) R j (env j)) ∧
    IsEnvDisplaced s R i x (env i) ∧
    E = ∑ j ∈ Finset.range s.atoms.length, P.atomic (s.elementOf j) (env j)

end N2P2
