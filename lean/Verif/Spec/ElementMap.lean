import Verif.Model.Utility

/-! The periodic table, period by period: atomic number of the first element and the symbols. -/

namespace N2P2

/-- Periods 1 to 7 (up to nobelium). -/
def periods : List (Nat × List String) :=
  [(1, ["H", "He"]),
   (3, ["Li", "Be", "B", "C", "N", "O", "F", "Ne"]),
   (11, ["Na", "Mg", "Al", "Si", "P", "S", "Cl", "Ar"]),
   (19, ["K", "Ca", "Sc", "Ti", "V", "Cr", "Mn", "Fe", "Co", "Ni", "Cu", "Zn", "Ga", "Ge", "As",
     "Se", "Br", "Kr"]),
   (37, ["Rb", "Sr", "Y", "Zr", "Nb", "Mo", "Tc", "Ru", "Rh", "Pd", "Ag", "Cd", "In", "Sn", "Sb",
     "Te", "I", "Xe"]),
   (55, ["Cs", "Ba", "La", "Ce", "Pr", "Nd", "Pm", "Sm", "Eu", "Gd", "Tb", "Dy", "Ho", "Er", "Tm",
     "Yb", "Lu", "Hf", "Ta", "W", "Re", "Os", "Ir", "Pt", "Au", "Hg", "Tl", "Pb", "Bi", "Po", "At",
     "Rn"]),
   (87, ["Fr", "Ra", "Ac", "Th", "Pa", "U", "Np", "Pu", "Am", "Cm", "Bk", "Cf", "Es", "Fm", "Md",
     "No"])]

/-- Element with atomic number `n`. -/
def periodicTable : List (Nat × Str) :=
  periods.flatMap fun p => p.2.zipIdx.map fun s => (p.1 + s.2, s.1.toList)

end N2P2
