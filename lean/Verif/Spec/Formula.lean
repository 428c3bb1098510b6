/-!
# Specification: chemical formulas

A reader of chemical formulas such as `Al2O3`, independent of the material database.
-/

namespace Catima

/-- The symbols of the elements 1 to 98. -/
def elementSymbols : List String := [
  "H", "He", "Li", "Be", "B", "C", "N", "O", "F", "Ne", "Na", "Mg", "Al", "Si", "P", "S", "Cl", "Ar",
  "K", "Ca", "Sc", "Ti", "V", "Cr", "Mn", "Fe", "Co", "Ni", "Cu", "Zn", "Ga", "Ge", "As", "Se", "Br", "Kr",
  "Rb", "Sr", "Y", "Zr", "Nb", "Mo", "Tc", "Ru", "Rh", "Pd", "Ag", "Cd", "In", "Sn", "Sb", "Te", "I", "Xe",
  "Cs", "Ba", "La", "Ce", "Pr", "Nd", "Pm", "Sm", "Eu", "Gd", "Tb", "Dy", "Ho", "Er", "Tm", "Yb", "Lu",
  "Hf", "Ta", "W", "Re", "Os", "Ir", "Pt", "Au", "Hg", "Tl", "Pb", "Bi", "Po", "At", "Rn",
  "Fr", "Ra", "Ac", "Th", "Pa", "U", "Np", "Pu", "Am", "Cm", "Bk", "Cf"]

/-- The atomic number of a symbol. -/
def symbolZ (s : List Char) : Option Int :=
  (elementSymbols.findIdx? fun x => x.toList = s).map fun i => (i : Int) + 1

/-- Read a symbol: an upper-case letter and, if present, a lower-case letter. -/
def readSymbol : List Char → Option (Int × List Char)
  | c :: d :: rest =>
    if c.isUpper then
      if d.isLower then (symbolZ [c, d]).map (·, rest) else (symbolZ [c]).map (·, d :: rest)
    else none
  | [c] => if c.isUpper then (symbolZ [c]).map (·, []) else none
  | [] => none

/-- Read the number behind a symbol; no digits mean 1. -/
def readCount (s : List Char) : Nat × List Char :=
  let ds := s.takeWhile Char.isDigit
  (if ds.isEmpty then 1 else ds.foldl (fun n c => 10 * n + (c.toNat - 48)) 0, s.dropWhile Char.isDigit)

/-- Read a formula: symbols with numbers. -/
def readFormula : Nat → List Char → Option (List (Int × Nat))
  | _, [] => some []
  | 0, _ => none
  | fuel + 1, s => do
    let (z, rest) ← readSymbol s
    let (n, rest) := readCount rest
    let l ← readFormula fuel rest
    return (z, n) :: l

/-- The composition denoted by a chemical formula, `none` if the word is not a formula. -/
def formula (s : String) : Option (List (Int × Nat)) := readFormula s.toList.length s.toList

/-- Number of atoms of the element `z` in a composition. -/
def countOf (z : Int) (l : List (Int × Nat)) : Nat := ((l.filter fun x => x.1 = z).map Prod.snd).sum

example : formula "Al2O3" = some [(13, 2), (8, 3)] := by decide +kernel
example : formula "C21H24O4" = some [(6, 21), (1, 24), (8, 4)] := by decide +kernel
example : formula "Water" = none := by decide +kernel

end Catima
