import Verif.Spec.Formula

/-!
# Specification: chemical substances

Empirical or molecular formulas of the predefined materials that are named after a substance.  For
polymers the formula of the repeating unit is given.
-/

namespace Catima

/-- Name of the predefined material, chemical formula. -/
def substances : List (String × String) := [
  ("Water", "H2O"), ("Diamond", "C"), ("Isobutane", "C4H10"), ("Kapton", "C22H10N2O5"),
  ("Mylar", "C10H8O4"), ("Methane", "CH4"), ("Methanol", "CH4O"), ("Acetone", "C3H6O"),
  ("Acetylene", "C2H2"), ("Adenine", "C5H5N5"), ("Alanine", "C3H7NO2"), ("Ammonia", "NH3"),
  ("Aniline", "C6H7N"), ("Anthracene", "C14H10"), ("Benzene", "C6H6"), ("nButanol", "C4H10O"),
  ("Tetrachloroethylene", "C2Cl4"), ("Chlorobenzene", "C6H5Cl"), ("Chloroform", "CHCl3"),
  ("Cyclohexane", "C6H12"), ("Diethyl_Ether", "C4H10O"), ("Ethane", "C2H6"), ("Ethanol", "C2H6O"),
  ("Ethylene", "C2H4"), ("Freon_12", "CCl2F2"), ("Freon_12B2", "CBr2F2"), ("Freon_13", "CClF3"),
  ("Freon_13B1", "CBrF3"), ("Freon_13I1", "CIF3"), ("Glucose", "C6H12O6"), ("Glutamine", "C5H10N2O3"),
  ("Glycerol", "C3H8O3"), ("Guanine", "C5H5N5O"), ("Gypsum", "CaH4O6S"), ("nHeptane", "C7H16"),
  ("nHexane", "C6H14"), ("Naphthalene", "C10H8"), ("Nitrobenzene", "C6H5NO2"), ("Octane", "C8H18"),
  ("nPentane", "C5H12"), ("Polyacrylonitrile", "C3H3N"), ("Polycarbonate", "C16H14O3"),
  ("PMMA", "C5H8O2"), ("POM", "CH2O"), ("Polypropylene", "C3H6"), ("Polystyrene", "C8H8"),
  ("Polyolefin", "CH2"), ("Propane", "C3H8"), ("nPropanol", "C3H8O"), ("PVC", "C2H3Cl"),
  ("Pyridine", "C5H5N"), ("Sucrose", "C12H22O11"), ("Suprasil", "SiO2"), ("Teflon", "C2F4"),
  ("Toluene", "C7H8"), ("Trichloroethylene", "C2HCl3"), ("Urea", "CH4N2O"), ("Valine", "C5H11NO2"),
  ("Iodonaphthalene", "C10H7I"), ("BGO", "Bi4Ge3O12"), ("Bakelite", "C43H38O7"), ("Amber", "C10H16O"),
  ("Cellophane", "C6H10O5"), ("Paraffin", "C25H52"), ("Nylon", "C6H11NO")]

end Catima
