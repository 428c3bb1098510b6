import Verif.Model.MaterialDB

/-!
# What a MOCADI input file should contain
-/

namespace Catima
variable {α : Type} [Scalar α]

/-- The lines of a text. -/
def textLines : List Char → List (List Char)
  | [] => [[]]
  | c :: cs =>
    if c = '\n' then [] :: textLines cs
    else match textLines cs with
      | [] => [[c]]
      | l :: ls => (c :: l) :: ls

/-- Numbers are written without line breaks. -/
structure Format.OneLine (fmt : Format α) : Prop where
  real : ∀ x, '\n' ∉ fmt.real x
  int : ∀ i, '\n' ∉ fmt.int i

/-- The lines about the beam: energy, mass and charge; widths and divergences in mrad. -/
def beamLines (fmt : Format α) (p : Projectile α) (psx psy : Phasespace α) : List (List Char) :=
  ["epax 2".toList, "atima-1.0".toList, "option listmode root".toList, "BEAM".toList, "100000".toList,
   fmt.real p.T ++ ", 0, ".toList ++ fmt.real p.A ++ ", ".toList ++ fmt.real p.Z,
   "2".toList, fmt.real psx.sigma_x ++ ", ".toList ++ fmt.real (1000.0 * psx.sigma_a) ++ ", 0, 0, 0".toList,
   "2".toList, fmt.real psy.sigma_x ++ ", ".toList ++ fmt.real (1000.0 * psy.sigma_a) ++ ", 0, 0, 0".toList,
   "1".toList, "0,  0, 0, 0, 0".toList]

/-- The lines about one layer, given mass and charge (or 0 and the number of the compound), density in
g/cm³ and thickness in cm. -/
def matterLines (fmt : Format α) (a : α) (z : Int) (rho x : α) : List (List Char) :=
  ["*******".toList, "MATTER".toList,
   fmt.real a ++ ", ".toList ++ fmt.int z ++ ", ".toList ++ fmt.real (rho * 1000.0),
   "2,".toList ++ fmt.real x, "0.".toList, "0.,0.,0.".toList, "1,1,0".toList, "0,0,0,0".toList]

/-- Mass and charge of a layer in the file. -/
def matterKind (m : Material α) : α × Int :=
  if m.atoms.length = 1 then
    (match m.atoms.head? with
      | some t => (t.A, t.Z)
      | none => (0.0, 0))
  else (0.0, materialdb_id m)

/-- The lines after the beam. -/
def restLines (fmt : Format α) (l : Layers α) : List (List Char) :=
  (l.materials.flatMap fun m => matterLines fmt (matterKind m).1 (matterKind m).2 m.rho (m.th / m.rho)) ++
    ["ERWARTUNGSWERTE".toList, "SAVE".toList, "END".toList]

end Catima
