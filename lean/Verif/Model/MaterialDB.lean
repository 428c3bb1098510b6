import Verif.Model.Structures
import Verif.Model.Tables.Compounds

/-!
# Material database (`/repo/src/material_database.cpp`) and MOCADI export
(`/repo/include/catima/convert.h`)
-/

namespace Catima
variable {α : Type} [Scalar α]

/-- The `Material({...},density)` expression of one case (material_database.cpp:15-163). -/
def CompoundRow.material (r : CompoundRow) : Material α :=
  Material.ofList (r.atoms.map fun a => (a.1.toScalar, a.2.1, a.2.2.toScalar)) r.density.toScalar

/-- material_database.cpp:13-167: `switch(m)`; no matching case returns `Material()`. -/
def get_compound (id : Int) : Material α :=
  match compound_rows.find? (fun r => r.id = id) with
  | some r => r.material
  | none => Material.default

/-- material_database.cpp:6-11 -/
def get_material (id : Int) : Material α :=
  if id > 0 ∧ id < 99 then Material.ofElement 0.0 id (element_density id) 0.0
  else get_compound id

/-- convert.h:28-38 (`I` is not compared). -/
def mocadi_material_match (a b : Material α) : Bool :=
  !(Scalar.fabs (a.rho - b.rho) >? 1.0e-6) &&
  a.atoms.length == b.atoms.length &&
  (a.atoms.zip b.atoms).all (fun x => Material.atomEq x.1 x.2) &&
  (a.molar_mass =? b.molar_mass)

/-- convert.h:40-47 -/
def materialdb_id (m : Material α) : Int :=
  match ((List.range 147).map (fun (k : Nat) => (201 : Int) + k)).find?
      (fun i => mocadi_material_match (get_material i) m) with
  | some i => i
  | none => 0

/-- `std::to_string` for `double` and `int`; which digits are written is not modelled. -/
structure Format (α : Type) where
  real : α → List Char
  int : Int → List Char

/-- convert.h:53-57: the string `beam` after the three fixed lines. -/
def mocadiBeam (fmt : Format α) (p : Projectile α) (psx psy : Phasespace α) : List Char :=
  "epax 2\natima-1.0\noption listmode root\n".toList ++
  ("BEAM\n100000\n".toList ++ fmt.real p.T ++ ", 0, ".toList ++ fmt.real p.A ++ ", ".toList ++
    fmt.real p.Z ++ "\n2\n".toList ++
    fmt.real psx.sigma_x ++ ", ".toList ++ fmt.real (1000.0 * psx.sigma_a) ++ ", 0, 0, 0\n2\n".toList ++
    fmt.real psy.sigma_x ++ ", ".toList ++ fmt.real (1000.0 * psy.sigma_a) ++
    ", 0, 0, 0\n1\n0,  0, 0, 0, 0".toList)

/-- convert.h:61-69: `a` and `z` of the element for a single element, else 0 and the number in the
database. -/
def mocadiKind (m : Material α) : α × Int :=
  match m.atoms with
  | [t] => (t.A, t.Z)
  | _ => (0.0, materialdb_id m)

/-- convert.h:61-72: one layer. -/
def mocadiMatter (fmt : Format α) (m : Material α) : List Char :=
  "*******\nMATTER\n".toList ++ fmt.real (mocadiKind m).1 ++ ", ".toList ++ fmt.int (mocadiKind m).2 ++ ", ".toList ++
    fmt.real (m.rho * 1000.0) ++ "\n".toList ++ "2,".toList ++ fmt.real m.thickness_cm ++
    "\n0.\n0.,0.,0.\n1,1,0\n0,0,0,0\n".toList

/-- convert.h:49-78: the contents of the file; that the file can be opened is assumed. -/
def save_mocadi (fmt : Format α) (p : Projectile α) (layers : Layers α) (psx psy : Phasespace α) :
    List Char :=
  mocadiBeam fmt p psx psy ++ layers.materials.flatMap (mocadiMatter fmt) ++
    "ERWARTUNGSWERTE\nSAVE\nEND".toList

end Catima
