import Verif.Model.Tables.Abundance

/-!
# Natural isotope database (`/repo/src/abundance_database.cpp`)
-/

namespace Catima
variable {α : Type} [Scalar α]

/-- abundance_database.cpp:8 -/
def abundance_z_max : Int := 109
/-- abundance_database.cpp:12 -/
def isotopes_num_data : Int := 313

/-- abundance_database.cpp:18-24 -/
def get_isotopes_num (z : Int) : M Int :=
  if z < 1 ∨ z > abundance_z_max then .ok 0
  else do
    let idx ← rd abundance_z_index (z - 1)
    let hi ← if z < abundance_z_max then (rd abundance_z_index z).map (fun n => (n : Int))
      else pure isotopes_num_data
    return hi - idx

/-- abundance_database.cpp:26-30.  Only `i + 1 > num` is rejected. -/
def get_isotope_a (z i : Int) : M Int := do
  let num ← get_isotopes_num z
  if num = 0 ∨ i + 1 > num then return 0
  let idx ← rd abundance_z_index (z - 1)
  return (← rd isotopes_a (idx + i) : Nat)

/-- abundance_database.cpp:32-36.  The table type is `float`; the model keeps the decimal
literal. -/
def get_abundance (z i : Int) : M α := do
  let num ← get_isotopes_num z
  if num = 0 ∨ i + 1 > num then return 0.0
  let idx ← rd abundance_z_index (z - 1)
  rdDec isotopes_abundance (idx + i)

/-- abundance_database.cpp:38-47 -/
def get_isotope (z i : Int) : M (Int × α) := do
  let num ← get_isotopes_num z
  if num = 0 ∨ i + 1 > num then return (0, 0.0)
  let idx ← rd abundance_z_index (z - 1)
  let a ← rd isotopes_a (idx + i)
  let x ← rdDec isotopes_abundance (idx + i)
  return (a, x)

end Catima
