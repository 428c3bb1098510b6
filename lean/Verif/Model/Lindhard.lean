import Verif.Model.EnergyTable
import Verif.Model.Structures
import Verif.Model.Tables.LS_ls_coefficients_a
import Verif.Model.Tables.LS_ls_coefficients_ahi
import Verif.Model.Tables.LS_ls_X_coefficients_a
import Verif.Model.Tables.LS_ls_X_coefficients_ahi

/-!
# Precalculated Lindhard–Sørensen corrections
(`/repo/src/calculations.cpp:580-614`, `/repo/include/catima/generated_LS_coeff.h`)

The tables have 108 rows although `LS_MAX_Z` is 110.
-/

namespace Catima
variable {α : Type} [Scalar α]

/-- Field `j` of a packed row, as the integer `entry * 10^11`. -/
def lsField (row : Nat) (j : Nat) : Int := ((row >>> (40 * j)) % 2 ^ 40 : Nat) - 2 ^ 39

/-- A packed row as the 200 decimals of the C++ array row. -/
def lsRow (row : Nat) : List Dec := (List.range 200).map fun j => ⟨lsField row j, 11⟩

/-- `ls_..._a[z]` as a pointer to its 200 entries; a row index outside the table is
undefined behaviour. -/
def lsRowAt (tab : List Nat) (z : Int) : M (List α) :=
  (rd tab z).map fun r => (lsRow r).map Dec.toScalar

/-- calculations.cpp:588-594 and 607-613: interpolation in one pair of tables and in mass.  `rowA` and `rowAhi` read a row
of the tables. -/
def lsValueOf (ci : Bool) (rowA rowAhi : Int → M (List α)) (z : Int) (A T : α) : M α := do
  let w : α := element_atomic_weight z
  let da := (A - w) / w
  let v1 ← ls_energy_table.interpolate ci T (← rowA (z - 1))
  let v2 ← ls_energy_table.interpolate ci T (← rowAhi (z - 1))
  let dif := v2 - v1
  return v1 + (dif * da / 0.05)

/-- calculations.cpp:588-594 and 607-613, with the tables of generated_LS_coeff.h. -/
def lsValue (ci : Bool) (tabA tabAhi : List Nat) (z : Int) (A T : α) : M α :=
  lsValueOf ci (lsRowAt tabA) (lsRowAt tabAhi) z A T

/-- calculations.cpp:582-583: `z = (int)p.Z`, clamped to `LS_MAX_Z = 110`. -/
def lsZ (p : Projectile α) : M Int := do
  let z ← castInt p.Z
  return if z > 110 then 110 else z

/-- calculations.cpp:580-596 -/
def precalculated_lindhard (ci : Bool) (p : Projectile α) : M α := do
  let z ← lsZ p
  let T := if p.T <? ls_energy_table.val 0 then ls_energy_table.val 0 else p.T
  lsValue ci ls_coefficients_a ls_coefficients_ahi z p.A T

/-- calculations.cpp:598-614 -/
def precalculated_lindhard_X (ci : Bool) (p : Projectile α) : M α := do
  let z ← lsZ p
  if p.T <? ls_energy_table.val 0 then return 1.0
  lsValue ci ls_X_coefficients_a ls_X_coefficients_ahi z p.A p.T

end Catima
