import Verif.Model.Lindhard

/-!
# The generator of the Lindhard-Sørensen tables (`/repo/utils/generator.cpp`)

The program writes a C++ header with four tables.  `f` is the function it tabulates (`bethek_lindhard` or
`bethek_lindhard_X`), `print` is what printing a number with the six digits of `operator<<` and compiling the header does
to it.
-/

namespace Catima
variable {α : Type} [Scalar α]

/-- nucdata.h:20: `ATOMIC_WEIGHT_MAXZ`, which the generator also writes as `LS_MAX_Z` (generator.cpp:41). -/
def ATOMIC_WEIGHT_MAXZ : Int := 110

/-- generator.cpp:18 -/
def generator_energy (i : Nat) : α :=
  Scalar.exp (LN10 * (0.0 + ofInt i * (7.0 - 0.0) / (200.0 - 1.0)))

/-- generator.cpp:82 -/
def generator_mass (z : Int) : α := element_atomic_weight z

/-- generator.cpp:86-87: the second mass. -/
def generator_mass_hi (z : Int) : α :=
  let A := generator_mass z
  A + A * 0.05

/-- generator.cpp:79-100: the row of the element `z` for the masses `mass`.  The charge of the default-constructed
projectile is 0. -/
def generator_row (f : Projectile α → α) (print : α → α) (mass : Int → α) (z : Int) : List α :=
  (List.range 200).map fun i => print (f ⟨mass z, ofInt z, 0.0, generator_energy i⟩)

/-- generator.cpp:67-105: the rows `z = 1, ..., ATOMIC_WEIGHT_MAXZ - 2`. -/
def generator_table (f : Projectile α → α) (print : α → α) (mass : Int → α) : List (List α) :=
  (List.range (ATOMIC_WEIGHT_MAXZ - 2).toNat).map fun k : Nat => generator_row f print mass ((k : Int) + 1)

/-- calculations.cpp:582-594 and 600-613 with the tables that the generator writes for `f`; simplified: for energies from the
first energy of the table on, where the two lookups do the same (below, one clamps the energy and one returns 1). -/
def generated_lookup (ci : Bool) (f : Projectile α → α) (print : α → α) (p : Projectile α) : M α := do
  let z ← lsZ p
  lsValueOf ci (rd (generator_table f print generator_mass)) (rd (generator_table f print generator_mass_hi)) z p.A p.T

end Catima
