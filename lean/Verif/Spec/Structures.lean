import Verif.Lemmas.RealScalar
import Verif.Model.Structures

/-!
# Specifications for `Material`
-/

namespace Catima

/-- The mass the user ends up with: a non-positive mass selects the tabulated atomic weight. -/
noncomputable def usedMass (a : ℝ) (z : Int) : ℝ := if 0 < a then a else element_atomic_weight z

/-- Materials a user can build through the API from components with stoichiometric number at
least 1 and positive (given or tabulated) mass, without overriding the molar mass. -/
inductive StoichBuilt : Material ℝ → Prop
  | default : StoichBuilt Material.default
  | element (a : ℝ) (z : Int) (rho th I : ℝ) (h : 0 < usedMass a z) :
      StoichBuilt (Material.ofElement a z rho th I)
  | list (l : List (ℝ × Int × ℝ)) (rho I : ℝ) (hne : l ≠ [])
      (h : ∀ e ∈ l, 1 ≤ e.2.2 ∧ 0 < usedMass e.1 e.2.1) :
      StoichBuilt (Material.ofList l rho I 0)
  | add {m : Material ℝ} (hm : StoichBuilt m) (a : ℝ) (z : Int) (n : ℝ) (hn : 1 ≤ n)
      (h : 0 < usedMass a z) : StoichBuilt (m.add_element a z n)
  | density {m : Material ℝ} (hm : StoichBuilt m) (v : ℝ) : StoichBuilt (m.set_density v)
  | thickness {m : Material ℝ} (hm : StoichBuilt m) (v : ℝ) : StoichBuilt (m.set_thickness v)
  | thickness_cm {m : Material ℝ} (hm : StoichBuilt m) (v : ℝ) :
      StoichBuilt (m.set_thickness_cm v)
  | I {m : Material ℝ} (hm : StoichBuilt m) (v : ℝ) : StoichBuilt (m.set_I v)

/-- All weight fractions, read one by one through the API. -/
noncomputable def weightFractions (m : Material ℝ) : M (List ℝ) :=
  (List.range m.ncomponents).mapM fun i : Nat => m.weight_fraction i

/-- All molar fractions, read one by one through the API. -/
noncomputable def molarFractions (m : Material ℝ) : M (List ℝ) :=
  (List.range m.ncomponents).mapM fun i : Nat => m.molar_fraction i

/-- A mixture given by weight fractions below 1, with positive masses. -/
def FractionList (l : List (ℝ × Int × ℝ)) : Prop :=
  l ≠ [] ∧ ∀ e ∈ l, 0 < e.2.2 ∧ e.2.2 < 1 ∧ 0 < usedMass e.1 e.2.1

end Catima
