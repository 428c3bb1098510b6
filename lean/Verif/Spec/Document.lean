import Verif.Model.CalculatorJson
import Verif.Lemmas.RealScalar

/-!
# The documented input of the calculator (`/repo/docs/catima_calculator.md`)
-/

namespace Catima

/-- A JSON number with its value. -/
def Json.IsNumber (v : Json ℝ) (x : ℝ) : Prop := (∃ i : Int, v = .int i ∧ x = i) ∨ v = .float x

/-- The object has the entry `k` with the value `v`, and no other entry `k`. -/
def HasEntry (l : List (String × Json ℝ)) (k : String) (v : Json ℝ) : Prop := (k, v) ∈ l ∧ ∀ v', (k, v') ∈ l → v' = v

/-- The object has no entry `k`. -/
def NoEntry (l : List (String × Json ℝ)) (k : String) : Prop := ∀ v, (k, v) ∉ l

/-- The object has a number `x` as entry `k`, or no such entry and `x = 0`. -/
def NumberOrZero (l : List (String × Json ℝ)) (k : String) (x : ℝ) : Prop :=
  (∃ v, HasEntry l k v ∧ v.IsNumber x) ∨ NoEntry l k ∧ x = 0

/-- `"projectile":[11.997,6]` -/
def DocProjectile (l : List (String × Json ℝ)) (A Z : ℝ) : Prop :=
  ∃ a z, HasEntry l "projectile" (.arr [a, z]) ∧ a.IsNumber A ∧ z.IsNumber Z

/-- One object of `"material"`: `"Z"` is mandatory; without `"A"` (or with 0) the atomic weight and without `"density"` (or with 0)
the tabulated density is used.  From 200 on `"Z"` denotes a substance, whose density is that of the database. -/
def DocMaterial (v : Json ℝ) (m : Material ℝ) : Prop :=
  ∃ l z a d th I, v = .obj l ∧ HasEntry l "Z" (.int z) ∧ 1 ≤ z ∧ z ≤ 2147483647 ∧ NumberOrZero l "A" a ∧ NumberOrZero l "density" d ∧
    NumberOrZero l "thickness" th ∧ NumberOrZero l "Ipot" I ∧
    (z < 200 → 0 ≤ I ∧ m = { Material.ofElement a z (if 0 < d then d else element_density z) th with i_potential := I }) ∧
    (200 ≤ z → d = 0 ∧ I = 0 ∧ m = { (get_material z : Material ℝ) with th := th })

/-- `"material"`: an object or an array of objects. -/
def DocMaterials (l : List (String × Json ℝ)) (ms : List (Material ℝ)) : Prop :=
  (∃ v m, HasEntry l "material" v ∧ DocMaterial v m ∧ ms = [m]) ∨
  ∃ vs, HasEntry l "material" (.arr vs) ∧ List.Forall₂ DocMaterial vs ms

/-- `"energy"`: a number, a string with a number, an array of numbers, or an object with `min`, `max` and an integer `step` or the number of
energies `num`. -/
inductive DocEnergies (stod : String → Option ℝ) : Json ℝ → List ℝ → Prop where
  | number {v x} : v.IsNumber x → DocEnergies stod v [x]
  | string {s x} : stod s = some x → DocEnergies stod (.str s) [x]
  | array {vs es} : List.Forall₂ Json.IsNumber vs es → DocEnergies stod (.arr vs) es
  | step {l a b va vb} {k : Int} {n : ℕ} : HasEntry l "min" va → va.IsNumber a → HasEntry l "max" vb → vb.IsNumber b →
      HasEntry l "step" (.int k) → NoEntry l "num" → 1 ≤ k → k ≤ 2147483647 → n ≤ 2147483646 → b - a = n * k →
      DocEnergies stod (.obj l) ((List.range (n + 1)).map fun i : ℕ => a + i * k)
  | num {l a b va vb} {n : ℕ} : HasEntry l "min" va → va.IsNumber a → HasEntry l "max" vb → vb.IsNumber b →
      HasEntry l "num" (.int n) → NoEntry l "step" → 2 ≤ n → n ≤ 2147483647 → a < b →
      DocEnergies stod (.obj l) ((List.range n).map fun i : ℕ => a + i * ((b - a) / (n - 1)))

/-- A document as described, with what it means. -/
def Documented (stod : String → Option ℝ) (j : Json ℝ) (A Z : ℝ) (es : List ℝ) (ms : List (Material ℝ)) : Prop :=
  ∃ l v, j = .obj l ∧ DocProjectile l A Z ∧ HasEntry l "energy" v ∧ DocEnergies stod v es ∧ DocMaterials l ms

/-- An entry of `"material"` that cannot be meant: not an object, no `"Z"`, a `"Z"` that is not positive or not a number, another entry that is
not a number. -/
def BadMaterial (v : Json ℝ) : Prop :=
  (∀ l, v ≠ .obj l) ∨ ∃ l, v = .obj l ∧ (NoEntry l "Z" ∨ (∃ z, HasEntry l "Z" (.int z) ∧ -2147483648 ≤ z ∧ z ≤ 0) ∨
    (∃ s, HasEntry l "Z" (.str s)) ∨ HasEntry l "Z" .null ∨
    ∃ k ∈ ["A", "density", "thickness", "Ipot"], ∃ w, HasEntry l k w ∧ ∀ x, ¬ w.IsNumber x)

/-- A document that lacks something mandatory or has something else in its place. -/
inductive BadDocument (stod : String → Option ℝ) : Json ℝ → Prop where
  | notObject {j} : (∀ l, j ≠ .obj l) → BadDocument stod j
  | missing {l k} : k ∈ ["projectile", "energy", "material"] → NoEntry l k → BadDocument stod (.obj l)
  | projectile {l vs} : HasEntry l "projectile" (.arr vs) → (∀ a z rest A Z, vs = a :: z :: rest → a.IsNumber A → z.IsNumber Z → False) →
      BadDocument stod (.obj l)
  | energy {l s} : HasEntry l "energy" (.str s) → stod s = none → BadDocument stod (.obj l)
  | material {l vs v} : HasEntry l "material" (.arr vs) → v ∈ vs → BadMaterial v → BadDocument stod (.obj l)
  | single {l l'} : HasEntry l "material" (.obj l') → BadMaterial (.obj l') → BadDocument stod (.obj l)

end Catima
