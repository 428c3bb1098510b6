import Verif.Model.Scalar
import Mathlib.Analysis.SpecialFunctions.Pow.Real
import Mathlib.Analysis.SpecialFunctions.Log.Base
import Mathlib.Analysis.SpecialFunctions.Sqrt
import Mathlib.Tactic.Positivity

/-!
# The real-number instance of `Scalar`
-/

namespace Catima

open Classical in
/-- Exact real arithmetic.  `toInt` truncates towards zero and is undefined outside the range of
a 32-bit `int`; `lround` rounds half away from zero. -/
noncomputable instance instScalarReal : Scalar ℝ where
  toAdd := inferInstance
  toSub := inferInstance
  toMul := inferInstance
  toDiv := inferInstance
  toNeg := inferInstance
  toOfScientific := inferInstance
  lt a b := decide (a < b)
  le a b := decide (a ≤ b)
  beq a b := decide (a = b)
  ofInt i := (i : ℝ)
  toInt x :=
    if -2147483649 < x ∧ x < 2147483648 then some (if 0 ≤ x then ⌊x⌋ else ⌈x⌉) else none
  lround x := if 0 ≤ x then ⌊x + 1 / 2⌋ else ⌈x - 1 / 2⌉
  floor x := (⌊x⌋ : ℝ)
  exp := Real.exp
  log := Real.log
  log1p x := Real.log (1 + x)
  log10 x := Real.logb 10 x
  sqrt := Real.sqrt
  fabs x := |x|
  pow x y := x ^ y

section
variable (a b : ℝ)
@[simp] theorem lt_real : (Scalar.lt a b = true) ↔ a < b := by simp [Scalar.lt]
@[simp] theorem le_real : (Scalar.le a b = true) ↔ a ≤ b := by simp [Scalar.le]
@[simp] theorem beq_real : (Scalar.beq a b = true) ↔ a = b := by simp [Scalar.beq]
@[simp] theorem lt_real_false : (Scalar.lt a b = false) ↔ b ≤ a := by simp [Scalar.lt]
@[simp] theorem le_real_false : (Scalar.le a b = false) ↔ b < a := by simp [Scalar.le]
@[simp] theorem beq_real_false : (Scalar.beq a b = false) ↔ a ≠ b := by simp [Scalar.beq]
theorem ofInt_real (i : Int) : (Scalar.ofInt i : ℝ) = (i : ℝ) := rfl
theorem floor_real : Scalar.floor a = (⌊a⌋ : ℝ) := rfl
theorem exp_real : Scalar.exp a = Real.exp a := rfl
theorem log_real : Scalar.log a = Real.log a := rfl
theorem log1p_real : Scalar.log1p a = Real.log (1 + a) := rfl
theorem log10_real : Scalar.log10 a = Real.logb 10 a := rfl
theorem sqrt_real : Scalar.sqrt a = Real.sqrt a := rfl
theorem fabs_real : Scalar.fabs a = |a| := rfl
theorem pow_real : Scalar.pow a b = a ^ b := rfl
theorem add_real : @HAdd.hAdd ℝ ℝ ℝ (@instHAdd ℝ Scalar.toAdd) a b = a + b := rfl
theorem toInt_real : Scalar.toInt a =
  if -2147483649 < a ∧ a < 2147483648 then some (if 0 ≤ a then ⌊a⌋ else ⌈a⌉) else none := rfl
end
end Catima
