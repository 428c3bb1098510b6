import Verif.Lemmas.RealScalar

/-!
# Not-a-number

The laws of the IEEE 754 value NaN that the theorems of C104 need, and an arithmetic that satisfies them.
-/

namespace Catima

/-- `nan` compares false with everything, operations with it return it, and it has no integer value. -/
structure IsNaN {α : Type} [Scalar α] (nan : α) : Prop where
  lt_left : ∀ x, (nan <? x) = false
  lt_right : ∀ x, (x <? nan) = false
  le_left : ∀ x, (nan ≤? x) = false
  le_right : ∀ x, (x ≤? nan) = false
  beq_left : ∀ x, (nan =? x) = false
  beq_right : ∀ x, (x =? nan) = false
  add_left : ∀ x, nan + x = nan
  add_right : ∀ x, x + nan = nan
  sub_left : ∀ x, nan - x = nan
  sub_right : ∀ x, x - nan = nan
  mul_left : ∀ x, nan * x = nan
  mul_right : ∀ x, x * nan = nan
  div_left : ∀ x, nan / x = nan
  div_right : ∀ x, x / nan = nan
  neg : -nan = nan
  fabs : Scalar.fabs nan = nan
  floor : Scalar.floor nan = nan
  log : Scalar.log nan = nan
  sqrt : Scalar.sqrt nan = nan
  toInt : Scalar.toInt nan = none

/-- The real numbers and NaN (`none`). -/
def NReal : Type := Option ℝ

/-- Real arithmetic, extended so that every operation with NaN gives NaN. -/
noncomputable instance : Scalar NReal where
  add a b := Option.map₂ (· + ·) a b
  sub a b := Option.map₂ (· - ·) a b
  mul a b := Option.map₂ (· * ·) a b
  div a b := Option.map₂ (· / ·) a b
  neg a := Option.map (- ·) a
  ofScientific m s e := some (OfScientific.ofScientific m s e)
  lt a b := (Option.map₂ (fun x y : ℝ => x <? y) a b).getD false
  le a b := (Option.map₂ (fun x y : ℝ => x ≤? y) a b).getD false
  beq a b := (Option.map₂ (fun x y : ℝ => x =? y) a b).getD false
  ofInt i := some (ofInt i : ℝ)
  toInt a := Option.bind a (Scalar.toInt (α := ℝ))
  lround a := (Option.map (Scalar.lround (α := ℝ)) a).getD 0
  floor a := Option.map (Scalar.floor (α := ℝ)) a
  exp a := Option.map (Scalar.exp (α := ℝ)) a
  log a := Option.map (Scalar.log (α := ℝ)) a
  log1p a := Option.map (Scalar.log1p (α := ℝ)) a
  log10 a := Option.map (Scalar.log10 (α := ℝ)) a
  sqrt a := Option.map (Scalar.sqrt (α := ℝ)) a
  fabs a := Option.map (Scalar.fabs (α := ℝ)) a
  pow a b := Option.map₂ (Scalar.pow (α := ℝ)) a b

/-- The NaN of `NReal`. -/
def NReal.nan : NReal := (none : Option ℝ)

theorem NReal.isNaN : IsNaN NReal.nan where
  lt_left x := by cases x <;> rfl
  lt_right x := by cases x <;> rfl
  le_left x := by cases x <;> rfl
  le_right x := by cases x <;> rfl
  beq_left x := by cases x <;> rfl
  beq_right x := by cases x <;> rfl
  add_left x := by cases x <;> rfl
  add_right x := by cases x <;> rfl
  sub_left x := by cases x <;> rfl
  sub_right x := by cases x <;> rfl
  mul_left x := by cases x <;> rfl
  mul_right x := by cases x <;> rfl
  div_left x := by cases x <;> rfl
  div_right x := by cases x <;> rfl
  neg := rfl
  fabs := rfl
  floor := rfl
  log := rfl
  sqrt := rfl
  toInt := rfl

end Catima
