import Verif.Lemmas.RealScalar

/-!
# Rounded arithmetic

A specification of floating point arithmetic by the laws that IEEE 754 guarantees: every operation returns the
rounded exact result.  Overflow, infinities and NaNs are left out: a number of the format may be as large as one
likes, and an operation outside of its domain (division by zero, root of a negative number) returns some number.
The theorems about rounded arithmetic have hypotheses that keep away from these cases.

The functions of the mathematical library are not correctly rounded in general; of these
only a few signs and bounds are assumed.
-/

namespace Catima

/-- A rounding of the real numbers to a set of representable ones. -/
structure Rounding where
  rd : ℝ → ℝ
  /-- rounding preserves the order -/
  mono : Monotone rd
  /-- rounding is symmetric (to nearest, or towards zero) -/
  neg : ∀ x, rd (-x) = -rd x
  /-- representable numbers are not changed -/
  idem : ∀ x, rd (rd x) = rd x
  /-- small integers are representable -/
  int : ∀ n : ℤ, |n| ≤ 2 ^ 53 → rd n = n
  /-- the relative error in the normal range -/
  rel : ∀ x, 2 ^ (-1022 : ℤ) ≤ |x| → |rd x - x| ≤ 2 ^ (-53 : ℤ) * |x|

/-- The functions of `<cmath>` that are not correctly rounded. -/
structure Libm where
  exp : ℝ → ℝ
  log : ℝ → ℝ
  log1p : ℝ → ℝ
  log10 : ℝ → ℝ
  pow : ℝ → ℝ → ℝ
  exp_nonneg : ∀ x, 0 ≤ exp x
  exp_le_one : ∀ x, x ≤ 0 → exp x ≤ 1
  log_nonneg : ∀ x, 1 ≤ x → 0 ≤ log x
  log1p_nonneg : ∀ x, 0 ≤ x → 0 ≤ log1p x
  pow_nonneg : ∀ x y, 0 ≤ x → 0 ≤ pow x y

/-- Floating point arithmetic. -/
structure FloatModel extends Rounding, Libm

namespace FloatModel

/-- The representable numbers. -/
def Fl (F : FloatModel) : Type := {x : ℝ // F.rd x = x}

variable {F : FloatModel}

/-- The value of a floating point number. -/
def Fl.val (x : F.Fl) : ℝ := Subtype.val x

/-- Round to a floating point number. -/
def round (F : FloatModel) (x : ℝ) : F.Fl := ⟨F.rd x, F.idem x⟩

open Classical in
/-- The operations: the exact result, rounded.  Negation, comparison, absolute value and the conversion to integers are exact. -/
noncomputable instance : Scalar F.Fl where
  add a b := F.round (a.val + b.val)
  sub a b := F.round (a.val - b.val)
  mul a b := F.round (a.val * b.val)
  div a b := F.round (a.val / b.val)
  neg a := ⟨-a.val, by rw [F.neg]; exact congrArg _ a.2⟩
  ofScientific m s e := F.round (OfScientific.ofScientific m s e)
  lt a b := decide (a.val < b.val)
  le a b := decide (a.val ≤ b.val)
  beq a b := decide (a.val = b.val)
  ofInt i := F.round i
  toInt x := Scalar.toInt x.val
  lround x := Scalar.lround x.val
  floor x := F.round ⌊x.val⌋
  exp x := F.round (F.exp x.val)
  log x := F.round (F.log x.val)
  log1p x := F.round (F.log1p x.val)
  log10 x := F.round (F.log10 x.val)
  sqrt x := F.round (√x.val)
  fabs x := ⟨|x.val|, by
    rcases abs_choice x.val with h | h
    · rw [h]; exact x.2
    · rw [h, F.neg]; exact congrArg _ x.2⟩
  pow x y := F.round (F.pow x.val y.val)

section
variable (a b : F.Fl)
theorem val_add : (a + b).val = F.rd (a.val + b.val) := rfl
theorem val_sub : (a - b).val = F.rd (a.val - b.val) := rfl
theorem val_mul : (a * b).val = F.rd (a.val * b.val) := rfl
theorem val_div : (a / b).val = F.rd (a.val / b.val) := rfl
theorem val_neg : (-a).val = -a.val := rfl
theorem val_ofInt (i : ℤ) : (Scalar.ofInt i : F.Fl).val = F.rd i := rfl
theorem val_exp : (Scalar.exp a).val = F.rd (F.exp a.val) := rfl
theorem val_log : (Scalar.log a).val = F.rd (F.log a.val) := rfl
theorem val_log1p : (Scalar.log1p a).val = F.rd (F.log1p a.val) := rfl
theorem val_sqrt : (Scalar.sqrt a).val = F.rd (√a.val) := rfl
theorem val_fabs : (Scalar.fabs a).val = |a.val| := rfl
theorem val_pow : (Scalar.pow a b).val = F.rd (F.pow a.val b.val) := rfl
theorem val_lit (m : ℕ) (s : Bool) (e : ℕ) :
    (OfScientific.ofScientific m s e : F.Fl).val = F.rd (OfScientific.ofScientific m s e : ℝ) := rfl
theorem lt_fl : (Scalar.lt a b = true) ↔ a.val < b.val := by simp [Scalar.lt]
theorem le_fl : (Scalar.le a b = true) ↔ a.val ≤ b.val := by simp [Scalar.le]
theorem beq_fl : (Scalar.beq a b = true) ↔ a.val = b.val := by simp [Scalar.beq]
theorem rd_val : F.rd a.val = a.val := a.2
theorem val_inj {a b : F.Fl} (h : a.val = b.val) : a = b := Subtype.ext h
end

theorem rd_zero : F.rd 0 = 0 := by simpa using F.int 0 (by norm_num)
theorem rd_one : F.rd 1 = 1 := by simpa using F.int 1 (by norm_num)
theorem rd_nonneg {x : ℝ} (h : 0 ≤ x) : 0 ≤ F.rd x := by
  rw [← rd_zero (F := F)]; exact F.mono h
theorem rd_nonpos {x : ℝ} (h : x ≤ 0) : F.rd x ≤ 0 := by
  rw [← rd_zero (F := F)]; exact F.mono h
/-- A bound by a representable number survives rounding. -/
theorem rd_le {x : ℝ} (b : F.Fl) (h : x ≤ b.val) : F.rd x ≤ b.val := by
  rw [← rd_val b]; exact F.mono h
theorem le_rd {x : ℝ} (b : F.Fl) (h : b.val ≤ x) : b.val ≤ F.rd x := by
  rw [← rd_val b]; exact F.mono h
theorem rd_le_one {x : ℝ} (h : x ≤ 1) : F.rd x ≤ 1 := by
  rw [← rd_one (F := F)]; exact F.mono h
theorem one_le_rd {x : ℝ} (h : 1 ≤ x) : 1 ≤ F.rd x := by
  rw [← rd_one (F := F)]; exact F.mono h

end FloatModel

end Catima
