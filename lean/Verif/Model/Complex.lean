import Verif.Model.Scalar

/-!
# `std::complex<double>` and the trigonometric functions

Used only by `hyperg`, `lngamma`, `bethek_lindhard` and `bethek_lindhard_X`
(`/repo/src/calculations.cpp`).
-/

namespace Catima

/-- The further `<cmath>` calls of calculations.cpp:171-419 and 840-895.  No laws, like `Scalar`. -/
class TrigScalar (α : Type) extends Scalar α where
  sin : α → α
  cos : α → α
  sinh : α → α
  cosh : α → α
  /-- `atan2(y, x)` -/
  atan2 : α → α → α

instance : TrigScalar Float where
  sin := Float.sin
  cos := Float.cos
  sinh := Float.sinh
  cosh := Float.cosh
  atan2 := Float.atan2

/-- `std::complex<double>` -/
structure Cpx (α : Type) where
  re : α
  im : α

namespace Cpx
section
variable {α : Type} [Scalar α]

/-- `std::complex::operator+` -/
def add (z w : Cpx α) : Cpx α := ⟨z.re + w.re, z.im + w.im⟩
/-- `std::complex::operator-` -/
def sub (z w : Cpx α) : Cpx α := ⟨z.re - w.re, z.im - w.im⟩
/-- `std::complex::operator*`.  Simplification: the recovery of infinities of C11 Annex G is left
out. -/
def mul (z w : Cpx α) : Cpx α := ⟨z.re * w.re - z.im * w.im, z.re * w.im + z.im * w.re⟩
/-- `std::complex::operator/`.  Simplification: the scaling against overflow is left out. -/
def div (z w : Cpx α) : Cpx α :=
  let n := w.re * w.re + w.im * w.im
  ⟨(z.re * w.re + z.im * w.im) / n, (z.im * w.re - z.re * w.im) / n⟩
/-- `std::complex<double> * double` -/
def smul (x : α) (z : Cpx α) : Cpx α := ⟨x * z.re, x * z.im⟩
/-- `std::complex<double> / double` -/
def sdiv (z : Cpx α) (x : α) : Cpx α := ⟨z.re / x, z.im / x⟩
/-- `std::abs`.  Simplification: the standard library computes it with `hypot`. -/
def abs (z : Cpx α) : α := Scalar.sqrt (z.re * z.re + z.im * z.im)

instance : Add (Cpx α) := ⟨add⟩
instance : Sub (Cpx α) := ⟨sub⟩
instance : Mul (Cpx α) := ⟨mul⟩
instance : Div (Cpx α) := ⟨div⟩
end

section
variable {α : Type} [TrigScalar α]

/-- `std::arg` -/
def arg (z : Cpx α) : α := TrigScalar.atan2 z.im z.re
/-- `std::exp` -/
def exp (z : Cpx α) : Cpx α :=
  ⟨Scalar.exp z.re * TrigScalar.cos z.im, Scalar.exp z.re * TrigScalar.sin z.im⟩
/-- `std::log`: the principal value. -/
def log (z : Cpx α) : Cpx α := ⟨Scalar.log z.abs, z.arg⟩
/-- `std::sqrt`: the root with non-negative real part, in polar form. -/
def sqrt (z : Cpx α) : Cpx α :=
  ⟨Scalar.sqrt z.abs * TrigScalar.cos (z.arg / 2.0), Scalar.sqrt z.abs * TrigScalar.sin (z.arg / 2.0)⟩
/-- `std::sin` -/
def sin (z : Cpx α) : Cpx α :=
  ⟨TrigScalar.sin z.re * TrigScalar.cosh z.im, TrigScalar.cos z.re * TrigScalar.sinh z.im⟩

end
end Cpx
end Catima
