import Verif.Model.Integrators
import Verif.Lemmas.RealScalar

/-!
# Specification vocabulary for the integrators
-/

namespace Catima

/-- The Gauss-Legendre rules the library provides (glq_integrator.h:138-356). -/
def GLData.supported : List GLData :=
  [GL_data3, GL_data4, GL_data5, GL_data6, GL_data7, GL_data8, GL_data10, GL_data12, GL_data14,
   GL_data16, GL_data20, GL_data32, GL_data64, GL_data128]

/-- The Gauss-Kronrod rules the library provides (gkq_integrator.h:172-440). -/
def GKData.supported : List GKData := [GK_data7, GK_data15, GK_data21, GK_data31, GK_data61]

/-- An integrand that never faults. -/
def total (g : ℝ → ℝ) : ℝ → M ℝ := fun x => .ok (g x)

/-- One cell of an adaptive integration: its ends, the number of bisections that led to it, the
value of the rule on it and the error estimate. -/
structure Cell where
  left : ℝ
  right : ℝ
  depth : Nat
  value : ℝ
  err : ℝ

/-- The cells run from `a` to `b` without gaps. -/
def Covers : ℝ → ℝ → List Cell → Prop
  | a, b, [] => a = b
  | a, b, c :: cs => c.left = a ∧ Covers c.right b cs

/-- A cell is final when it is at the depth limit, when its error estimate is at most the
tolerance, or when value, width or tolerance are negligible. -/
def Cell.Final (c : Cell) (limit : Nat) (tol : ℝ) : Prop :=
  c.depth = limit ∨ c.err ≤ tol ∨ |c.value| < tol ∨ tol < 10 * 2⁻¹ ^ 52 ∨
    |c.value| < 10 * 2⁻¹ ^ 52 ∨ c.right - c.left < 10 * 2⁻¹ ^ 52

end Catima
