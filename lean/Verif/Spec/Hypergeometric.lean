import Mathlib.RingTheory.Polynomial.Pochhammer
import Mathlib.Analysis.SpecificLimits.Normed
import Mathlib.Analysis.Complex.Basic

/-!
# Specification: Kummer's confluent hypergeometric function
-/

namespace Catima

/-- The term `(a)_m / (b)_m * z^m / m!` of the series of `₁F₁(a; b; z)`; `(a)_m` is the rising
factorial `a (a+1) ... (a+m-1)`. -/
noncomputable def kummerTerm (a b z : ℂ) (m : ℕ) : ℂ :=
  (ascPochhammer ℂ m).eval a / (ascPochhammer ℂ m).eval b * z ^ m / (m.factorial : ℂ)

/-- `₁F₁(a; b; z)` -/
noncomputable def kummer (a b z : ℂ) : ℂ := ∑' m, kummerTerm a b z m

end Catima
