import Verif.Model.Integrators

/-!
# Quadrature in two variables (`/repo/include/catima/glq_integrator.h`)
-/

namespace Catima
variable {α : Type} [Scalar α]

/-- The four evaluations of glq_integrator.h:91-92 and 125-126, in the order in which they are
written.  Simplification: C++ does not fix the order of evaluation of the operands of `+`. -/
def corners (f : α → α → M α) (q s xx yy : α) : M α := do
  let v1 ← f (xx + q) (yy + s)
  let v2 ← f (xx + q) (-yy + s)
  let sum := v1 + v2
  let v3 ← f (-xx + q) (yy + s)
  let v4 ← f (-xx + q) (-yy + s)
  return sum + (v3 + v4)

/-- `GaussLegendreIntegration2DA<order,order2>::integrate` (glq_integrator.h:111-132). -/
def integrate2DA (d d2 : GLData) (f : α → α → M α) (a b c e : α) : M α := do
  let p := (b - a) / 2.0
  let q := (b + a) / 2.0
  let r := (e - c) / 2.0
  let s := (e + c) / 2.0
  let res ← (List.range (d.order / 2)).foldlM (fun res (i : Nat) => do
    let xx := p * (← rdDec d.x i)
    (List.range (d2.order / 2)).foldlM (fun res (j : Nat) => do
      let yy := r * (← rdDec d2.x j)
      let sum ← corners f q s xx yy
      return res + (← rdDec d.w i) * (← rdDec d2.w j) * sum) res) (0.0 : α)
  return p * r * res

/-- `GaussLegendreIntegration2D<order>::integrate` (glq_integrator.h:77-97).  The text is that of
`GaussLegendreIntegration2DA` with the same rule in both directions. -/
def integrate2D (d : GLData) (f : α → α → M α) (a b c e : α) : M α := integrate2DA d d f a b c e

end Catima
