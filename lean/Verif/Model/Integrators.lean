import Verif.Model.Tables.Quadrature

/-!
# Quadrature (`/repo/include/catima/glq_integrator.h`, `gkq_integrator.h`)

The integrand is a function into `M`, so that a fault inside it ends the integration.
-/

namespace Catima
variable {α : Type} [Scalar α]

/-! ## Gauss–Legendre -/

namespace GLData

/-- The pairs `(x(i), w(i))` (glq_integrator.h:32-33). -/
def nodes (d : GLData) : List (α × α) := (d.x.zip d.w).map fun e => (e.1.toScalar, e.2.toScalar)

/-- One turn of the loop of glq_integrator.h:46-48. -/
def step (f : α → M α) (p q : α) (res : α) (xw : α × α) : M α := do
  let v1 ← f (p * xw.1 + q)
  let v2 ← f (-p * xw.1 + q)
  return res + xw.2 * (v1 + v2)

/-- glq_integrator.h:38-50 -/
def integrate (d : GLData) (f : α → M α) (a b : α) : M α := do
  let p := 0.5 * (b - a)
  let q := 0.5 * (b + a)
  let res ←
    if d.order % 2 = 1 then
      match d.nodes (α := α) with
      | [] => .error .outOfBounds
      | (x0, w0) :: _ => do
        let v ← f (p * x0 + q)
        pure ((0.0 : α) + w0 * v)
    else pure (0.0 : α)
  let res ← ((d.nodes (α := α)).drop (d.order % 2)).foldlM (step f p q) res
  return p * res

/-- glq_integrator.h:52-64: the array of `order` points.  Entries that the loop does not
assign stay uninitialised (`none`). -/
def get_points (d : GLData) (a b : α) : List (Option α) :=
  let p := 0.5 * (b - a)
  let q := 0.5 * (b + a)
  let num := d.order / 2
  (List.range num).foldl (fun pts i =>
    match d.x[i]? with
    | none => pts
    | some x => (pts.set (num - i - 1) (some (-p * x.toScalar + q))).set (num + i)
        (some (p * x.toScalar + q)))
    (List.replicate d.order none)

end GLData

/-! ## Gauss–Kronrod -/

namespace GKData

/-- gkq_integrator.h:59: `oddgauss` -/
def oddgauss (d : GKData) : Bool := ((d.order - 1) / 2) % 2 = 1

/-- The indices `k, k+2, ...` below `n` visited by the loops of gkq_integrator.h:82,92. -/
def stride (k n : Nat) : List Nat := (List.range n).filter fun i => i ≥ k && (i - k) % 2 = 0

/-- gkq_integrator.h:62-99.  Returns `(p*res, p*err)`. -/
def integrate_nonadaptive (d : GKData) (f : α → M α) (a b : α) : M (α × α) := do
  let p := 0.5 * (b - a)
  let q := 0.5 * (b + a)
  let xsize := d.order / 2 + 1
  let gi := if d.oddgauss then 2 else 1
  let ki := if d.oddgauss then 1 else 2
  let val ← f (p * (← rdDec d.x 0) + q)
  let res := (← rdDec d.w 0) * val
  let gres ← if d.oddgauss then do pure ((← rdDec d.wg 0) * val) else pure (0.0 : α)
  let (res, gres) ← (stride gi xsize).foldlM (fun (acc : α × α) (i : Nat) => do
    let x ← rdDec d.x i
    let w ← rdDec d.w i
    let wg ← rdDec d.wg (i / 2 : Nat)
    let v1 ← f (p * x + q)
    let v2 ← f (-p * x + q)
    pure (acc.1 + w * v1 + w * v2, acc.2 + wg * v1 + wg * v2)) (res, gres)
  let res ← (stride ki xsize).foldlM (fun acc (i : Nat) => do
    let x ← rdDec d.x i
    let w ← rdDec d.w i
    let v1 ← f (p * x + q)
    let v2 ← f (-p * x + q)
    pure (acc + w * (v1 + v2))) res
  let err := smax (Scalar.fabs (gres - res)) dblEps
  return (p * res, p * err)

/-- gkq_integrator.h:101-128 -/
def integrate_adaptive (d : GKData) (f : α → M α) (a b eps rprec : α) (level : Nat := 49) :
    M α := do
  let (result, err) ← d.integrate_nonadaptive f a b
  let numlimit : α := 10.0 * dblEps
  if (Scalar.fabs result <? numlimit) || ((b - a) <? numlimit) then return result
  let aeps := smax (rprec * Scalar.fabs result) eps
  if (aeps <? numlimit) || (Scalar.fabs result <? aeps) then return result
  match level with
  | 0 => return result
  | level + 1 =>
    if err >? aeps then
      let mid := 0.5 * (a + b)
      let r1 ← d.integrate_adaptive f a mid (0.707 * aeps) 0.0 level
      let r2 ← d.integrate_adaptive f mid b (0.707 * aeps) 0.0 level
      return r1 + r2
    else return result
termination_by level

/-- gkq_integrator.h:130-141 -/
def integrate (d : GKData) (f : α → M α) (a b : α) (eps : α := 1.0e-3) (reps : α := 1.0e-6)
    (N : Nat := 1) : M α :=
  let step := (b - a) / ofInt N
  (List.range N).foldlM (fun result (i : Nat) => do
    let m := a + (ofInt i * step)
    return result + (← d.integrate_adaptive f m (m + step) (eps / ofInt N) reps)) 0.0

/-- gkq_integrator.h:143-152 -/
def integrate_intervals (d : GKData) (f : α → M α) (ivs : List (α × α)) (eps : α := 1.0e-3)
    (reps : α := 1.0e-6) : M α :=
  ivs.foldlM (fun result i => do
    return result + (← d.integrate_adaptive f i.1 i.2 (eps / ofInt ivs.length) reps)) 0.0

/-- gkq_integrator.h:154-166; see `GLData.get_points`. -/
def get_points (d : GKData) (a b : α) : List (Option α) :=
  let p := 0.5 * (b - a)
  let q := 0.5 * (b + a)
  let num := d.order / 2
  (List.range num).foldl (fun pts i =>
    match d.x[i]? with
    | none => pts
    | some x => (pts.set (num - i - 1) (some (-p * x.toScalar + q))).set (num + i)
        (some (p * x.toScalar + q)))
    (List.replicate d.order none)

end GKData

/-- integrator.h:63,67: the global `integrator` (build without `GSL_INTEGRATION`). -/
def integrator : GLData := GL_data8

/-- integrator.h:65,68: the global `integrator_adaptive`. -/
def integrator_adaptive : GKData := GK_data21

end Catima
