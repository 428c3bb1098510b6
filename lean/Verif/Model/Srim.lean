import Verif.Model.Tables.Srim

/-!
# Low-energy stopping (`/repo/src/srim.cpp`)
-/

namespace Catima
variable {α : Type} [Scalar α]

/-- srim.cpp:13-18 and 36-41: `i = Z - 1`, clamped to 91 above `Z = 92`. -/
def srimIdx (Z : Int) : Int := if Z > 92 then 91 else Z - 1

/-- srim.cpp:19-22 (and 42-45): stopping from one row of eight coefficients at `e` keV/u. -/
def pseRow (k : List α) (e : α) : M α := do
  let sl := ((← rd k 0) * Scalar.pow e (← rd k 1)) + ((← rd k 2) * Scalar.pow e (← rd k 3))
  let sh := (← rd k 4) / Scalar.pow e (← rd k 5)
    * Scalar.log (((← rd k 6) / e) + ((← rd k 7) * e))
  return sl * sh / (sl + sh)

/-- srim.cpp:11-28 with the coefficient table as a parameter (`p_se` and `p_se85` only
differ in the table). -/
def pseGen (tab : List (List Dec)) (Z : Int) (energy : α) : M α := do
  let e0 := 1000.0 * energy
  let row ← rd tab (srimIdx Z)
  let e := if e0 ≤? 25.0 then 25.0 else e0
  let sp ← pseRow (row.map Dec.toScalar) e
  return if e0 ≤? 25.0 then
    sp * (if Z > 6 then Scalar.pow (e0 / 25.0) 0.45 else Scalar.pow (e0 / 25.0) 0.25)
  else sp

/-- srim.cpp:11-28 -/
def p_se (Z : Int) (energy : α) : M α := pseGen pse_95 Z energy
/-- srim.cpp:34-51 -/
def p_se85 (Z : Int) (energy : α) : M α := pseGen proton_stopping_coef Z energy

/-- srim.cpp:67-83: the helium branch; `fp` is the proton stopping at the same energy. -/
def srimHelium (fp : α → M α) (tZ : Int) (energy : α) : M α := do
  let e0 := energy * 1000.0
  let e := if e0 ≤? 1.0 then 1.0 else e0
  let b := Scalar.log e
  let a := 0.2865 + b * (0.1266 + b * (-0.001429 + b * (0.02402 + b * (-0.01135 + b * 0.001475))))
  let heh := 1.0 - Scalar.exp (-(smin 30.0 a))
  let b := 7.6 - smax 0.0 b
  let a := 1.0 + (0.007 + 0.00005 * ofInt tZ) * Scalar.exp (-b * b)
  let heh := heh * (a * a)
  let se := (← fp energy) * heh * 4.0
  return if e =? 1.0 then se * Scalar.sqrt e else se

/-- srim.cpp:113: ionisation level -/
def hiQ (yr : α) : α :=
  let a := -0.803 * Scalar.pow yr 0.3 + 1.3167 * Scalar.pow yr 0.6 + 0.38157 * yr
    + 0.008983 * yr * yr
  smin 1.0 (smax 0.0 (1.0 - Scalar.exp (-(smin a 50.0))))

/-- srim.cpp:117,119-130: screening length `l1` -/
def hiL1 (pZ q pZ13_inv : α) : α :=
  let b := (smin 0.43 (smax 0.32 (0.12 + 0.025 * pZ))) * pZ13_inv
  if q <? 0.2 then 0.0
  else if q <? smax 0.0 (0.9 - 0.025 * pZ) then
    b * (q - 0.2) / Scalar.fabs (smax 0.0 (0.9 - 0.025 * pZ) - 0.2000001)
  else if q <? smax 0.0 (1.0 - 0.025 * smin 16.0 pZ) then b
  else b * (1.0 - q) / (0.025 * smin 16.0 pZ)

/-- srim.cpp:84-158: the heavy-ion branch.  `pZ*pZ` is an `int` product in C++; its
overflow (|pZ| > 46340) is not modelled. -/
def srimHeavy (fp : α → M α) (pZ tZ : Int) (energy : α) : M α := do
  let e := energy * 1000.0
  let YRmin : α := 0.130
  let VRmin : α := 1.0
  let pz : α := ofInt pZ
  let pZ13_inv := 1.0 / Scalar.pow pz (1.0 / 3.0)
  let pZ23_inv := pZ13_inv * pZ13_inv
  let vfermi ← rdDec (α := α) atima_vfermi (srimIdx tZ)
  let v := Scalar.sqrt (e / 25.0) / vfermi
  let v2 := v * v
  let vr := if v ≥? 1.0 then v * vfermi * (1.0 + 0.2 / v2)
    else 3.0 * vfermi / 4.0 * (1.0 + v2 * (2.0 / 3.0 - v2 / 15.0))
  let yr := smax YRmin (vr * pZ23_inv)
  let yr := smax yr (VRmin * pZ23_inv)
  let q := hiQ yr
  let l0 := (0.8 - q * smin 1.2 (0.6 + pz / 30.0)) * pZ13_inv
  let l1 := hiL1 pz q pZ13_inv
  let lam ← rdDec (α := α) atima_lambda_screening (srimIdx pZ)
  let l := smax l1 (l0 * lam)
  let h1 := 4.0 * l * vfermi / 1.919
  let zeta := q + (1.0 / (2.0 * (vfermi * vfermi))) * (1.0 - q) * Scalar.log1p (h1 * h1)
  let a := 7.6 - smax 0.0 (Scalar.log e)
  let zeta := zeta * (1.0 + (1.0 / ofInt (pZ * pZ)) * (0.18 + 0.0015 * ofInt tZ)
    * Scalar.exp (-a * a))
  let c1 := zeta * pz
  if yr ≤? smax YRmin (VRmin * pZ23_inv) then
    let VRmin := smax VRmin (YRmin / pZ23_inv)
    let vmin := 0.5 * (VRmin + Scalar.sqrt (smax 0.0 (VRmin * VRmin - 0.8 * vfermi * vfermi)))
    let eee := 25.0 * vmin * vmin
    let eval : α := if tZ = 6 ∨ ((tZ = 14 ∨ tZ = 32) ∧ pZ ≤ 19) then 0.35 else 0.5
    let h4 := Scalar.pow (e / eee) eval
    return (← fp (eee * 0.001)) * c1 * c1 * h4
  else
    return (← fp energy) * Scalar.pow c1 2.0

/-- srim.cpp:59-159 -/
def srim_dedx_e (pZ tZ : Int) (energy : α) (use_new : Bool) : M α :=
  let fp : α → M α := if use_new then p_se tZ else p_se85 tZ
  if pZ = 1 then fp energy
  else if pZ = 2 then srimHelium fp tZ energy
  else srimHeavy fp pZ tZ energy

end Catima
