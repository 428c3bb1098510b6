import Verif.Model.Storage

/-!
# Library entry points (`/repo/src/catima.cpp`) except `calculate`
-/

namespace Catima
variable {α : Type} [Scalar α]

/-! ## Interpolated quantities -/

/-- catima.cpp:62-67 -/
def range (env : Env α) (p : Projectile α) (t : Material α) (c : Config α) : Api α α := do
  let data ← get_data env p t c
  pureM do (← get_range_spline env data).evaluate p.T

/-- catima.cpp:69-74 -/
def dedx_from_range (env : Env α) (p : Projectile α) (t : Material α) (c : Config α) : Api α α := do
  let data ← get_data env p t c
  pureM do
    let rs ← get_range_spline env data
    return p.A / (← rs.deriv p.T)

/-- catima.cpp:76-91 -/
def dedx_from_range_vec (env : Env α) (p : Projectile α) (T : List α) (t : Material α)
    (c : Config α) : Api α (List α) := do
  let data ← get_data env p t c
  pureM do
    let rs ← get_range_spline env data
    T.mapM fun e => if e <? Ezero then pure 0.0 else do return p.A / (← rs.deriv e)

/-- catima.cpp:93-98 -/
def range_straggling (env : Env α) (p : Projectile α) (T : α) (t : Material α) (c : Config α) :
    Api α α := do
  let data ← get_data env p t c
  pureM do return Scalar.sqrt (← (← get_range_straggling_spline env data).evaluate T)

/-- catima.cpp:100-105 -/
def range_variance (env : Env α) (p : Projectile α) (T : α) (t : Material α) (c : Config α) :
    Api α α := do
  let data ← get_data env p t c
  pureM do (← get_range_straggling_spline env data).evaluate T

/-- catima.cpp:107-112 -/
def domega2de (env : Env α) (p : Projectile α) (T : α) (t : Material α) (c : Config α) :
    Api α α := do
  let data ← get_data env p t c
  pureM do (← get_range_straggling_spline env data).deriv T

/-! ## Outgoing energy -/

/-- catima.cpp:214-224, `fuel` turns of the `while(1)` loop left; the loop gives up in the
turn that sets `counter` to 101, so `fuel` starts at 101. -/
def energyOutLoop (debug : Bool) (rs : Spline α) (range thickness : α) : Nat → α → α → M α
  | 0, _, _ => .ok (-1.0)   -- not reached from 101
  | fuel + 1, e, dedx => do
    let r := range - (← rs.evaluate e) - thickness
    if Scalar.fabs r <? Eout_th_epsilon then return e
    let step := -r * dedx
    let e := e - step
    if e <? Ezero then return 0.0
    let dedx := 1.0 / (← rs.deriv e)
    if fuel = 0 then
      cassert debug false
      return -1.0
    energyOutLoop debug rs range thickness fuel e dedx

/-- catima.cpp:203-226 -/
def energy_out_spline (debug : Bool) (T thickness : α) (rs : Spline α) : M α := do
  let range ← rs.evaluate T
  let dedx := 1.0 / (← rs.deriv T)
  if range ≤? thickness then return 0.0
  energyOutLoop debug rs range thickness 101 (T - (thickness * dedx)) dedx

/-- catima.cpp:228-233 -/
def energy_out (env : Env α) (p : Projectile α) (t : Material α) (c : Config α) : Api α α := do
  let data ← get_data env p t c
  pureM do energy_out_spline env.debug p.T t.th (← get_range_spline env data)

/-- catima.cpp:235-252 -/
def energy_out_vec (env : Env α) (p : Projectile α) (T : List α) (t : Material α) (c : Config α) :
    Api α (List α) := do
  let data ← get_data env p t c
  pureM do
    let rs ← get_range_spline env data
    T.mapM fun e => if e <? Ezero then pure 0.0 else energy_out_spline env.debug e t.th rs

/-! ## Angular scattering -/

/-- catima.cpp:134-139 -/
def Tfr (p : Projectile α) (X Es2 : α) : α :=
  if p.T ≤? 0.0 then 0.0
  else
    let _p := p_from_T p.T p.A
    let beta := _p / ((p.T + atomic_mass_unit) * p.A)
    Es2 / (X * ipow (_p * beta) 2)

/-- catima.cpp:157-168: the integrand `fx0p` -/
def fx0p (debug : Bool) (p : Projectile α) (t : Material α) (c : Config α) (order : Int)
    (rs : Spline α) (rrange X0 : α) (x : α) : M α := do
  let e ← energy_out_spline debug p.T (x * t.rho) rs
  let d := ipow (rrange - x) order
  let ff :=
    if c.scattering = scattering_dhighland then
      let l := x * t.rho / X0
      let lnl := Scalar.log l
      0.97 * (1.0 + lnl / 20.7) * (1.0 + lnl / 22.7)
    else 1.0
  return d * ff * Tfr (p.withT e) 1.0 1.0

/-- catima.cpp:170-174: the integrand `fx0p_2`; `Es2` defaults to 225 (calculations.h:121). -/
def fx0p_2 (debug : Bool) (p : Projectile α) (t : Material α) (order : Int)
    (rs : Spline α) (rrange p1 beta1 : α) (x : α) : M α := do
  let e ← energy_out_spline debug p.T (x * t.rho) rs
  let d := ipow (rrange - x) order
  return d * (← angular_scattering_power_xs (p.withT e) t p1 beta1 225.0)

/-- catima.cpp:149-180: `angular_variance` given the range interpolator. -/
def angular_variance_from (env : Env α) (p : Projectile α) (t : Material α) (c : Config α)
    (order : Int) (rs : Spline α) : M α := do
  let T := p.T
  let p1 := p_from_T T p.A
  let beta1 := p1 / ((T + atomic_mass_unit) * p.A)
  let range ← rs.evaluate T
  let rrange := smin (range / t.rho) t.thickness_cm
  let X0 := radiation_length t
  if c.scattering = scattering_gottschalk then
    return (← integrator.integrate (fx0p_2 env.debug p t order rs rrange p1 beta1) 0.0 rrange) * t.rho
  return (← integrator.integrate (fx0p env.debug p t c order rs rrange X0) 0.0 rrange) * t.rho
    * ipow p.Z 2 * Es2_of c / X0

/-- catima.cpp:141-181 -/
def angular_variance (env : Env α) (p : Projectile α) (t : Material α) (c : Config α)
    (order : Int := 0) : Api α α := do
  pureM (cassert env.debug (p.T >? 0.0))
  pureM (cassert env.debug (t.rho >? 0.0))
  pureM (cassert env.debug (t.th >? 0.0))
  let data ← get_data env p t c
  pureM do angular_variance_from env p t c order (← get_range_spline env data)

/-- catima.cpp:183-185 -/
def angular_straggling (env : Env α) (p : Projectile α) (t : Material α) (c : Config α) :
    Api α α := do
  return Scalar.sqrt (← angular_variance env p t c 0)

/-- catima.cpp:187-193 -/
def angular_straggling_from_E (env : Env α) (p : Projectile α) (Tout : α) (t : Material α)
    (c : Config α) : Api α α := do
  let data ← get_data env p t c
  let th ← pureM do
    let rs ← get_range_spline env data
    return (← rs.evaluate p.T) - (← rs.evaluate Tout)
  angular_straggling env p (t.set_thickness th) c

/-- catima.cpp:195-201 -/
def energy_straggling_from_E (env : Env α) (p : Projectile α) (T Tout : α) (t : Material α)
    (c : Config α) : Api α α := do
  let data ← get_data env p t c
  pureM do
    let rs ← get_range_spline env data
    let ss ← get_range_straggling_spline env data
    let dEdxo := p.A / (← rs.deriv Tout)
    return dEdxo * Scalar.sqrt ((← ss.evaluate T) - (← ss.evaluate Tout)) / p.A

/-! ## Time of flight -/

/-- catima.cpp:258 and 449: the integrand -/
def tofIntegrand (env : Env α) (p : Projectile α) (t : Material α) (c : Config α) (x : α) : M α := do
  return 1.0 / ((← dedx env (p.withT x) t c) * beta_from_T x)

/-- catima.cpp:447-453 -/
def calculate_tof_from_E (env : Env α) (p : Projectile α) (Eout : α) (t : Material α)
    (c : Config α) : M α := do
  let res ← integrator.integrate (tofIntegrand env p t c) Eout p.T
  return res * 10.0 * p.A / (c_light * t.rho)

/-- catima.cpp:254-269 -/
def calculate_tof (env : Env α) (p : Projectile α) (t : Material α) (c : Config α) :
    M (List α) := do
  let r0 ← integrator.integrate (tofIntegrand env p t c) Ezero (energy_table.val 0)
  let v0 := r0 * 10.0 * p.A / (c_light * t.rho)
  (List.range (max_datapoints - 1)).foldlM (fun acc k => do
    let r ← integrator.integrate (tofIntegrand env p t c) (energy_table.val k)
      (energy_table.val (k + 1))
    let r := r * 10.0 * p.A / (c_light * t.rho)
    return acc ++ [r + acc.getLastD 0.0]) [v0]

/-! ## Magnification -/

/-- catima.cpp:455-471 -/
def w_magnification (env : Env α) (p : Projectile α) (Ein : α) (t : Material α) (c : Config α) :
    Api α (α × α) := do
  if (t.rho ≤? 0.0) || (t.th ≤? 0.0) then return (1.0, 1.0)
  let en0 := 0.99 * Ein
  let en1 := Ein
  let en2 := 1.01 * Ein
  let eres ← energy_out_vec env p [en0, en1, en2] t c
  match eres with
  | [e0, e1, e2] =>
    if (e0 >? 0.0) && (e1 >? 0.0) && (e2 >? 0.0) then
      return (en1 * (e2 - e0) / (e1 * (en2 - en0)),
        p_from_T en1 p.A * (p_from_T e2 p.A - p_from_T e0 p.A)
          / (p_from_T e1 p.A * (p_from_T en2 p.A - p_from_T en0 p.A)))
    else return (0.0, 0.0)
  | _ => pureM (.error .outOfBounds)   -- not reached: three energies in, three out

end Catima
