import Verif.Model.Env
import Verif.Model.Srim
import Verif.Model.Lindhard
import Verif.Model.Tables.Ipot
import Verif.Model.Tables.DensityEffect

/-!
# Stopping power, scattering and effective charge (`/repo/src/calculations.cpp`)

The exact calculation `bethek_lindhard`, `bethek_lindhard_X`, `hyperg`, `lngamma` (lines 171-419 and
840-) is in `Model/LindhardExact`; the library entry points only use its tabulated results.
-/

namespace Catima
variable {α : Type} [Scalar α]

/-- The loop `for(i<mat.ncomponents()){ t=mat.get_element(i); w=mat.weight_fraction(i);
sum += w*f(t); }` used at calculations.cpp:33-37, 67-71 and catima.cpp:54-58.  The indices are
in range by construction, so the loop is a fold over the components. -/
def componentSum (mat : Material α) (f : Target α → M α) : M α :=
  mat.atoms.foldlM (fun sum t => do return sum + mat.wfrac t * (← f t)) 0.0

/-! ## Helpers -/

/-- calculations.h:230-232 -/
def power (x y : α) : α := Scalar.exp (Scalar.log x * y)

/-- calculations.h:234-239 -/
def ipow (x : α) (y : Int) : α :=
  if y = 0 then 1.0 else if y = 1 then x else if y = 2 then x * x else Scalar.pow x (ofInt y)

/-- data_ionisation_potential.h: `ipot`, 0 outside `1..120`. -/
def ipot (z : Int) : α :=
  if z < 1 ∨ z > 120 then 0.0
  else match ionisation_potentials_z[z.toNat]? with
    | some d => d.toScalar
    | none => 0.0   -- not reached: the table has 121 entries

/-- calculations.cpp:460-462 -/
def gamma_from_T (T : α) : α := 1.0 + T / atomic_mass_unit

/-- calculations.cpp:464-467 -/
def beta_from_T (T : α) : α :=
  let gamma := gamma_from_T T
  Scalar.sqrt (1.0 - 1.0 / (gamma * gamma))

/-- calculations.cpp:469-471 -/
def p_from_T (T M : α) : α := Scalar.sqrt (T * (T + 2.0 * atomic_mass_unit)) * M

/-! ## Nuclear stopping -/

/-- calculations.cpp:23-27 -/
def reduced_energy_loss_unit (p : Projectile α) (t : Target α) : α :=
  let zpowers := Scalar.pow p.Z 0.23 + Scalar.pow (ofInt t.Z) 0.23
  let asum := p.A + t.A
  32.53 * t.A * 1000.0 * p.T * p.A / (p.Z * ofInt t.Z * asum * zpowers)

/-- calculations.cpp:41-62 -/
def dedx_n_target (debug : Bool) (p : Projectile α) (t : Target α) : M α := do
  let zpowers := Scalar.pow p.Z 0.23 + Scalar.pow (ofInt t.Z) 0.23
  let asum := p.A + t.A
  let epsilon := 32.53 * t.A * 1000.0 * p.T * p.A / (p.Z * ofInt t.Z * asum * zpowers)
  if epsilon ≤? 0.0 then return 0.0
  cassert debug (p.A >? 0.0)
  cassert debug (epsilon >? 0.0)
  let sn :=
    if epsilon ≤? 30.0 then
      Scalar.log1p (1.1383 * epsilon)
        / (2.0 * (epsilon + 0.01321 * Scalar.pow epsilon 0.21226 + 0.19593 * Scalar.pow epsilon 0.5))
    else Scalar.log epsilon / (2.0 * epsilon)
  return 100.0 * 8.4621 * p.Z * ofInt t.Z * p.A * sn * Avogadro / (asum * zpowers * t.A)

/-- calculations.cpp:30-39 -/
def dedx_n (debug : Bool) (p : Projectile α) (mat : Material α) : M α :=
  componentSum mat (dedx_n_target debug p)

/-! ## Effective charge -/

/-- calculations.cpp:673-675 -/
def z_eff_Pierce_Blann (z beta : α) : α :=
  z * (1.0 - Scalar.exp (-0.95 * fine_structure_inverted * beta / Scalar.pow z (2.0 / 3.0)))

/-- calculations.cpp:677-681 -/
def z_eff_Anthony_Landford (pz beta tz : α) : α :=
  let B := 1.18 - tz * (7.5e-03 - 4.53e-05 * tz)
  let A := 1.16 - tz * (1.91e-03 - 1.26e-05 * tz)
  pz * (1.0 - (A * Scalar.exp (-fine_structure_inverted * B * beta / Scalar.pow pz (2.0 / 3.0))))

/-- calculations.cpp:683-709 -/
def z_eff_Hubert (pz E tz : α) : α :=
  let lntz := Scalar.log tz
  if E <? 2.5 then 0.0
  else
    let (x1, x2, x3, x4) :=
      if tz =? 4.0 then (2.045 + 2.0 * Scalar.exp (-0.04369 * pz), 7.0, 0.2643, 0.4171)
      else if tz =? 6.0 then (2.584 + 1.91 * Scalar.exp (-0.03958 * pz), 6.933, 0.2433, 0.3969)
      else ((1.164 + 0.2319 * Scalar.exp (-0.004302 * tz)) + 1.658 * Scalar.exp (-0.0517 * pz),
        8.144 + 0.09876 * lntz, 0.314 + 0.01072 * lntz, 0.5218 + 0.02521 * lntz)
    pz * (1.0 - x1 * Scalar.exp (-x2 * Scalar.pow E x3 * Scalar.pow pz (-x4)))

/-- calculations.cpp:711-747 -/
def z_eff_Winger (pz beta tz : α) : α :=
  let c0 : α := 0.4662
  let c1 : α := 0.5491
  let c2 : α := 0.7028
  let c3 : α := 0.1089
  let c4 : α := 0.001644
  let c5 : α := 0.5155
  let c6 : α := 0.05633
  let c7 : α := 0.005447
  let c8 : α := 0.8795
  let c9 : α := 1.091
  let c10 : α := 0.0008261
  let c11 : α := 2.848
  let c12 : α := 0.2442
  let c13 : α := 0.00009293
  let tz := if tz =? 1.0 then 2.6 else tz
  let tz := if tz =? 2.0 then 2.8 else tz
  let x := beta / 0.012 / Scalar.pow pz 0.45
  let lnz := Scalar.log pz
  let lnzt := Scalar.log tz
  let a0 := -c0
  let a1 := -c1 * Scalar.exp (c2 * lnz - c3 * lnz * lnz + c4 * lnz * lnz * lnz - c5 * lnzt
    + c6 * lnzt * lnzt)
  let a2 := c7 * Scalar.exp (c8 * lnz - c9 * lnzt)
  let a3 := -c10 * Scalar.exp (c11 * lnz - c12 * lnz * lnz * lnz)
  let a4 := -c13
  pz * (1.0 - Scalar.exp (a0 + a1 * x + a2 * x * x + a3 * x * x * x + a4 * x * x * x * x))

/-- calculations.cpp:749-763, build without `GLOBAL`. -/
def z_eff_global (debug : Bool) (pz E _tz : α) : M α :=
  if E >? 2000.0 then .ok pz
  else if (E <? 30.0) || (pz <? 29.0) then .ok (z_eff_Pierce_Blann pz E)
  else do
    cassert debug false
    return -1.0

/-- calculations.cpp:765-776 -/
def z_eff_Schiwietz (pz beta tz : α) : α :=
  let scaled_velocity := Scalar.pow pz (-0.543) * beta / bohr_velocity
  let c1 := 1.0 - 0.26 * Scalar.exp (-tz / 11.0) * Scalar.exp (-(tz - pz) * (tz - pz) / 9.0)
  let c2 := 1.0 + 0.030 * scaled_velocity * Scalar.log tz
  let x := c1 * Scalar.pow (scaled_velocity / c2 / 1.54) (1.0 + (1.83 / pz))
  pz * ((8.29 * x) + (x * x * x * x)) / ((0.06 / x) + 4.0 + (7.4 * x) + (x * x * x * x))

/-- calculations.cpp:778-838, build without `GLOBAL`. -/
def z_eff_atima14 (debug : Bool) (_pz _T _tz : α) : M α := do
  cassert debug false
  return 0.0

/-- calculations.cpp:638-671 -/
def z_effective (debug : Bool) (p : Projectile α) (t : Target α) (c : Config α) : M α :=
  let tz : α := ofInt t.Z
  if c.z_effective = 0 then .ok p.Q
  else
    let gamma := 1.0 + p.T / atomic_mass_unit
    let beta := Scalar.sqrt (1.0 - 1.0 / (gamma * gamma))
    if c.z_effective = 1 then .ok (z_eff_Pierce_Blann p.Z beta)
    else if c.z_effective = 2 then .ok (z_eff_Anthony_Landford p.Z beta tz)
    else if c.z_effective = 3 then .ok (z_eff_Hubert p.Z p.T tz)
    else if c.z_effective = 4 then .ok (z_eff_Winger p.Z beta tz)
    else if c.z_effective = 6 then z_eff_global debug p.Z p.T tz
    else if c.z_effective = 7 then z_eff_atima14 debug p.Z p.T tz
    else if c.z_effective = 5 then .ok (z_eff_Schiwietz p.Z beta tz)
    else do
      cassert debug false
      return 0.0

/-! ## Bethe stopping -/

/-- calculations.cpp:136-141: the three-interval table lookup of the Jackson–McCarthy
function for `1 ≤ v1 < 4`. -/
def barkasTable (v1 : α) : α :=
  if (2.0 : α) ≥? v1 then 0.33 + (v1 - 1.0) * (0.30 - 0.33) / (2.0 - 1.0)
  else if (3.0 : α) ≥? v1 then 0.30 + (v1 - 2.0) * (0.26 - 0.30) / (3.0 - 2.0)
  else if (4.0 : α) ≥? v1 then 0.26 + (v1 - 3.0) * (0.23 - 0.26) / (4.0 - 3.0)
  else 0.0

/-- calculations.cpp:126-147 -/
def bethek_barkas (zp_eff eta zt : α) : α :=
  let v1 := eta / (fine_structure * Scalar.sqrt zt)
  let v2fv :=
    if v1 ≥? 4.0 then 0.45 / Scalar.sqrt v1
    else if (v1 ≥? 1.0) && (v1 <? 4.0) then barkasTable v1
    else 0.0
  1.0 + 2.0 * zp_eff * v2fv / (v1 * v1 * Scalar.sqrt zt)

/-- calculations.cpp:149-168 -/
def bethek_density_effect (beta : α) (zt : Int) : M α := do
  let gamma := 1.0 / Scalar.sqrt (1.0 - (beta * beta))
  let x := Scalar.log (beta * gamma) / 2.3025851
  let i : Int := (if zt > 97 then 97 else zt) - 1
  let x0 ← rdDec (α := α) density_effect_x0 i
  if x <? x0 then
    let d0 ← rdDec (α := α) density_effect_del_0 i
    return if d0 >? 0.0 then d0 * Scalar.pow 10.0 (2.0 * (x - x0)) else 0.0
  else
    let c ← rdDec (α := α) density_effect_c i
    let del := 4.6052 * x - c
    let x1 ← rdDec (α := α) density_effect_x1 i
    if (x0 ≤? x) && (x ≤? x1) then
      let a ← rdDec (α := α) density_effect_a i
      let m ← rdDec (α := α) density_effect_m i
      return del + a * Scalar.pow (x1 - x) m
    else return del

/-- calculations.cpp:421-436 -/
def pair_production (p : Projectile α) (t : Target α) : α :=
  let tz : α := ofInt t.Z
  let gamma := 1.0 + p.T / atomic_mass_unit
  let d := 1.0 / Scalar.sqrt gamma
  let logd2 := Scalar.log (d * d)
  let l0 := Scalar.log (2.0 * gamma)
  let Zt13 := 183.0 * power tz (-1.0 / 3.0)
  let L0screen := (19.0 / 9.0) * Scalar.log (Zt13 / (1.0 + 25.018803808 * Zt13 / gamma))
  let L1 := (4178.0 / (81.0 * PI * PI))
    - (21.0 / 27.0)
    - (248.0 * l0 / (27.0 * PI * PI))
    + (((28.0 * l0 / 9.0) - 446.0 / 27.0) * logd2 / (PI * PI))
    + (14.0 * logd2 * logd2 / (9.0 * PI * PI))
  let L1 := L1 * d
  let s := 0.25 * dedx_constant * fine_structure * fine_structure * p.Z * p.Z * tz * tz * gamma
    * (1.0 + (1.0 / tz)) * (L0screen + L1) / t.A
  if s <? 0.0 then 0.0 else s

/-- calculations.cpp:438-444 -/
def bremsstrahlung (p : Projectile α) (t : Target α) : α :=
  let tz : α := ofInt t.Z
  let gamma := 1.0 + p.T / atomic_mass_unit
  let R := 1.18 * (power p.A (1.0 / 3.0) + power t.A (1.0 / 3.0))
  let Lbs := Scalar.log1p (2.0 * gamma * 0.1 * hbar * c_light / atomic_mass_unit / R / p.A)
  let C := dedx_constant * fine_structure * (electron_mass / atomic_mass_unit)
  16.0 * C * gamma * p.Z * p.Z * p.Z * p.Z * tz * tz * Lbs / (t.A * p.A * 3.0 * 4.0 * PI)

/-- calculations.cpp:92-97: shell correction before division by `t.Z` -/
def shellCor (eta Ipot : α) : α :=
  (0.422377 * Scalar.pow eta (-2.0)
    + 0.0304043 * Scalar.pow eta (-4.0)
    - 0.00038106 * Scalar.pow eta (-6.0)) * 1.0e-6 * Scalar.pow Ipot 2.0
  + (3.858019 * Scalar.pow eta (-2.0)
    - 0.1667989 * (Scalar.pow eta (-4.0))
    + 0.00157955 * (Scalar.pow eta (-6.0))) * 1.0e-9 * Scalar.pow Ipot 3.0

/-- calculations.cpp:75-123.  `c.corrections & flag` is bit 0 (barkas), 1 (lindhard),
2 (shell), 3 (high energy), config.h:25-30. -/
def bethek_dedx_e_target (env : Env α) (p : Projectile α) (t : Target α) (c : Config α) (I : α) :
    M α := do
  cassert env.debug (t.Z > 0 && (p.Z >? 0.0))
  cassert env.debug ((t.A >? 0.0) && (p.A >? 0.0))
  cassert env.debug (p.T >? 0.0)
  if p.T =? 0.0 then return 0.0
  let tz : α := ofInt t.Z
  let gamma := 1.0 + p.T / atomic_mass_unit
  let beta2 := 1.0 - 1.0 / (gamma * gamma)
  let beta := Scalar.sqrt beta2
  let zp_eff ← z_effective env.debug p t c
  cassert env.debug (zp_eff ≥? 0.0)
  let Ipot := if I >? 0.0 then I else ipot t.Z
  cassert env.debug (Ipot >? 0.0)
  let f1 := dedx_constant * Scalar.pow zp_eff 2.0 * tz / (beta2 * t.A)
  let f2 := Scalar.log (2.0 * electron_mass * 1000000.0 * beta2 / Ipot)
  let eta := beta * gamma
  let f2 := if !(c.corrections.testBit 2) && (eta ≥? 0.13) then f2 - shellCor eta Ipot / tz else f2
  let f2 := f2 + (2.0 * Scalar.log gamma - beta2)
  let barkas := if !(c.corrections.testBit 0) then bethek_barkas zp_eff eta tz else 1.0
  let delta ← bethek_density_effect beta t.Z
  let LS ← if !(c.corrections.testBit 1) then precalculated_lindhard env.calcIndex p
    else pure (0.0 : α)
  let result := f2 * barkas + LS - delta / 2.0
  let result := result * f1
  if (p.T >? 50000.0) && !(c.corrections.testBit 3) then
    return result + pair_production p t + bremsstrahlung p t
  else return result

/-- calculations.cpp:64-73 -/
def bethek_dedx_e (env : Env α) (p : Projectile α) (mat : Material α) (c : Config α) : M α :=
  componentSum mat fun t => bethek_dedx_e_target env p t c mat.i_potential

/-- calculations.cpp:446-457.  `p.Z` is converted to `int` at each call. -/
def sezi_dedx_e (p : Projectile α) (mat : Material α) (c : Config α) : M α := do
  let use95 := c.low_energy == 1
  let sum ← mat.atoms.foldlM (fun sum t => do
    let pZ ← castInt p.Z
    return sum + mat.wfrac t * (← srim_dedx_e pZ t.Z p.T use95) / t.A) 0.0
  return 100.0 * sum * Avogadro

/-! ## Straggling and scattering -/

/-- calculations.cpp:473-478 -/
def energy_straggling_firsov (z1 energy z2 m2 : α) : α :=
  let gamma := gamma_from_T energy
  let beta2 := 1.0 - 1.0 / (gamma * gamma)
  let factor := 4.8184e-3 * Scalar.pow (z1 + z2) (8.0 / 3.0) / m2
  factor * beta2 / fine_structure / fine_structure

/-- calculations.cpp:519-542: tabulated radiation lengths. -/
def radiation_length_table : List (Int × Dec) :=
  [(1, ⟨6304, 2⟩), (2, ⟨9432, 2⟩), (3, ⟨8278, 2⟩), (4, ⟨6519, 2⟩), (6, ⟨427, 1⟩),
   (7, ⟨3799, 2⟩), (8, ⟨3424, 2⟩), (9, ⟨3293, 2⟩), (10, ⟨2894, 2⟩), (13, ⟨2401, 2⟩),
   (14, ⟨2182, 2⟩), (17, ⟨1928, 2⟩), (18, ⟨1955, 2⟩), (22, ⟨1616, 2⟩), (26, ⟨1384, 2⟩),
   (29, ⟨1286, 2⟩), (32, ⟨1225, 2⟩), (50, ⟨882, 2⟩), (54, ⟨848, 2⟩), (74, ⟨676, 2⟩),
   (78, ⟨654, 2⟩), (79, ⟨646, 2⟩), (82, ⟨637, 2⟩), (92, ⟨600, 2⟩)]

/-- calculations.cpp:517-552.  `z*z` is an `int` product in C++ (overflow not modelled). -/
def radiation_length_z (z : Int) (m : α) : α :=
  match radiation_length_table.lookup z with
  | some d => d.toScalar
  | none =>
    let zd : α := ofInt z
    let z2 : α := ofInt (z * z)
    let z_13 := 1.0 / Scalar.pow zd (1.0 / 3.0)
    let z_23 := z_13 * z_13
    let a2 := fine_structure * fine_structure * z2
    let a4 := a2 * a2
    let a6 := a4 * a2
    716.405 * m / (z2 * (Scalar.log (184.15 * z_13) + Scalar.log (1194.0 * z_23) / zd
      - -1.202 * a2 + 1.0369 * a4 - 1.008 * a6 / (1.0 + a2)))

/-- calculations.cpp:554-562 -/
def radiation_length (mat : Material α) : α :=
  1.0 / mat.atoms.foldl (fun sum t => sum + mat.wfrac t / radiation_length_z t.Z t.A) 0.0

/-- calculations.cpp:564-567: both arguments are `int`. -/
def scattering_length_az (a z : Int) : α :=
  let c := 0.00034896 * ofInt z * ofInt z
    * (2.0 * Scalar.log (33219.0 * Scalar.pow (ofInt (a * z)) (-1.0 / 3.0)) - 1.0) / ofInt a
  1.0 / c

/-- calculations.cpp:569-577: `t.A` is truncated to `int`. -/
def scattering_length (mat : Material α) : M α := do
  let sum ← mat.atoms.foldlM (fun sum t => do
    let a ← castInt t.A
    return sum + mat.wfrac t / scattering_length_az a t.Z) 0.0
  return 1.0 / sum

/-- calculations.cpp:491-500 -/
def angular_scattering_power (p : Projectile α) (mat : Material α) (Es2 : α) : α :=
  if p.T ≤? 0.0 then 0.0
  else
    let e := p.T
    let _p := p_from_T e p.A
    let beta := _p / ((e + atomic_mass_unit) * p.A)
    let X0 := radiation_length mat
    Es2 * ipow p.Z 2 / (X0 * ipow (_p * beta) 2)

/-- calculations.cpp:480-489 -/
def angular_scattering_power_target (p : Projectile α) (t : Target α) (Es2 : α) : α :=
  if p.T ≤? 0.0 then 0.0
  else
    let e := p.T
    let _p := p_from_T e p.A
    let beta := _p / ((e + atomic_mass_unit) * p.A)
    let lr := radiation_length_z t.Z t.A
    Es2 * ipow p.Z 2 / (lr * ipow (_p * beta) 2)

/-- calculations.cpp:502-514; the default of `Es2` is in calculations.h. -/
def angular_scattering_power_xs (p : Projectile α) (mat : Material α) (p1 beta1 Es2 : α) : M α :=
  if p.T ≤? 0.0 then .ok 0.0
  else do
    let e := p.T
    let _p := p_from_T e p.A
    let beta := _p / ((e + atomic_mass_unit) * p.A)
    let pv := _p * beta
    let p1v1 := p1 * beta1
    let Xs ← scattering_length mat
    let cl1 := Scalar.log10 (1.0 - ipow (pv / p1v1) 2)
    let cl2 := Scalar.log10 pv
    let f := 0.5244 + 0.1975 * cl1 + 0.2320 * cl2 - (0.0098 * cl2 * cl1)
    return f * Es2 * ipow p.Z 2 / (Xs * ipow (_p * beta) 2)

/-- calculations.cpp:616-636 -/
def dedx_variance (env : Env α) (p : Projectile α) (t : Target α) (c : Config α) : M α := do
  let tz : α := ofInt t.Z
  let gamma := gamma_from_T p.T
  let beta := beta_from_T p.T
  let beta2 := beta * beta
  let zp_eff ← z_effective env.debug p t c
  let f := domega2dx_constant * ipow zp_eff 2 * tz / t.A
  let cor :=
    if c.calculation = 0 then
      let cor := 24.89 * Scalar.pow tz 1.2324 / (electron_mass * 1.0e6 * beta2) *
        Scalar.log (2.0 * electron_mass * 1.0e6 * beta2 / (33.05 * Scalar.pow tz 1.6364))
      smax cor 0.0
    else 0.0
  let X ← precalculated_lindhard_X env.calcIndex p
  let X := X * (gamma * gamma)
  if p.T <? 30.0 then
    return smin (f * (X + cor)) (energy_straggling_firsov p.Z p.T tz t.A)
  else return f * (X + cor)

end Catima
