import Verif.Model.Reactions

/-!
# `calculate` (`/repo/src/catima.cpp:271-402`, `/repo/include/catima/catima.h:187-218`)
-/

namespace Catima
variable {α : Type} [Scalar α]

/-- catima.cpp:309-333: `sigma_E` and (when the angular spline is used) `sigma_a`, for a
projectile that leaves the material. -/
def stragglings (env : Env α) (A T Eout dEdxo : α) (useAng : Bool) (ss as_ : Spline α) :
    M (α × α) := do
  if env.thin && (thin_target_limit * T <? Eout) then
    let edif := T - Eout
    let s1 ← ss.deriv T
    let s2 ← ss.deriv Eout
    let sE := dEdxo * Scalar.sqrt (edif * 0.5 * (s1 + s2)) / A
    if useAng then
      let s1 ← as_.deriv T
      let s2 ← as_.deriv Eout
      return (sE, Scalar.sqrt (0.5 * (s1 + s2) * edif))
    else return (sE, 0.0)
  else
    let sE := dEdxo * Scalar.sqrt ((← ss.evaluate T) - (← ss.evaluate Eout)) / A
    if useAng then
      return (sE, Scalar.sqrt ((← as_.evaluate T) - (← as_.evaluate Eout)))
    else return (sE, 0.0)

/-- catima.cpp:307-339: the part of `calculate` for a projectile that leaves the material;
fills `dEdxo`, `sigma_E`, `sigma_a`, `tof`.  The time of flight is computed with the *global*
`default_config` because line 339 does not pass `c`. -/
def calculateThrough (env : Env α) (p : Projectile α) (t : Material α) (c : Config α)
    (data : DataPoint α) (rs ss : Spline α) (useAng : Bool) (res : Result α) : Api α (Result α) := do
  let T := p.T
  let as_ ← pureM (get_angular_variance_spline env data)
  let dEdxo ← pureM do return p.A / (← rs.deriv res.Eout)
  let (sE, sa) ← pureM (stragglings env p.A T res.Eout dEdxo useAng ss as_)
  let sa ← if !useAng && (res.range >? t.th) then angular_straggling env (p.withT T) t c else pure sa
  let w ← get
  let tof ← pureM (calculate_tof_from_E env p res.Eout t w.default_config)
  return { res with dEdxo := dEdxo, sigma_E := sE, sigma_a := sa, tof := tof }

/-- catima.cpp:271-356 -/
def calculate (env : Env α) (p : Projectile α) (t : Material α) (c : Config α) :
    Api α (Result α) := do
  let res : Result α := .init
  let T := p.T
  if (T <? Ezero) && (T <? Ezero - numeric_epsilon) then return res
  let data ← get_data env p t c
  let useAng := c.scattering == scattering_atima
  let rs ← pureM (get_range_spline env data)
  let ss ← pureM (get_range_straggling_spline env data)
  let range ← pureM (rs.evaluate T)
  let dEdxi ← pureM do return p.A / (← rs.deriv T)
  let sigma_r ← pureM do return Scalar.sqrt (← ss.evaluate T)
  let res := { res with Ein := T, range := range, dEdxi := dEdxi, sigma_r := sigma_r }
  if t.th =? 0.0 then return { res with dEdxo := res.dEdxi, Eout := res.Ein }
  let Eout ← pureM (energy_out_spline env.debug T t.th rs)
  let res := { res with Eout := Eout, Eloss := (T - Eout) * p.A }
  let res ←
    if Eout <? Ezero then
      pure { res with dEdxo := 0.0, sigma_a := 0.0, tof := 0.0, sigma_E := 0.0 }
    else calculateThrough env p t c data rs ss useAng res
  let sx ← angular_variance env (p.withT T) t c 2
  let cov ← angular_variance env (p.withT T) t c 1
  let sp ← nonreaction_rate env p t c
  return { res with sigma_x := Scalar.sqrt sx, cov := cov, sp := sp }

/-- catima.h:187-190 -/
def calculate_T (env : Env α) (p : Projectile α) (t : Material α) (T : α) (c : Config α) :
    Api α (Result α) :=
  calculate env (p.withT T) t c

/-- catima.cpp:369-380: accumulation of one layer's result `r` (layer `m`) into the total. -/
def addLayerResult (m : Material α) (r tot : Result α) : Result α :=
  let a2 := tot.sigma_a
  { tot with
    Eloss := tot.Eloss + r.Eloss
    sigma_E := tot.sigma_E + r.sigma_E * r.sigma_E
    tof := tot.tof + r.tof
    Eout := r.Eout
    sigma_x := tot.sigma_x + ((2.0 * m.thickness_cm * tot.cov)
      + (a2 * m.thickness_cm * m.thickness_cm) + r.sigma_x * r.sigma_x)
    cov := tot.cov + (a2 * m.thickness_cm + r.cov)
    sigma_a := tot.sigma_a + r.sigma_a * r.sigma_a
    sp := if r.sp ≥? 0.0 then tot.sp * r.sp else -1.0 }

/-- catima.cpp:366-383: the loop over the layers; returns the results, the total and the last
energy. -/
def layersLoop (env : Env α) (p : Projectile α) (c : Config α) :
    List (Material α) → α → Result α → Api α (List (Result α) × Result α × α)
  | [], e, tot => pure ([], tot, e)
  | m :: ms, e, tot => do
    let r ← calculate_T env p m e c
    let (rs, tot', e') ← layersLoop env p c ms r.Eout (addLayerResult m r tot)
    return (r :: rs, tot', e')

/-- catima.cpp:384-394 -/
def finishTotal (e : α) (tot : Result α) : Result α :=
  if e >? Ezero then
    { tot with
      sigma_a := Scalar.sqrt tot.sigma_a
      sigma_E := Scalar.sqrt tot.sigma_E
      sigma_x := Scalar.sqrt (Scalar.fabs tot.sigma_x) }
  else
    { tot with
      sigma_a := 0.0
      sigma_E := 0.0
      sigma_x := Scalar.sqrt (Scalar.fabs tot.sigma_x) }

/-- catima.cpp:361-364 -/
def startTotal (p : Projectile α) (ps : Phasespace α) : Result α :=
  { (Result.init : Result α) with
    Ein := p.T
    sigma_a := ps.sigma_a * ps.sigma_a
    sigma_x := ps.sigma_x * ps.sigma_x
    cov := ps.cov_x }

/-- catima.cpp:358-396 -/
def calculate_layers (env : Env α) (p : Projectile α) (ps : Phasespace α) (layers : Layers α)
    (c : Config α) : Api α (MultiResult α) := do
  let (rs, tot, e) ← layersLoop env p c layers.materials p.T (startTotal p ps)
  return ⟨rs, finishTotal e tot⟩

/-- catima.h:213-215 -/
def calculate_layers_nops (env : Env α) (p : Projectile α) (layers : Layers α) (c : Config α) :
    Api α (MultiResult α) := calculate_layers env p .init layers c

/-- catima.h:216-218 -/
def calculate_layers_T (env : Env α) (p : Projectile α) (T : α) (layers : Layers α) (c : Config α) :
    Api α (MultiResult α) := calculate_layers_nops env (p.withT T) layers c

/-- catima.cpp:398-402.  `tz` is converted to `int` by the `Material` constructor. -/
def calculate_simple (env : Env α) (pa : α) (pz : Int) (T ta tz thickness density : α) :
    Api α (Result α) := do
  let p : Projectile α := .new pa (ofInt pz)
  let z ← pureM (castInt tz)
  let w ← get
  calculate env (p.withT T) (.ofElement ta z density thickness) w.default_config

end Catima
