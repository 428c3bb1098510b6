import Verif.Model.Calculate
import Verif.Model.MaterialDB

/-!
# `catima_calculator` (`/repo/bin/catima_calculator.cpp`)

Modelled from the parsed JSON value on.  Not modelled: reading the file, JSON syntax,
`std::stod` on a string energy, and the text formatting of the output.
A JSON value is represented by the parts the program looks at.  Every exception inside the
`try` block is caught and ends the program with exit code 0 (lines 132-135).
-/

namespace Catima
variable {α : Type} [Scalar α]

/-- catima_calculator.cpp:21-32 -/
def linspace_vector (a b : α) (num : Nat) : List α :=
  if num ≥ 2 ∧ (a <? b) = true then
    let step := (b - a) / ofInt (num - 1 : Nat)
    (List.range (num - 1)).map (fun i => a + ofInt (i : Nat) * step) ++ [b]
  else []

/-- The `"energy"` entry of the configuration (lines 64-97). -/
inductive EnergySpec (α : Type) where
  /-- a number, or a string already converted by `std::stod` -/
  | number (e : α)
  /-- an array; entries that are not numbers have been dropped (line 75) -/
  | array (es : List α)
  /-- an object with both `min` and `max` -/
  | object (min max : α) (num step : Option α)
  /-- any other JSON value, including an object without `min` or `max` -/
  | other

/-- Lines 83-89: `num = 1+(emax-emin)/e["step"].get<int>()`.  A zero divisor gives an infinity
or a NaN, whose conversion to `int` is undefined. -/
def energyNum (emin emax : α) (num step : Option α) : M Int := do
  let n : Int ← match step with
    | none => pure 0
    | some s =>
      let st ← castInt s
      if st = 0 then throw .badCast
      else castInt (1.0 + (emax - emin) / ofInt st)
  match num with
  | none => return n
  | some k => castInt k

/-- Lines 65-93 -/
def energies : EnergySpec α → M (List α)
  | .number e => return [e]
  | .array es => return es
  | .object emin emax num step =>
    if num.isNone && step.isNone then return []
    else do
      let n ← energyNum emin emax num step
      if n > 2 then return linspace_vector emin emax n.toNat else return []
  | .other => return []

/-- One entry of `"material"` (lines 216-270): the optional fields. -/
structure MaterialSpec (α : Type) where
  A : Option α
  Z : Option α
  density : Option α
  thickness : Option α
  Ipot : Option α

/-- catima_calculator.cpp:216-270; `none` is the exception. -/
def json_material (j : MaterialSpec α) : M (Option (Material α)) := do
  let density := j.density.getD 0.0
  let th := j.thickness.getD 0.0
  let ipot := j.Ipot.getD 0.0
  let a := j.A.getD 0.0
  let z : Int ← match j.Z with
    | none => pure 0
    | some x => castInt x
  if z ≤ 0 then return none
  let density := if density ≤? 0.0 then element_density z else density
  if z < 200 then
    let m := Material.ofElement a z density th
    return some (if ipot >? 0.0 then m.set_I ipot else m)
  else
    return some ((get_material z).set_thickness th)

/-- The parsed configuration file.  `projectile` is `some none` when the field is present but
is not an array. -/
structure CalcInput (α : Type) where
  projectile : Option (Option (α × α))
  energy : Option (EnergySpec α)
  material : Option (List (MaterialSpec α))
  config : Option String

/-- What the program prints (lines 132-184) and its exit code: `A` and `Z` of the projectile, density and
thickness of every layer, and the results for every energy (of which the total is printed with its
velocity and momentum too). -/
inductive CalcOutput (α : Type) where
  | badConfig
  | noMaterial
  | noEnergy
  | results (A Z : α) (header : List (α × α)) (rs : List (α × MultiResult α)) (exit : Int)

/-- catima_calculator.cpp:134, 140, 145, 186: the exit status of the program. -/
def CalcOutput.exitStatus : CalcOutput α → Int
  | .badConfig | .noMaterial | .noEnergy => 0
  | .results _ _ _ _ code => code

/-- catima_calculator.cpp:116-129: the configuration selected by `"config"`. -/
def calcConfig (cfg : Option String) : Config α :=
  match cfg with
  | some "atimav1.3" => { (Config.default : Config α) with z_effective := 1 }
  | some "atimav1.4" => { (Config.default : Config α) with z_effective := 7 }
  | _ => .default

/-- catima_calculator.cpp:106, 110: the layers, `none` when an entry throws. -/
def calcLayers (ms : List (MaterialSpec α)) : M (Option (List (Material α))) := do
  let l ← ms.mapM json_material
  return l.mapM id

/-- catima_calculator.cpp:158-184: `calculate(projectile,layers)` for every energy.  The call
does not pass `conf`, so the global `default_config` is used. -/
def calcLoop (env : Env α) (p : Projectile α) (layers : Layers α) (_conf : Config α) :
    List α → Api α (List (α × MultiResult α))
  | [] => pure []
  | e :: es => do
    let w ← get
    let r ← calculate_layers_nops env (p.withT e) layers w.default_config
    let rs ← calcLoop env p layers _conf es
    return (e, r) :: rs

/-- catima_calculator.cpp:38-187.  `projectile.Q` keeps its default. -/
def calculator (env : Env α) (j : CalcInput α) : Api α (CalcOutput α) := do
  let p : Projectile α ← match j.projectile with
    | none => return .badConfig
    | some none => pure (Projectile.default : Projectile α)
    | some (some (A, Z)) => pure { (Projectile.default : Projectile α) with A := A, Z := Z }
  match j.energy with
  | none => return .badConfig
  | some spec =>
    let es ← pureM (energies spec)
    match j.material with
    | none => return .badConfig
    | some ms =>
      match ← pureM (calcLayers ms) with
      | none => return .badConfig
      | some mats =>
        if mats.isEmpty then return .noMaterial
        if es.isEmpty then return .noEnergy
        let rs ← calcLoop env p ⟨mats⟩ (calcConfig j.config) es
        return .results p.A p.Z (mats.map fun m => (m.rho, m.th)) rs 1

end Catima
