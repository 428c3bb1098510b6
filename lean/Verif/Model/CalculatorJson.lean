import Verif.Model.Calculator

/-!
# `catima_calculator` from the JSON document on (`/repo/bin/catima_calculator.cpp`)

Refines `Model/Calculator.lean`, which starts from the parts of the document the program looks at.
The functions of nlohmann::json that the program calls are modelled (`count`, `operator[]`, `at`, `is_*`, `get<double>`,
`get<int>`).  Not modelled: the syntax of JSON and the formatting of the output; `std::stod` is a parameter.
-/

namespace Catima
variable {α : Type} [Scalar α]

/-- A parsed document (nlohmann::json).  Integer literals that fit into 64 bits are stored as integers, other numbers as
`double`.  In an object the last of several entries with one key counts. -/
inductive Json (α : Type) where
  | null
  | bool (b : Bool)
  | int (i : Int)
  | float (x : α)
  | str (s : String)
  | arr (l : List (Json α))
  | obj (l : List (String × Json α))

/-- A computation that can throw a C++ exception (`none`) or have undefined behaviour (`Fault`). -/
abbrev J (β : Type) := OptionT M β

/-- `throw`; the kind of the exception does not matter, every one is caught by `catch(...)`. -/
def J.throw {β : Type} : J β := OptionT.fail

/-- nlohmann `count(key) > 0`, and the value (`operator[]`, `at`); not an object: no entry. -/
def Json.find (key : String) : Json α → Option (Json α)
  | .obj l => (l.reverse.find? fun e => e.1 == key).map Prod.snd
  | _ => none

/-- nlohmann `is_number` with the value as `double`. -/
def Json.number? : Json α → Option α
  | .int i => some (ofInt i)
  | .float x => some x
  | _ => none

/-- nlohmann `get<double>`: throws unless the value is a number. -/
def Json.getDouble (j : Json α) : J α :=
  match j.number? with
  | some x => pure x
  | none => J.throw

/-- Conversion of a 64-bit integer to `int`: modulo 2^32. -/
def wrap32 (i : Int) : Int := (i + 2147483648) % 4294967296 - 2147483648

/-- nlohmann `get<int>`: numbers are converted (a `double` that does not fit: undefined), booleans give 0 or 1, other values throw. -/
def Json.getInt : Json α → J Int
  | .int i => pure (wrap32 i)
  | .float x => (castInt x : M Int)
  | .bool b => pure (if b then 1 else 0)
  | _ => J.throw

/-- catima_calculator.cpp:52-60 -/
def jsonProjectile (j : Json α) : J (Projectile α) :=
  match j.find "projectile" with
  | none => J.throw
  | some (.arr l) => do
    let A ← match l[0]? with
      | some v => v.getDouble
      | none => J.throw
    let Z ← match l[1]? with
      | some v => v.getDouble
      | none => J.throw
    return { (Projectile.default : Projectile α) with A := A, Z := Z }
  | some _ => return Projectile.default

/-- catima_calculator.cpp:79-93: the energies of an object. -/
def jsonRange (e : Json α) : J (List α) :=
  match e.find "min", e.find "max" with
  | some jmin, some jmax =>
    if (e.find "num").isNone && (e.find "step").isNone then return []
    else do
      let emin ← jmin.getDouble
      let emax ← jmax.getDouble
      let n : Int ← match e.find "step" with
        | none => pure 0
        | some js => do
          let st ← js.getInt
          if st = 0 then (.error .badCast : M Int)
          else (castInt (1.0 + (emax - emin) / ofInt st) : M Int)
      let n : Int ← match e.find "num" with
        | none => pure n
        | some jn => jn.getInt
      if n > 2 then return linspace_vector emin emax n.toNat else return []
  | _, _ => return []

/-- catima_calculator.cpp:63-98; `stod` is `std::stod`, `none` when it throws. -/
def jsonEnergies (stod : String → Option α) (j : Json α) : J (List α) :=
  match j.find "energy" with
  | none => J.throw
  | some (.int i) => return [ofInt i]
  | some (.float x) => return [x]
  | some (.str s) =>
    match stod s with
    | some x => return [x]
    | none => J.throw
  | some (.arr l) => return l.filterMap Json.number?
  | some (.obj l) => jsonRange (.obj l)
  | some _ => return []

/-- catima_calculator.cpp:220-240: an optional number of a material. -/
def jsonField (j : Json α) (key : String) : J α :=
  match j.find key with
  | none => return 0.0
  | some v => v.getDouble

/-- catima_calculator.cpp:213-271 -/
def jsonMaterial : Json α → J (Material α)
  | .obj l => do
    let density ← jsonField (.obj l) "density"
    let th ← jsonField (.obj l) "thickness"
    let ipot ← jsonField (.obj l) "Ipot"
    let a ← jsonField (.obj l) "A"
    let z : Int ← match (Json.obj l).find "Z" with
      | none => pure 0
      | some v => v.getInt
    if z ≤ 0 then J.throw
    else
      let density := if density ≤? 0.0 then element_density z else density
      if z < 200 then
        let m := Material.ofElement a z density th
        return (if ipot >? 0.0 then m.set_I ipot else m)
      else
        return ((get_material z).set_thickness th)
  | _ => J.throw

/-- catima_calculator.cpp:100-115 -/
def jsonLayers (j : Json α) : J (List (Material α)) :=
  match j.find "material" with
  | none => J.throw
  | some (.arr l) => l.mapM jsonMaterial
  | some (.obj l) => do return [← jsonMaterial (.obj l)]
  | some _ => return []

/-- catima_calculator.cpp:116-129: `"config"` if it is a string. -/
def jsonConfig (j : Json α) : Config α :=
  match j.find "config" with
  | some (.str s) => calcConfig (some s)
  | _ => calcConfig none

/-- catima_calculator.cpp:48-130: the `try` block. -/
def jsonInput (stod : String → Option α) (j : Json α) : J (Projectile α × List α × List (Material α)) := do
  let p ← jsonProjectile j
  let es ← jsonEnergies stod j
  let ms ← jsonLayers j
  return (p, es, ms)

/-- The file named on the command line (catima_calculator.cpp:191-211). -/
inductive InputFile (α : Type) where
  | missing
  | unparsable
  | parsed (j : Json α)

/-- catima_calculator.cpp:48-187: what the program prints for a file. -/
def calculatorFile (env : Env α) (stod : String → Option α) : InputFile α → Api α (CalcOutput α)
  | .missing => return .badConfig
  | .unparsable => return .badConfig
  | .parsed j => do
    match ← pureM (jsonInput stod j).run with
    | none => return .badConfig
    | some (p, es, mats) =>
      if mats.isEmpty then return .noMaterial
      else if es.isEmpty then return .noEnergy
      else
        let rs ← calcLoop env p ⟨mats⟩ (jsonConfig j) es
        return .results p.A p.Z (mats.map fun m => (m.rho, m.th)) rs 1

end Catima
