import Verif.Model.Calculate
import Verif.Model.MaterialDB

/-!
# C interface (`/repo/src/cwrapper.cpp`)
-/

namespace Catima
variable {α : Type} [Scalar α]

/-- cwrapper.cpp:11-25.  `tz` is a `double`, converted to `int` for the database and for
`add_element`. -/
def make_material (ta tz thickness density : α) : M (Material α) := do
  let z ← castInt tz
  let mat := if tz >? 200.0 then get_material z else Material.default.add_element ta z 1.0
  let mat := (mat.set_density density).set_thickness thickness
  if density ≤? 0.0 then
    return mat.set_density (get_material (α := α) z).rho
  else return mat

/-- cwrapper.cpp:28-29 and the same two lines in the other functions:
`default_config.z_effective = catima_defaults.z_effective; default_config.scattering = 255;` -/
def setDefaults (w : World α) : World α :=
  { w with default_config := { w.default_config with
      z_effective := w.c_defaults_z_effective, scattering := 255 } }

/-- cwrapper.cpp:73 and 81: only `default_config.scattering = 255;` -/
def setScattering (w : World α) : World α :=
  { w with default_config := { w.default_config with scattering := 255 } }

/-- cwrapper.cpp:27-46 (the fields copied to `CatimaResult`; `sigma_x`, `cov` and `sp` are not
copied and are left as computed here). -/
def catima_calculate (env : Env α) (pa : α) (pz : Int) (T ta tz thickness density : α) :
    Api α (Result α) := do
  modify setDefaults
  let mat ← pureM (make_material ta tz thickness density)
  let w ← get
  calculate env ((Projectile.new pa (ofInt pz)).withT T) mat w.default_config

/-- cwrapper.cpp:48-54 -/
def catima_Eout (env : Env α) (pa : α) (pz : Int) (T ta tz thickness density : α) : Api α α := do
  modify setDefaults
  let mat ← pureM (make_material ta tz thickness density)
  let w ← get
  energy_out env ((Projectile.new pa (ofInt pz)).withT T) mat w.default_config

/-- cwrapper.cpp:56-62: `T` is not used. -/
def catima_range (env : Env α) (pa : α) (pz : Int) (_T ta tz : α) : Api α α := do
  modify setDefaults
  let mat ← pureM (make_material ta tz 0.0 (-1.0))
  let w ← get
  range env (Projectile.new pa (ofInt pz)) mat w.default_config

/-- cwrapper.cpp:64-70 -/
def catima_range_straggling (env : Env α) (pa : α) (pz : Int) (T ta tz : α) : Api α α := do
  modify setDefaults
  let mat ← pureM (make_material ta tz 0.0 (-1.0))
  let w ← get
  range_straggling env (Projectile.new pa (ofInt pz)) T mat w.default_config

/-- cwrapper.cpp:72-78 -/
def catima_angular_straggling_from_E (env : Env α) (pa : α) (pz : Int) (Tin Tout ta tz : α) :
    Api α α := do
  modify setScattering
  let mat ← pureM (make_material ta tz 0.0 (-1.0))
  let w ← get
  angular_straggling_from_E env ((Projectile.new pa (ofInt pz)).withT Tin) Tout mat w.default_config

/-- cwrapper.cpp:80-85 -/
def catima_energy_straggling_from_E (env : Env α) (pa : α) (pz : Int) (Tin Tout ta tz : α) :
    Api α α := do
  modify setScattering
  let mat ← pureM (make_material ta tz 0.0 (-1.0))
  let w ← get
  energy_straggling_from_E env (Projectile.new pa (ofInt pz)) Tin Tout mat w.default_config

/-- cwrapper.cpp:87 -/
def atomic_weight (i : Int) : α := element_atomic_weight i

/-- cwrapper.cpp:89-94 -/
def catima_nonreaction_rate (env : Env α) (pa : α) (pz : Int) (T ta tz thickness : α) :
    Api α α := do
  let mat ← pureM (make_material ta tz thickness (-1.0))
  let w ← get
  nonreaction_rate env ((Projectile.new pa (ofInt pz)).withT T) mat w.default_config

end Catima
