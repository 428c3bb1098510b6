import Verif.Model.Calculations
import Verif.Model.Integrators

/-!
# Data points and the global cache
(`/repo/include/catima/storage.h:205-284`, `/repo/src/storage.cpp`, and the functions of
`/repo/src/catima.cpp` that fill a data point)
-/

namespace Catima
variable {α : Type} [Scalar α]

/-! ## Energy loss and the three tables -/

/-- catima.cpp:31-49 -/
def dedx (env : Env α) (p : Projectile α) (mat : Material α) (c : Config α) : M α := do
  if p.T ≤? 0.0 then return 0.0
  let sum := 0.0 + (← dedx_n env.debug p mat)
  let se ←
    if p.T ≤? 10.0 then sezi_dedx_e p mat c
    else if (p.T >? 10.0) && (p.T <? 30.0) then do
      let factor := 0.05 * (p.T - 10.0)
      let lo ← sezi_dedx_e p mat c
      let hi ← bethek_dedx_e env p mat c
      pure ((1.0 - factor) * lo + factor * hi)
    else bethek_dedx_e env p mat c
  return sum + se

/-- catima.cpp:51-60 -/
def domega2dx (env : Env α) (p : Projectile α) (mat : Material α) (c : Config α) : M α :=
  componentSum mat fun t => dedx_variance env p t c

/-- catima.cpp:114-117 and 153-155: the scattering constant selected by the configuration. -/
def Es2_of (c : Config α) : α :=
  let Es2 := 198.81
  let Es2 := if c.scattering = scattering_dhighland then Es_squared else Es2
  if c.scattering = scattering_fermi_rossi then Es_squared else Es2

/-- catima.cpp:113-119 -/
def da2dx (p : Projectile α) (mat : Material α) (c : Config α) : α :=
  c.scattering_factor * angular_scattering_power p mat (Es2_of c)

/-- catima.cpp:130-132 -/
def da2de (env : Env α) (p : Projectile α) (mat : Material α) (c : Config α) : M α := do
  return da2dx p mat c / (← dedx env p mat c)

/-- catima.cpp:409-411 -/
def fdedx (env : Env α) (p : Projectile α) (t : Material α) (c : Config α) (x : α) : M α := do
  return 1.0 / (← dedx env (p.withT x) t c)

/-- catima.cpp:412-414 -/
def fomega (env : Env α) (p : Projectile α) (t : Material α) (c : Config α) (x : α) : M α := do
  return (← domega2dx env (p.withT x) t c) / power (← dedx env (p.withT x) t c) 3.0

/-- catima.cpp:415-417 -/
def ftheta (env : Env α) (p : Projectile α) (t : Material α) (c : Config α) (x : α) : M α :=
  da2de env (p.withT x) t c

/-- The increments `p.A*integrator.integrate(f, energy_table(i-1), energy_table(i))` added up
from 0, for `i = 1 .. n` (catima.cpp:425-443); the list has `n + 1` entries. -/
def cumulative (n : Nat) (A : α) (tab : EnergyTable α) (f : α → M α) : M (List α) :=
  (List.range n).foldlM (fun acc k => do
    let r ← integrator.integrate f (tab.val k) (tab.val (k + 1))
    return acc ++ [A * r + acc.getLastD 0.0]) [0.0]

/-- storage.h:205-221.  `splines` are the three stored interpolators (build option
`STORE_SPLINES`); `none` is the default-constructed state, whose pointers are never set.
The stored interpolators point into the tables of the same object; because the cache writes
tables and interpolators of a slot together they are modelled as values. -/
structure DataPoint (α : Type) where
  p : Projectile α
  m : Material α
  config : Config α
  range : List α
  range_straggling : List α
  angular_variance : List α
  splines : Option (Spline α × Spline α × Spline α)

/-- storage.h:219: `DataPoint() = default`. -/
def DataPoint.default : DataPoint α :=
  ⟨.default, .default, .default, [], [], [], none⟩

/-- storage.cpp:28-35 -/
def DataPoint.eq (a b : DataPoint α) : Bool :=
  a.m.eq b.m && a.p.eq b.p && a.config.eq b.config

/-- catima.cpp:404-445.  The three tables are computed in three passes instead of one
interleaved loop (the entries do not depend on each other). -/
def calculate_DataPoint (env : Env α) (p : Projectile α) (t : Material α) (c : Config α) :
    M (DataPoint α) := do
  let n := max_datapoints - 1
  let range ← cumulative n p.A energy_table (fdedx env p t c)
  let ang ← cumulative n p.A energy_table (ftheta env p t c)
  let strag ← cumulative n p.A energy_table (fomega env p t c)
  return ⟨p, t, c, range, strag, ang, none⟩

/-- storage.h:166-168: `Interpolator(energy_table, y)`. -/
def newSpline (env : Env α) (y : List α) : M (Spline α) :=
  Spline.new env.junk (energy_table.grid env.calcIndex) y

/-- storage.cpp:119-126: fills in the stored interpolators. -/
def DataPoint.withSplines (env : Env α) (d : DataPoint α) : M (DataPoint α) :=
  if env.storeSplines then do
    let r ← newSpline env d.range
    let s ← newSpline env d.range_straggling
    let a ← newSpline env d.angular_variance
    return { d with splines := some (r, s, a) }
  else return d

/-- storage.cpp:72-74 and 84-88 -/
def get_range_spline (env : Env α) (d : DataPoint α) : M (Spline α) :=
  if env.storeSplines then
    match d.splines with
    | some s => .ok s.1
    | none => .error .uninitialised
  else newSpline env d.range

/-- storage.cpp:76-78 and 90-94 -/
def get_range_straggling_spline (env : Env α) (d : DataPoint α) : M (Spline α) :=
  if env.storeSplines then
    match d.splines with
    | some s => .ok s.2.1
    | none => .error .uninitialised
  else newSpline env d.range_straggling

/-- storage.cpp:80-82 and 96-100 -/
def get_angular_variance_spline (env : Env α) (d : DataPoint α) : M (Spline α) :=
  if env.storeSplines then
    match d.splines with
    | some s => .ok s.2.2
    | none => .error .uninitialised
  else newSpline env d.angular_variance

/-! ## The cache -/

/-- storage.h:269-270: the vector and the iterator `index`, as an offset. -/
structure Storage (α : Type) where
  slots : List (DataPoint α)
  index : Nat

namespace Storage

/-- storage.cpp:102-106 -/
def init : Storage α := ⟨List.replicate max_storage_data .default, 0⟩

/-- storage.h:255 -/
def reset (_ : Storage α) : Storage α := ⟨List.replicate max_storage_data .default, 0⟩

/-- storage.h:254 -/
def getN (s : Storage α) : Nat := s.slots.length

/-- storage.h:265: `Get(unsigned int i)` -/
def getSlot (s : Storage α) (i : Nat) : M (DataPoint α) := rd s.slots i

/-- The match test of storage.cpp:132. -/
def hit (p : Projectile α) (t : Material α) (c : Config α) (e : DataPoint α) : Bool :=
  e.p.eq p && e.m.eq t && e.config.eq c

/-- storage.cpp:112-128.  `compute` is `calculate_DataPoint` followed by the spline
construction; it is a parameter so that the cache discipline can be reasoned about apart from
what is cached.  `*index` past the end of the vector is undefined. -/
def addWith (compute : Projectile α → Material α → Config α → M (DataPoint α)) (s : Storage α)
    (p : Projectile α) (t : Material α) (c : Config α) : M (Storage α) :=
  if s.slots.any (fun e => e.eq ⟨p, t, c, [], [], [], none⟩) then .ok s
  else do
    let index := if s.index = s.slots.length then 0 else s.index
    let d ← compute p t c
    if index < s.slots.length then return ⟨s.slots.set index d, index + 1⟩
    else throw .outOfBounds

/-- storage.cpp:130-139.  `std::prev(begin())` and dereferencing outside the vector are
undefined. -/
def getWith (compute : Projectile α → Material α → Config α → M (DataPoint α)) (s : Storage α)
    (p : Projectile α) (t : Material α) (c : Config α) : M (DataPoint α × Storage α) :=
  match s.slots.find? (hit p t c) with
  | some e => .ok (e, s)
  | none => do
    let s' ← s.addWith compute p t c
    if s'.index = 0 then throw .outOfBounds
    else
      let e ← rd s'.slots (s'.index - 1 : Nat)
      return (e, s')

/-- `calculate_DataPoint` and the interpolators (storage.cpp:118-126). -/
def computeDP (env : Env α) (p : Projectile α) (t : Material α) (c : Config α) : M (DataPoint α) := do
  (← calculate_DataPoint env p t c).withSplines env

end Storage

/-! ## Global state -/

/-- The mutable globals: `_storage` (storage.cpp:21), `default_config` (catima.cpp:18) and
`catima_defaults.z_effective` (cwrapper.cpp:9). -/
structure World (α : Type) where
  storage : Storage α
  default_config : Config α
  c_defaults_z_effective : Nat

/-- State at program start. -/
def World.init : World α := ⟨.init, .default, 1⟩

/-- A library call: reads and writes the globals, may fault. -/
abbrev Api (α β : Type) := StateT (World α) M β

/-- storage.h:282-284: `_storage.Get(p,t,c)` on the global cache. -/
def get_data (env : Env α) (p : Projectile α) (t : Material α) (c : Config α) :
    Api α (DataPoint α) := fun w => do
  let (d, s) ← w.storage.getWith (Storage.computeDP env) p t c
  return (d, { w with storage := s })

/-- Lift a state-free computation. -/
def pureM {β : Type} (x : M β) : Api α β := fun w => do return (← x, w)

end Catima
