import Verif.Model.Constants

/-!
# Energy tables (`/repo/include/catima/storage.h:36-132`)
-/

namespace Catima
variable {α : Type} [Scalar α]

/-- What a table type `T` must offer to `cspline_special<T>` (spline.h:105-222) and to
`EnergyTable_interpolate` (storage.h:70-81): its size, `operator[]` and `index`.
`val` is only used with indices `< n`. -/
structure Grid (α : Type) where
  n : Nat
  val : Nat → α
  index : α → M Int

/-! ## EnergyTable -/

/-- storage.h:39-50: the size `N` and the constructor arguments. -/
structure EnergyTable (α : Type) where
  N : Nat
  logmin : α
  logmax : α

namespace EnergyTable

/-- storage.h:41 -/
def step (t : EnergyTable α) : α := (t.logmax - t.logmin) / (ofInt t.N - 1.0)

/-- storage.h:42-44: `values[i]` -/
def val (t : EnergyTable α) (i : Nat) : α :=
  Scalar.exp (LN10 * (t.logmin + ofInt i * t.step))

/-- `values[i]` with an `int` index (storage.h:46-47): outside `0..N-1` undefined. -/
def get (t : EnergyTable α) (i : Int) : M α :=
  if 0 ≤ i ∧ i < t.N then .ok (t.val i.toNat) else .error .outOfBounds

/-- Position returned by `std::upper_bound(begin(),end(),v)` (storage.h:63): the first
index `k` with `v < values[k]`, or `N`.  Simplification: a linear scan; it returns the
same position as the library's binary search whenever the predicate is monotone along
the array, which holds because `values` is increasing. -/
def upperBound (t : EnergyTable α) (v : α) : Nat :=
  (List.range t.N).findIdx (fun k => v <? t.val k)

/-- storage.h:53-66; `ci` is the macro `ET_CALCULATED_INDEX`. -/
def index (ci : Bool) (t : EnergyTable α) (v : α) : M Int :=
  if (v <? t.val 0) || (t.step =? 0.0) then .ok (-1)
  else if v ≥? t.val (t.N - 1) - numeric_epsilon then .ok (t.N - 1)
  else if ci then do
    let lxval := Scalar.log (v / t.val 0) / LN10
    let i ← castInt (Scalar.floor (lxval / t.step))
    let nxt ← t.get (i + 1)
    return if v ≥? nxt - numeric_epsilon then i + 1 else i
  else .ok ((t.upperBound v : Int) - 1)

/-- The interface used by splines and interpolation. -/
def grid (ci : Bool) (t : EnergyTable α) : Grid α := ⟨t.N, t.val, t.index ci⟩

/-- storage.h:70-81; `y` is the array the pointer points to. -/
def interpolate (ci : Bool) (t : EnergyTable α) (xval : α) (y : List α) : M α :=
  if (xval <? t.val 0) || (xval >? t.val (t.N - 1)) then .ok 0.0
  else if xval =? t.val (t.N - 1) then rd y (t.N - 1)
  else do
    let i ← t.index ci xval
    let hi ← t.get (i + 1)
    let lo ← t.get i
    let linstep := hi - lo
    if linstep =? 0.0 then return lo
    let x := 1.0 - ((xval - lo) / linstep)
    let yi ← rd y i
    let yj ← rd y (i + 1)
    return (x * yi) + ((1.0 - x) * yj)

end EnergyTable

/-- storage.cpp:25 with constants.h:9-11: `energy_table`. -/
def energy_table : EnergyTable α := ⟨max_datapoints, logEmin, logEmax⟩

/-- generated_LS_coeff.h:16: `EnergyTable<200> ls_energy_table(0,7)`. -/
def ls_energy_table : EnergyTable α := ⟨200, 0.0, 7.0⟩

/-! ## LogVArray -/

/-- storage.h:84-88,104-107 -/
structure LogVArray (α : Type) where
  N : Nat
  logmin : α
  logmax : α

namespace LogVArray

/-- storage.h:87 -/
def step (t : LogVArray α) : α := (t.logmax - t.logmin) / (ofInt t.N - 1.0)

/-- storage.h:92: no bounds on `i`. -/
def value (t : LogVArray α) (i : Int) : α :=
  Scalar.exp (LN10 * (t.logmin + ofInt i * t.step))

/-- storage.h:96-103 -/
def index (t : LogVArray α) (v : α) : M Int :=
  if (v <? t.value 0) || (t.step =? 0.0) then .ok (-1)
  else if v ≥? t.value (t.N - 1) - numeric_epsilon then .ok (t.N - 1)
  else do
    let lxval := Scalar.log (v / t.value 0) / LN10
    let i ← castInt (Scalar.floor (lxval / t.step))
    return if v ≥? t.value (i + 1) - numeric_epsilon then i + 1 else i

/-- The interface used by splines. -/
def grid (t : LogVArray α) : Grid α := ⟨t.N, fun i => t.value i, t.index⟩

end LogVArray

/-! ## LinearVArray -/

/-- storage.h:112-116,127-130 -/
structure LinearVArray (α : Type) where
  N : Nat
  min : α
  max : α

namespace LinearVArray

/-- storage.h:113-116,128: `step` stays 0 unless `min < max`. -/
def step (t : LinearVArray α) : α :=
  if t.max ≤? t.min then 0.0 else (t.max - t.min) / ofInt (t.N - 1)

/-- storage.h:120 -/
def value (t : LinearVArray α) (i : Int) : α := ofInt i * t.step + t.min

/-- storage.h:121-126 -/
def index (debug : Bool) (t : LinearVArray α) (v : α) : M Int :=
  if (v <? t.min) || (t.step =? 0.0) then .ok (-1)
  else if v ≥? t.max then .ok (t.N - 1)
  else do
    cassert debug (t.step >? 0.0)
    castInt (Scalar.floor ((v - t.min) / t.step))

/-- The interface used by splines. -/
def grid (debug : Bool) (t : LinearVArray α) : Grid α :=
  ⟨t.N, fun i => t.value i, t.index debug⟩

end LinearVArray

end Catima
