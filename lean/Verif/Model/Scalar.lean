/-!
# Scalars, faults and decimal constants

catima computes with the C++ type `double`.  Every numeric function of the model
is written once, over a type `α` with the operations of the class `Scalar`
below.  The class has no laws: it only names the operations the C++ code uses.
It is instantiated at

* `ℝ` (`Verif.Lemmas.RealScalar`), where most of the value theorems live,
* the numbers of a floating point arithmetic that rounds (`Verif.Spec.Rounding`), and
* `Float` (below), used to run the model against the numbers of `/repo/tests`.

Theorems that do not depend on arithmetic are stated for every `Scalar`.
-/

namespace Catima

/-- The operations on `double` used by `/repo/src` and `/repo/include`
(`<cmath>` calls, comparisons, and conversions from and to integer types).
`toInt` is `static_cast<int>(double)`: `none` when the truncated value is not
representable, which is undefined behaviour in C++ ([conv.fpint]).
`lround` is `std::lround`. -/
class Scalar (α : Type) extends Add α, Sub α, Mul α, Div α, Neg α, OfScientific α where
  lt : α → α → Bool
  le : α → α → Bool
  beq : α → α → Bool
  ofInt : Int → α
  toInt : α → Option Int
  lround : α → Int
  floor : α → α
  exp : α → α
  log : α → α
  log1p : α → α
  log10 : α → α
  sqrt : α → α
  fabs : α → α
  pow : α → α → α

export Scalar (ofInt)

/-- C++ `<` on doubles. -/
scoped infix:50 " <? " => Scalar.lt
/-- C++ `<=` on doubles. -/
scoped infix:50 " ≤? " => Scalar.le
/-- C++ `==` on doubles. -/
scoped infix:50 " =? " => Scalar.beq

section
variable {α : Type} [Scalar α]

/-- C++ `a > b`. -/
@[reducible] def Scalar.gt (a b : α) : Bool := Scalar.lt b a
/-- C++ `a >= b`. -/
@[reducible] def Scalar.ge (a b : α) : Bool := Scalar.le b a

/-- C++ `>` on doubles. -/
scoped infix:50 " >? " => Scalar.gt
/-- C++ `>=` on doubles. -/
scoped infix:50 " ≥? " => Scalar.ge

/-- `std::max(a,b)`: `(a < b) ? b : a`. -/
def smax (a b : α) : α := if a <? b then b else a
/-- `std::min(a,b)`: `(b < a) ? b : a`. -/
def smin (a b : α) : α := if b <? a then b else a

/-- `std::numeric_limits<double>::epsilon()`, i.e. `2^-52`. -/
def dblEps : α := 2.220446049250313080847263336181640625e-16

end

/-- Ways in which a call can leave defined behaviour.  Each is a distinct
outcome of the model; nothing is totalised away. -/
inductive Fault where
  /-- reading or writing outside an array or vector -/
  | outOfBounds
  /-- `static_cast<int>` of a value that does not fit -/
  | badCast
  /-- a failing `assert` in a build without `NDEBUG` -/
  | assertion
  /-- using a default-constructed interpolator (its pointers are never set) -/
  | uninitialised
  /-- use of an iterator or reference after it was invalidated -/
  | invalidated
  /-- integer division by zero -/
  | intDivZero
  deriving DecidableEq, Repr

/-- Outcome of a C++ call: a value, or a fault. -/
abbrev M := Except Fault

/-- `assert(c)`: aborts only when `debug` (the build does not define `NDEBUG`). -/
def cassert (debug : Bool) (c : Bool) : M Unit :=
  if debug && !c then .error .assertion else .ok ()

/-- `static_cast<int>(x)` / implicit conversion of `double` to `int`. -/
def castInt {α : Type} [Scalar α] (x : α) : M Int :=
  match Scalar.toInt x with
  | some i => .ok i
  | none => .error .badCast

/-- `xs[i]` on a C array or `std::vector` with an `int` index. -/
def rd {β : Type} (xs : List β) (i : Int) : M β :=
  if i < 0 then .error .outOfBounds
  else match xs[i.toNat]? with
    | some v => .ok v
    | none => .error .outOfBounds

/-- A decimal literal `m * 10^(-e)` as written in a C++ table. -/
structure Dec where
  m : Int
  e : Nat
  deriving DecidableEq, Repr, Inhabited

namespace Dec

instance : OfScientific Dec where
  ofScientific m s e := if s then ⟨m, e⟩ else ⟨m * 10 ^ e, 0⟩

instance : Neg Dec := ⟨fun d => ⟨-d.m, d.e⟩⟩

instance (n : Nat) : OfNat Dec n := ⟨⟨n, 0⟩⟩

/-- The value of a decimal literal in a scalar type. -/
def toScalar {α : Type} [Scalar α] (d : Dec) : α :=
  if d.m < 0 then -(OfScientific.ofScientific d.m.natAbs true d.e)
  else OfScientific.ofScientific d.m.natAbs true d.e

end Dec

/-- Read a table of decimal literals with an `int` index. -/
def rdDec {α : Type} [Scalar α] (xs : List Dec) (i : Int) : M α :=
  (rd xs i).map Dec.toScalar

/-- The IEEE double instance, used only to execute the model.
`log1p` uses Kahan's formula because Lean's `Float` has no `log1p`. -/
instance : Scalar Float where
  lt a b := a < b
  le a b := a ≤ b
  beq a b := a == b
  ofInt i := Float.ofInt i
  toInt x :=
    if x > -2147483649.0 && x < 2147483648.0 then
      some (if x < 0 then -((-x).toUInt64.toNat : Int) else (x.toUInt64.toNat : Int))
    else none
  lround x :=
    let r := x.round
    if r < 0 then -((-r).toUInt64.toNat : Int) else (r.toUInt64.toNat : Int)
  floor := Float.floor
  exp := Float.exp
  log := Float.log
  log1p x := let u := 1.0 + x; if u == 1.0 then x else Float.log u * x / (u - 1.0)
  log10 := Float.log10
  sqrt := Float.sqrt
  fabs := Float.abs
  pow := Float.pow

end Catima
