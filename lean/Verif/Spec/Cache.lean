import Verif.Model.Storage

/-!
# Specification vocabulary for the cache

Histories of cache operations, the lookup key, and the laws of `==` used by some theorems.
-/

namespace Catima
variable {α : Type} [Scalar α]

/-- What an entry is looked up by. -/
structure Key (α : Type) where
  p : Projectile α
  t : Material α
  c : Config α

/-- The key an entry was stored under. -/
def DataPoint.key (d : DataPoint α) : Key α := ⟨d.p, d.m, d.config⟩

/-- `==` on keys: projectile, material and config compare equal. -/
def Key.eq (a b : Key α) : Bool := a.p.eq b.p && a.t.eq b.t && a.c.eq b.c

/-- The key of a default-constructed `DataPoint`. -/
def Key.default : Key α := ⟨.default, .default, .default⟩

/-- The operations on the cache. -/
inductive CacheOp (α : Type) where
  | get (k : Key α)
  | add (k : Key α)
  | reset

/-- The function that fills a slot. -/
abbrev Compute (α : Type) := Projectile α → Material α → Config α → M (DataPoint α)

/-- A fill function stores the key it was given and never an empty table. -/
def Compute.Faithful (f : Compute α) : Prop :=
  ∀ p t c d, f p t c = .ok d → d.key = ⟨p, t, c⟩ ∧ d.range ≠ []

/-- Run one operation. -/
def CacheOp.run (f : Compute α) (s : Storage α) : CacheOp α → M (Storage α)
  | .get k => (s.getWith f k.p k.t k.c).map Prod.snd
  | .add k => s.addWith f k.p k.t k.c
  | .reset => .ok s.reset

/-- Cache states reachable from program start. -/
inductive Reachable (f : Compute α) : Storage α → Prop
  | init : Reachable f .init
  | step {s s' : Storage α} (h : Reachable f s) (op : CacheOp α) (ho : op.run f s = .ok s') :
      Reachable f s'

/-- Some stored entry matches the key. -/
def Storage.has (s : Storage α) (k : Key α) : Prop := ∃ e ∈ s.slots, e.key.eq k = true

/-- History with the list of entries computed since the last reset, oldest first.  `hit` is any
operation whose key is already stored; `miss` computes and stores an entry. -/
inductive Trace (f : Compute α) : Storage α → List (DataPoint α) → Prop
  | init : Trace f .init []
  | reset {s ins} (h : Trace f s ins) : Trace f s.reset []
  | hitGet {s s' : Storage α} {ins} (h : Trace f s ins) (k : Key α) (hk : s.has k) (e : DataPoint α)
      (ho : s.getWith f k.p k.t k.c = .ok (e, s')) : Trace f s' ins
  | hitAdd {s s' : Storage α} {ins} (h : Trace f s ins) (k : Key α) (hk : s.has k)
      (ho : s.addWith f k.p k.t k.c = .ok s') : Trace f s' ins
  | missGet {s s' : Storage α} {ins} (h : Trace f s ins) (k : Key α) (hk : ¬ s.has k)
      (e d : DataPoint α) (hd : f k.p k.t k.c = .ok d)
      (ho : s.getWith f k.p k.t k.c = .ok (e, s')) : Trace f s' (ins ++ [d])
  | missAdd {s s' : Storage α} {ins} (h : Trace f s ins) (k : Key α) (hk : ¬ s.has k)
      (d : DataPoint α) (hd : f k.p k.t k.c = .ok d)
      (ho : s.addWith f k.p k.t k.c = .ok s') : Trace f s' (ins ++ [d])

/-- `Steps f s n s'`: some operations other than a reset lead from `s` to `s'`, exactly `n` of
them being misses (computing and storing a new entry). -/
inductive Steps (f : Compute α) (s : Storage α) : Nat → Storage α → Prop
  | refl : Steps f s 0 s
  | hit {n : Nat} {s1 s2 : Storage α} (h : Steps f s n s1) (k : Key α) (hk : s1.has k)
      (op : CacheOp α) (hop : op = .get k ∨ op = .add k) (ho : op.run f s1 = .ok s2) : Steps f s n s2
  | miss {n : Nat} {s1 s2 : Storage α} (h : Steps f s n s1) (k : Key α) (hk : ¬ s1.has k)
      (op : CacheOp α) (hop : op = .get k ∨ op = .add k) (ho : op.run f s1 = .ok s2) :
      Steps f s (n + 1) s2

/-! ## Laws of the number type used by some cache theorems

Both hold for `ℝ`.  For IEEE doubles the second holds, the first holds except for `0.0 == -0.0`. -/

/-- `==` implies identity. -/
def BeqEq (α : Type) [Scalar α] : Prop := ∀ a b : α, Scalar.beq a b = true → a = b

/-- `==` and the distance are symmetric. -/
def EqSymm (α : Type) [Scalar α] : Prop :=
  (∀ a b : α, Scalar.beq a b = Scalar.beq b a) ∧
  (∀ a b : α, Scalar.fabs (a - b) = Scalar.fabs (b - a))

end Catima
