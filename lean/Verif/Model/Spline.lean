import Verif.Model.EnergyTable

/-!
# Tridiagonal solver and cubic spline (`/repo/include/catima/spline.h`)
-/

namespace Catima
variable {α : Type} [Scalar α]

/-! ## `tridiagonal_matrix<N>` -/

/-- spline.h:44-51: the three private arrays.  The constructor leaves them
uninitialised; an element that was never assigned holds an arbitrary value. -/
structure Tridiag (α : Type) where
  a : Nat → α
  d : Nat → α
  c : Nat → α

namespace Tridiag

/-- spline.h:59-66: the write accessor.  Any `j` other than `i-1` and `i` writes `a[i]`. -/
def set (A : Tridiag α) (i j : Nat) (v : α) : Tridiag α :=
  if (j : Int) - i = -1 then { A with c := fun k => if k = i then v else A.c k }
  else if (j : Int) - i = 0 then { A with d := fun k => if k = i then v else A.d k }
  else { A with a := fun k => if k = i then v else A.a k }

/-- spline.h:68-76: the read accessor. -/
def get (A : Tridiag α) (i j : Nat) : α :=
  if (j : Int) - i = -1 then A.c i
  else if (j : Int) - i = 0 then A.d i
  else if (j : Int) - i = 1 then A.a i
  else 0.0

/-- One row of the system as `trig_solve` uses it at step `j`: `cprev = c[j-1]`,
`a = a[j]`, `d = d[j]`, `b = b[j]`. -/
structure Row (α : Type) where
  cprev : α
  a : α
  d : α
  b : α

/-- spline.h:86-97 for `j ≥ 1`: the forward sweep (with the pivot `bet` and the previous
`x`) and, on the way back, the back substitution.  Returns `x[j..]`, or `none` when a pivot
is zero (lines 89-92). -/
def sweep : List (Row α) → α → α → Option (List α)
  | [], _, _ => some []
  | r :: rs, bet, xprev =>
    let g := r.cprev / bet
    let bet' := r.d - (r.a * g)
    if bet' =? 0.0 then none
    else
      let x := (r.b - r.a * xprev) / bet'
      match rs with
      | [] => some [x]
      | r' :: _ =>
        match sweep rs bet' x with
        | none => none
        | some [] => some [x]
        | some (y :: ys) => some ((x - (r'.cprev / bet') * y) :: y :: ys)

/-- spline.h:78-99 for `N ≥ 1`.  `d[0] == 0` returns an array that was never written. -/
def trig_solve (A : Tridiag α) (N : Nat) (b : Nat → α) : M (List α) :=
  if A.d 0 =? 0.0 then .error .uninitialised
  else
    let x0 := b 0 / A.d 0
    let rows := (List.range (N - 1)).map fun k => (⟨A.c k, A.a (k+1), A.d (k+1), b (k+1)⟩ : Row α)
    match sweep rows (A.d 0) x0 with
    | none => .ok (List.replicate N 0.0)
    | some [] => .ok [x0]
    | some (y :: ys) => .ok ((x0 - (A.c 0 / A.d 0) * y) :: y :: ys)

end Tridiag

/-! ## `cspline_special<T>` -/

/-- Contents of the two matrix cells that `cspline_special` never assigns but
`trig_solve` reads: `c[0]` and `a[N-1]` (spline.h:170-185 against 86-93).  They are
whatever was on the stack; the model carries them as a parameter. -/
structure Junk (α : Type) where
  c0 : α
  aN : α

/-- spline.h:113-116.  `y` is the vector `m_y` points into. -/
structure Spline (α : Type) where
  grid : Grid α
  y : List α
  a : List α
  b : List α
  c : List α
  b0 : α
  c0 : α

namespace Spline

/-- The matrix after the assignments of spline.h:172-185 (natural boundary, the only
one used in catima): `A(i,i-1)`, `A(i,i)`, `A(i,i+1)` for `1 ≤ i ≤ N-2`, `A(0,0)=2`,
`A(0,1)=0`, `A(N-1,N-1)=2`, `A(N-1,N-2)=0`; `c[0]` and `a[N-1]` keep their junk. -/
def matrix (N : Nat) (x : Nat → α) (jk : Junk α) : Tridiag α where
  a i := if i = N - 1 then jk.aN else if i = 0 then 0.0 else 1.0/3.0 * (x (i+1) - x i)
  d i := if i = 0 then 2.0 else if i = N - 1 then 2.0 else 2.0/3.0 * (x (i+1) - x (i-1))
  c i := if i = 0 then jk.c0 else if i = N - 1 then 0.0 else 1.0/3.0 * (x i - x (i-1))

/-- spline.h:176,183,186 -/
def rhs (N : Nat) (x y : Nat → α) (i : Nat) : α :=
  if i = 0 then 0.0 else if i = N - 1 then 0.0
  else (y (i+1) - y i) / (x (i+1) - x i) - (y i - y (i-1)) / (x i - x (i-1))

/-- spline.h:207 -/
def coefA (x b : Nat → α) (i : Nat) : α := 1.0/3.0 * (b (i+1) - b i) / (x (i+1) - x i)

/-- spline.h:208-209 -/
def coefC (x y b : Nat → α) (i : Nat) : α :=
  (y (i+1) - y i) / (x (i+1) - x i) - 1.0/3.0 * (2.0 * b i + b (i+1)) * (x (i+1) - x i)

/-- spline.h:203-221: the coefficient arrays from the solved `b`. -/
def ofB (g : Grid α) (ys : List α) (bs : List α) : Spline α :=
  let N := g.n
  let x := g.val
  let y := fun i => ys.getD i 0.0
  let b := fun i => bs.getD i 0.0
  let h := x (N-1) - x (N-2)
  let a := fun i => coefA x b i
  let c := fun i => coefC x y b i
  { grid := g, y := ys
    a := (List.range (N-1)).map a ++ [0.0]
    b := (List.range (N-1)).map b ++ [0.0]
    c := (List.range (N-1)).map c ++ [3.0 * a (N-2) * h * h + 2.0 * b (N-2) * h + c (N-2)]
    b0 := 0.0
    c0 := c 0 }

/-- spline.h:163-222 with `boundary_second_deriv = true`.  `y[i]` is read for all `i < N`. -/
def new (jk : Junk α) (g : Grid α) (ys : List α) : M (Spline α) :=
  if ys.length < g.n then .error .outOfBounds
  else do
    let bs ← (matrix g.n g.val jk).trig_solve g.n (rhs g.n g.val (fun i => ys.getD i 0.0))
    return ofB g ys bs

/-- spline.h:120-138 -/
def evaluate (s : Spline α) (x : α) : M α := do
  let i ← s.grid.index x
  let idx := max i 0
  let h := x - s.grid.val idx.toNat
  if x <? s.grid.val 0 then
    return (s.b0 * h + s.c0) * h + (← rd s.y 0)
  else if x >? s.grid.val (s.grid.n - 1) then
    return ((← rd s.b (s.grid.n - 1)) * h + (← rd s.c (s.grid.n - 1))) * h
      + (← rd s.y (s.grid.n - 1))
  else
    return (((← rd s.a idx) * h + (← rd s.b idx)) * h + (← rd s.c idx)) * h + (← rd s.y idx)

/-- spline.h:141-159 -/
def deriv (s : Spline α) (x : α) : M α := do
  let i ← s.grid.index x
  let idx := max i 0
  let h := x - s.grid.val idx.toNat
  if x <? s.grid.val 0 then
    return 2.0 * s.b0 * h + s.c0
  else if x >? s.grid.val (s.grid.n - 1) then
    return 2.0 * (← rd s.b (s.grid.n - 1)) * h + (← rd s.c (s.grid.n - 1))
  else
    return (3.0 * (← rd s.a idx) * h + 2.0 * (← rd s.b idx)) * h + (← rd s.c idx)

end Spline

end Catima
