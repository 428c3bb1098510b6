import Verif.Lemmas.RealScalar
import Verif.Model.Spline

/-!
# Specification vocabulary for interpolation

`Grid.Ordered g w` is what a table of x values must provide: increasing points and an `index` that
gives the interval of its argument.  `w` is the width below a point in which `index` may already
give the next interval.
-/

namespace Catima

structure Grid.Ordered (g : Grid ℝ) (w : ℝ) : Prop where
  size : 3 ≤ g.n
  width : 0 ≤ w
  gap : ∀ i, i + 1 < g.n → g.val i < g.val (i + 1) - w
  below : ∀ x, x < g.val 0 → ∃ i, g.index x = .ok i ∧ i ≤ 0
  inside : ∀ k x, k + 1 < g.n → g.val k ≤ x → x < g.val (k + 1) - w → g.index x = .ok (k : Int)
  total : ∀ x, ∃ i, g.index x = .ok i ∧ i < g.n
  above : ∀ x, g.val (g.n - 1) ≤ x → g.index x = .ok ((g.n : Int) - 1)

/-- The two matrix cells that are never assigned happen to hold numbers of at most 0.02. -/
structure SmallJunk (jk : Junk ℝ) : Prop where
  first : |jk.c0| ≤ 0.02
  last : |jk.aN| ≤ 0.02

/-- A family of cubic polynomials, `piece k` written in powers of `x - x_k`. -/
structure Cubics where
  a : Nat → ℝ
  b : Nat → ℝ
  c : Nat → ℝ
  y : Nat → ℝ

def Cubics.at (P : Cubics) (x : Nat → ℝ) (k : Nat) (v : ℝ) : ℝ :=
  P.a k * (v - x k) ^ 3 + P.b k * (v - x k) ^ 2 + P.c k * (v - x k) + P.y k

/-- Slope of piece `k` at `v`. -/
def Cubics.slope (P : Cubics) (x : Nat → ℝ) (k : Nat) (v : ℝ) : ℝ :=
  3 * P.a k * (v - x k) ^ 2 + 2 * P.b k * (v - x k) + P.c k

/-- `x` solves the linear system whose matrix is read with `operator()(i,j)`. -/
def Tridiag.Solves (A : Tridiag ℝ) (N : Nat) (b x : Nat → ℝ) : Prop :=
  ∀ i < N, ∑ j ∈ Finset.range N, A.get i j * x j = b i

/-- Leading principal minors of the tridiagonal matrix with diagonal `d`, `lo i` at `(i,i-1)` and
`up i` at `(i,i+1)`: `minor (n+1)` is the determinant of the first `n+1` rows and columns. -/
def tridiagMinor (d lo up : Nat → ℝ) : Nat → ℝ
  | 0 => 1
  | 1 => d 0
  | n + 2 => d (n + 1) * tridiagMinor d lo up (n + 1) - lo (n + 1) * up n * tridiagMinor d lo up n

end Catima
