import Verif.Lemmas.PolyCheck

/-!
# Helper lemmas: the polynomials of the Lanczos formula
-/

namespace Catima.Poly

/-- The numerator of the Lanczos sum over the common denominator `z (z+1) … (z+5)`, times `10¹⁸`. -/
def lzP : List ℤ :=
  [9141611007536575200000, 12004319135963288586498, 6566207591518191899269, 1914955976674752939984,
    314042534816107043439, 27458333327020151226, 1000000000190015000]

/-- The same at `z + 1`. -/
def lzQ : List ℤ :=
  [29969594579836125835416, 32281064054924600224874, 14484914063712144717115, 3465709449213182926000,
    466334201454058024569, 33458333328160241226, 1000000000190015000]

theorem lzQ_eval (z : ℂ) : pev lzQ z = pev lzP (z + 1) := by
  simp only [lzP, lzQ, pev_cons, pev_nil]
  push_cast
  ring

/-- `f'' f - f'²` -/
def logDer2 (f : List ℤ) : List ℤ := padd (pmul (pder (pder f)) f) (pscale (-1) (pmul (pder f) (pder f)))

def psq (f : List ℤ) : List ℤ := pmul f f

/-- The common denominator of the second derivative. -/
def lzDen : List ℤ :=
  pmul (pmul (pmul (psq [11, 2]) (psq [9, 2])) (psq [6, 1])) (pmul (psq lzP) (psq lzQ))

/-- Its numerator. -/
def lzNum : List ℤ :=
  let A := psq [11, 2]
  let B := psq [9, 2]
  let E := psq [6, 1]
  let PP := psq lzP
  let QQ := psq lzQ
  let PQ := pmul PP QQ
  padd (pmul (padd (pmul [42, 4] (pmul B E)) (padd (pscale (-1) (pmul [38, 4] (pmul A E))) (pmul A B))) PQ)
    (pmul (pmul (pmul A B) E) (padd (pmul PP (logDer2 lzQ)) (pscale (-1) (pmul QQ (logDer2 lzP)))))

/-- The numerator times `(z + 5)⁴`. -/
def lzNum5 : List ℤ := pmul lzNum (psq (psq [5, 1]))

set_option maxRecDepth 100000 in
theorem lz_dominated : dominatedI 10000000000000000 1849 1 lzNum5 lzDen = true := by
  decide +kernel

theorem lzP_positive : dominated 1 1 [1] lzP = true := by
  decide +kernel

end Catima.Poly
