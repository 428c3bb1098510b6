import Verif.Model.Complex
import Verif.Model.Structures

/-!
# The Lindhard-Sørensen corrections computed from phase shifts
(`/repo/src/calculations.cpp:171-419` and `840-895`)

`hyperg` and the series inside the nucleus are loops without an a priori bound.  They take a number
of turns `fuel`; `none` means that the loop is still running after that many turns.
-/

namespace Catima
variable {α : Type} [TrigScalar α]

/-- The loop of calculations.cpp:847-853. -/
def hypergLoop (a b z : Cpx α) : Nat → α → Cpx α → Cpx α → Option (Cpx α)
  | 0, _, _, _ => none
  | fuel + 1, dm, term, sumterm =>
    let previousterm := term
    let dm := dm + 1.0
    let Cm : Cpx α := ⟨dm - 1.0, 0.0⟩
    let term := previousterm * ((a + Cm) / (b + Cm)) * (z.sdiv dm)
    let sumterm := sumterm + term
    if term.abs >? 1.0e-6 && previousterm.abs >? 1.0e-6 then hypergLoop a b z fuel dm term sumterm
    else some sumterm

/-- calculations.cpp:840-855 -/
def hyperg (fuel : Nat) (a b z : Cpx α) : Option (Cpx α) :=
  hypergLoop a b z fuel 0.0 ⟨1.0, 0.0⟩ ⟨1.0, 0.0⟩

/-- calculations.cpp:859-864 -/
def lanczos_coeff : List Dec :=
  [76.18009172947146, -86.50532032941677, 24.01409824083091, -1.231739572450155,
    0.1208650973866179e-2, -0.5395239384953e-5]

/-- The loop of calculations.cpp:880-885; yields `(num, denom)`. -/
def lanczosSum (x y : α) : α × α :=
  (lanczos_coeff.zipIdx 1).foldl (fun (nd : α × α) cj =>
    let fj : α := ofInt cj.2
    let cterm := cj.1.toScalar / ((x + fj) * (x + fj) + y * y)
    (nd.1 + cterm, nd.2 + (x + fj) * cterm)) (0.0, 1.000000000190015)

/-- calculations.cpp:857-895 -/
def lngamma (z : Cpx α) : Cpx α :=
  let x := if z.re >? 0.0 then z.re - 1.0 else -z.re
  let y := if z.re >? 0.0 then z.im else -z.im
  let r := Scalar.sqrt ((x + 5.5) * (x + 5.5) + y * y)
  let aterm1 := y * Scalar.log r
  let aterm2 := (x + 0.5) * TrigScalar.atan2 y (x + 5.5) - y
  let lterm1 := (x + 0.5) * Scalar.log r
  let lterm2 := -y * TrigScalar.atan2 y (x + 5.5) - (x + 5.5) + 0.5 * Scalar.log (2.0 * PI)
  let nd := lanczosSum x y
  let num := nd.1 * -y
  let denom := nd.2
  let aterm3 := TrigScalar.atan2 num denom
  let lterm3 := 0.5 * Scalar.log (num * num + denom * denom)
  let result : Cpx α := ⟨lterm1 + lterm2 + lterm3, aterm1 + aterm2 + aterm3⟩
  if z.re <? 0.0 then
    let lpi : Cpx α := ⟨Scalar.log PI, 0.0⟩
    lpi - (result + (Cpx.smul PI z).sin.log)
  else result

/-- The quantities computed before the loops (calculations.cpp:172-178 and 285-291). -/
structure LsInput (α : Type) where
  Z : α
  rho : α
  gamma : α
  beta2 : α
  eta : α
  beta_gamma_R : α

/-- calculations.cpp:172-178 and 285-291 -/
def lsInput (p : Projectile α) : LsInput α :=
  let compton : α := 3.05573356675e-3
  let rho := Scalar.exp (Scalar.log p.A / 3.0) * compton
  let gamma := 1.0 + p.T / atomic_mass_unit
  let beta2 := 1.0 - 1.0 / (gamma * gamma)
  let beta := Scalar.sqrt beta2
  ⟨p.Z, rho, gamma, beta2, p.Z * fine_structure / beta, beta * gamma * rho⟩

/-- The loop of calculations.cpp:239-248 and 357-366 (the condition of the first repeats the same
comparison twice).  Yields `(asum, bsum)`. -/
def insideLoop (rho gz z1 fabsk : α) :
    Nat → α → α → α → α → α → α → Option (α × α)
  | 0, _, _, _, _, _, _ => none
  | fuel + 1, an, anm1, bnm1, asum, bsum, nn =>
    if Scalar.fabs (anm1 / asum) >? 1e-6 then
      let bn := ((rho - gz) * an + fine_structure * z1 * anm1 / 2.0) / (2.0 * nn + 2.0 * fabsk + 1.0)
      let anp1 := ((gz + rho) * bn - fine_structure * z1 * bnm1 / 2.0) / (2.0 * nn + 2.0)
      insideLoop rho gz z1 fabsk fuel anp1 an bn (asum + an) (bsum + bn) (nn + 1.0)
    else some (asum, bsum)

/-- The body of the loop over `i` (calculations.cpp:191-258 and 309-376): the phase shift for the
angular quantum number `k`. -/
def phaseShift (fuel : Nat) (c : LsInput α) (k : α) : Option α := do
  let l := if k >? 0.0 then k else -k - 1.0
  let signk : α := if k >? 0.0 then 1.0 else if k <? 0.0 then -1.0 else 0.0
  let sk := Scalar.sqrt (k * k - fine_structure * fine_structure * c.Z * c.Z)
  let cexir_n : Cpx α := ⟨k, -c.eta / c.gamma⟩
  let cexir_den : Cpx α := ⟨sk, -c.eta⟩
  let cexir := (cexir_n / cexir_den).sqrt
  let csketa : Cpx α := ⟨sk + 1.0, c.eta⟩
  let cpiske : Cpx α := ⟨0.0, PI * (l - sk) / 2.0 - (lngamma csketa).im⟩
  let cedr := cexir * cpiske.exp
  let cmsketa : Cpx α := ⟨-sk + 1.0, c.eta⟩
  let cexis_den : Cpx α := ⟨-sk, -c.eta⟩
  let cexis := (cexir_n / cexis_den).sqrt
  let cpimske : Cpx α := ⟨0.0, PI * (l + sk) / 2.0 - (lngamma cmsketa).im⟩
  let ceds := cexis * cpimske.exp
  let cmbeta_gamma_R : Cpx α := ⟨0.0, -c.beta_gamma_R⟩
  let c2beta_gamma_R : Cpx α := ⟨0.0, 2.0 * c.beta_gamma_R⟩
  let c2sk_1 : Cpx α := ⟨2.0 * sk + 1.0, 0.0⟩
  let cm2sk_1 : Cpx α := ⟨-2.0 * sk + 1.0, 0.0⟩
  let clambda_r := cexir * cmbeta_gamma_R.exp * (← hyperg fuel csketa c2sk_1 c2beta_gamma_R)
  let clambda_s := cexis * cmbeta_gamma_R.exp * (← hyperg fuel cmsketa cm2sk_1 c2beta_gamma_R)
  let cGrGs := lngamma cm2sk_1
  let GrGs := clambda_r.im / clambda_s.im
  let GrGs := GrGs * Scalar.exp ((lngamma csketa).re - (lngamma cmsketa).re - (lngamma c2sk_1).re
    + cGrGs.re + 2.0 * sk * Scalar.log (2.0 * c.beta_gamma_R))
  let GrGs := if TrigScalar.cos cGrGs.im <? 1.0 then GrGs * -1.0 else GrGs
  let H ←
    if Scalar.fabs GrGs >? 1.0e-9 then do
      let FrGr := Scalar.sqrt ((c.gamma - 1.0) / (c.gamma + 1.0)) * clambda_r.re / clambda_r.im
      let FsGs := Scalar.sqrt ((c.gamma - 1.0) / (c.gamma + 1.0)) * clambda_s.re / clambda_s.im
      let gz := -1.0 * signk * (c.rho * c.gamma + 1.5 * c.Z * fine_structure)
      let z1 := -1.0 * signk * c.Z
      let b0 : α := 1.0
      let a0 := (1.0 + 2.0 * Scalar.fabs k) * b0 / (c.rho - gz)
      let a1 := 0.5 * (gz + c.rho) * b0
      let (asum, bsum) ← insideLoop c.rho gz z1 (Scalar.fabs k) fuel a1 a0 b0 a0 b0 1.0
      let figi := if k >? 0.0 then asum / bsum else bsum / asum
      pure ((FrGr - figi) / (figi - FsGs) * GrGs)
    else pure 0.0
  return (cedr + Cpx.smul H ceds).arg

/-- The variables that survive a turn of the loop of calculations.cpp:187-274. -/
structure LsState (α : Type) where
  sum : α
  dmk : α
  dkm1 : α

/-- One turn of the loop of calculations.cpp:187-274. -/
def lsStep (fuel : Nat) (c : LsInput α) (s : LsState α) (n : Nat) : Option (LsState α) := do
  let k0 : α := ofInt n
  let dk0 ← phaseShift fuel c k0
  let dk1 ← phaseShift fuel c (-k0 - 1.0)
  let dk2 ← if n = 1 then phaseShift fuel c (-k0) else pure s.dmk
  let sdm2 := TrigScalar.sin (dk2 - dk1)
  let term1 := k0 * (k0 + 1.0) * sdm2 * sdm2 / (c.eta * c.eta * (2.0 * k0 + 1.0))
  let term1 :=
    if n > 1 then
      let sd2 := TrigScalar.sin (dk0 - s.dkm1)
      term1 + k0 * (k0 - 1.0) * sd2 * sd2 / (c.eta * c.eta * (2.0 * k0 - 1.0))
    else term1
  let sdd := TrigScalar.sin (dk0 - dk2)
  let term2 := k0 * sdd * sdd / (c.eta * c.eta * (4.0 * k0 * k0 - 1.0))
  let term3 := term1 - 1.0 / k0
  return ⟨s.sum + (term2 + term3), dk1, dk0⟩

/-- calculations.cpp:171-282 -/
def bethek_lindhard (fuel : Nat) (p : Projectile α) : Option α := do
  let c := lsInput p
  let sum ←
    if c.gamma <? 10.0 / c.rho then do
      let s ← (List.range' 1 4999).foldlM (lsStep fuel c) ⟨0.0, 0.0, 0.0⟩
      pure s.sum
    else pure (-Scalar.log c.beta_gamma_R - 0.2)
  return sum + (0.5 * c.beta2)

/-- The variables that survive a turn of the loop of calculations.cpp:303-411. -/
structure LsXState (α : Type) where
  sum : α
  dmk : α
  dmkp1 : α
  dkm1 : α
  dkm2 : α

/-- One turn of the loop of calculations.cpp:303-411. -/
def lsXStep (fuel : Nat) (c : LsInput α) (s : LsXState α) (n : Nat) : Option (LsXState α) := do
  let k0 : α := ofInt n
  let dk0 ← phaseShift fuel c k0
  let dk1 ← phaseShift fuel c (-k0 - 1.0)
  let dk2 ← phaseShift fuel c (if n = 1 then -k0 else k0)
  let dk3 ← phaseShift fuel c (-k0 - 2.0)
  let dk2 := if n > 1 then s.dmk else dk2
  let eta2 := c.eta * c.eta
  let sdm2 := TrigScalar.sin (dk0 - s.dkm2)
  let strterm1p :=
    if n > 2 then
      sdm2 * sdm2 * (k0 - 1.0) * (k0 - 2.0) / ((2.0 * k0 - 1.0) * (2.0 * k0 - 3.0))
    else 0.0
  let sdm2 := TrigScalar.sin (dk2 - dk3)
  let strterm1n :=
    sdm2 * sdm2 * (-k0 - 1.0) * (-k0 - 2.0) / ((-2.0 * k0 - 1.0) * (-2.0 * k0 - 3.0))
  let strterm2 :=
    if n > 1 then
      let sd2 := TrigScalar.sin (dk0 - s.dmkp1)
      0.0 + (k0 - 1.0) * sd2 * sd2 / ((2.0 * k0 - 3.0) * (4.0 * k0 * k0 - 1.0))
    else 0.0
  let sdd := TrigScalar.sin (dk0 - dk1)
  let strterm3 := sdd * sdd * (k0 + 1.0) * ((1.0 / (4.0 * k0 * k0 - 1.0)) +
    (1.0 / (4.0 * (k0 + 1.0) * (k0 + 1.0) - 1.0))) / (2.0 * k0 + 1.0)
  let sum := s.sum + k0 * (strterm1p + strterm1n + (strterm2 * 2.0) + strterm3) / eta2
  let sum := sum + (-(2.0 / k0))
  return ⟨sum, dk1, dk2, dk0, s.dkm1⟩

/-- calculations.cpp:284-419 -/
def bethek_lindhard_X (fuel : Nat) (p : Projectile α) : Option α := do
  let c := lsInput p
  let s ← (List.range' 1 999).foldlM (lsXStep fuel c) ⟨0.0, 0.0, 0.0, 0.0, 0.0⟩
  let res := 2.0 * (← bethek_lindhard fuel p) - s.sum - c.beta2
  return if res ≥? 0.0 then res else 0.0

end Catima
