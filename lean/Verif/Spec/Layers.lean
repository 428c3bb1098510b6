import Verif.Model.Calculate
import Verif.Lemmas.RealScalar

/-!
# Specification: a projectile crossing one material after another
-/

namespace Catima
variable {α : Type} [Scalar α]

/-- `Crossing env p c e ms w rs w'`: the projectile enters the materials `ms` with the energy `e` in
state `w`; the single-material results are `rs`, each material being entered with the energy the
previous one left. -/
inductive Crossing (env : Env α) (p : Projectile α) (c : Config α) :
    α → List (Material α) → World α → List (Result α) → World α → Prop where
  | nil (e w) : Crossing env p c e [] w [] w
  | cons {e m ms w w1 w2 r rs} (h : calculate env (p.withT e) m c w = .ok (r, w1))
      (hs : Crossing env p c r.Eout ms w1 rs w2) : Crossing env p c e (m :: ms) w (r :: rs) w2

/-- Second moments of the lateral position and the angle of a beam. -/
structure Moments where
  xx : ℝ
  xa : ℝ
  aa : ℝ

/-- A covariance matrix: non-negative variances and `xa² ≤ xx * aa`. -/
def Moments.Valid (s : Moments) : Prop := 0 ≤ s.xx ∧ 0 ≤ s.aa ∧ s.xa ^ 2 ≤ s.xx * s.aa

/-- Free flight over the distance `L`: `x ↦ x + L * a`. -/
noncomputable def Moments.drift (L : ℝ) (s : Moments) : Moments :=
  ⟨s.xx + 2 * L * s.xa + L ^ 2 * s.aa, s.xa + L * s.aa, s.aa⟩

/-- Independent random displacements add their moments. -/
noncomputable def Moments.add (s t : Moments) : Moments := ⟨s.xx + t.xx, s.xa + t.xa, s.aa + t.aa⟩

/-- Moments produced by one material, as reported in its result. -/
noncomputable def Result.moments (r : Result ℝ) : Moments := ⟨r.sigma_x ^ 2, r.cov, r.sigma_a ^ 2⟩

/-- Moments produced in a stack of materials `(length, produced moments)`, seen behind the stack: what
each material produces drifts over everything that follows. -/
noncomputable def produced : List (ℝ × Moments) → Moments
  | [] => ⟨0, 0, 0⟩
  | (_, m) :: rest => (m.drift (rest.map Prod.fst).sum).add (produced rest)

/-- Moments behind the stack: what arrives drifts over the whole length, plus what is produced. -/
noncomputable def behind (s : Moments) (stack : List (ℝ × Moments)) : Moments :=
  (s.drift (stack.map Prod.fst).sum).add (produced stack)

end Catima
