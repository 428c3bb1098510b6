import Verif.Spec.Api
import Mathlib.Data.List.Forall2

/-!
# Relations between results, used to compare two executions
-/

namespace Catima
variable {α : Type} [Scalar α]

/-- Two outcomes are both values related by `R`, or the same fault. -/
def ERel {β γ : Type} (R : β → γ → Prop) : M β → M γ → Prop
  | .ok b, .ok c => R b c
  | .error e, .error e' => e = e'
  | _, _ => False

/-- Two results of `calculate` agree on every field except possibly `sigma_a`, and on that one
too if `A`. -/
def ResEq (A : Prop) (r r' : Result α) : Prop :=
  { r with sigma_a := r'.sigma_a } = r' ∧ (A → r = r')

/-- Two totals of `calculate` on layers agree on every field except possibly `sigma_a`, `sigma_x`
and `cov`, and on those too if `A`. -/
def TotEq (A : Prop) (r r' : Result α) : Prop :=
  { r with sigma_a := r'.sigma_a, sigma_x := r'.sigma_x, cov := r'.cov } = r' ∧ (A → r = r')

/-- Layer by layer and total. -/
def MultiEq (A : Prop) (r r' : MultiResult α) : Prop :=
  List.Forall₂ (ResEq A) r.results r'.results ∧ TotEq A r.total_result r'.total_result

/-- Same grid and same array lengths. -/
def SplShape (s s' : Spline α) : Prop :=
  s.grid = s'.grid ∧ s.y.length = s'.y.length ∧ s.a.length = s'.a.length ∧
    s.b.length = s'.b.length ∧ s.c.length = s'.c.length

/-- Two entries, read by builds `env` and `env'`, give the same range and straggling
interpolators, and the same angular one if `A`. -/
def DataEq (env env' : Env α) (A : Prop) (d d' : DataPoint α) : Prop :=
  get_range_spline env d = get_range_spline env' d' ∧
  get_range_straggling_spline env d = get_range_straggling_spline env' d' ∧
  ERel (fun s s' => SplShape s s' ∧ (A → s = s'))
    (get_angular_variance_spline env d) (get_angular_variance_spline env' d')

/-- What the calculator prints. -/
def CalcEq (B : Prop) : CalcOutput α → CalcOutput α → Prop
  | .badConfig, .badConfig => True
  | .noMaterial, .noMaterial => True
  | .noEnergy, .noEnergy => True
  | .results A Z h rs e, .results A' Z' h' rs' e' =>
    A = A' ∧ Z = Z' ∧ h = h' ∧ e = e' ∧ List.Forall₂ (fun x y => x.1 = y.1 ∧ MultiEq B x.2 y.2) rs rs'
  | _, _ => False

/-- Two responses agree (up to the angular data unless `A`). -/
def RespEq (env env' : Env α) (A : Prop) : Response α → Response α → Prop
  | .unit, .unit => True
  | .num x, .num y => x = y
  | .nums x, .nums y => x = y
  | .pair x y, .pair x' y' => x = x' ∧ y = y'
  | .result r, .result r' => ResEq A r r'
  | .multi r, .multi r' => MultiEq A r r'
  | .data d, .data d' => DataEq env env' A d d'
  | .calc o, .calc o' => CalcEq A o o'
  | _, _ => False

/-- The builds differ at most in `STORE_SPLINES`. -/
def Env.Alike (env env' : Env α) : Prop :=
  env.debug = env'.debug ∧ env.calcIndex = env'.calcIndex ∧ env.thin = env'.thin ∧
    env.junk = env'.junk

/-- The projectile the calculator program uses. -/
def CalcInput.proj (j : CalcInput α) : Projectile α :=
  match j.projectile with
  | some (some (A, Z)) => { (Projectile.default : Projectile α) with A := A, Z := Z }
  | _ => .default

/-- The keys a call may look up satisfy `K`, and the scattering factors it is given satisfy `F`.
Calls that build their material or configuration themselves are required to satisfy `K` for every
material and configuration. -/
def Call.Within (K : Projectile α → Material α → Config α → Prop) (F : α → Prop) : Call α → Prop
  | .range p t c | .dedx_from_range p t c | .dedx_from_range_vec p _ t c
  | .range_straggling p _ t c | .range_variance p _ t c | .domega2de p _ t c | .energy_out p t c
  | .energy_out_vec p _ t c | .angular_variance p t c _ | .angular_straggling p t c
  | .angular_straggling_from_E p _ t c | .energy_straggling_from_E p _ _ t c
  | .w_magnification p _ t c | .nonreaction_rate p t c | .calculate p t c | .get_data p t c
  | .add p t c => K p t c ∧ F c.scattering_factor
  | .calculate_layers p _ l c => (∀ m ∈ l.materials, K p m c) ∧ F c.scattering_factor
  | .calculate_simple pa pz _ _ _ _ _ | .c_calculate pa pz _ _ _ _ _ | .c_Eout pa pz _ _ _ _ _
  | .c_range pa pz _ _ _ | .c_range_straggling pa pz _ _ _
  | .c_angular_straggling_from_E pa pz _ _ _ _ | .c_energy_straggling_from_E pa pz _ _ _ _
  | .c_nonreaction_rate pa pz _ _ _ _ => ∀ t c, K (Projectile.new pa (ofInt pz)) t c
  | .calculator j => ∀ t c, K j.proj t c
  | .reset | .set_c_defaults _ => True
  | .set_default_config c => F c.scattering_factor

/-- The response of a call, without the state it leaves. -/
def Call.respond (env : Env α) (call : Call α) (w : World α) : M (Response α) :=
  (call.run env w).map Prod.fst

/-- The state of a fresh process in which the globals other than the cache have the values they
have in `w`. -/
def World.fresh (w : World α) : World α := { w with storage := .init }

/-- All responses of a sequence of calls. -/
def respondAll (env : Env α) : List (Call α) → World α → M (List (Response α))
  | [], _ => .ok []
  | c :: cs, w => do
    let r ← c.run env w
    let rs ← respondAll env cs r.2
    return r.1 :: rs

/-- The keys other than that of `Projectile()`, `Material()`, `Config()`. -/
def NonDefault (p : Projectile α) (t : Material α) (c : Config α) : Prop :=
  Key.default.eq ⟨p, t, c⟩ = false

/-- Factors in `F` that are within the tolerance of `Config ==` (catima.cpp:26) are equal. -/
def Separated (F : α → Prop) : Prop :=
  ∀ a b, F a → F b → (Scalar.fabs (a - b) >? 1.0e-3) = false → a = b

/-- Laws of `==` on the number type that the comparison of executions needs; both hold for `ℝ`;
for doubles the first one except for `0.0 == -0.0`. -/
structure EqLaws (α : Type) [Scalar α] : Prop where
  beqEq : BeqEq α
  two : Scalar.beq (2.0 : α) 0.0 = false

end Catima
