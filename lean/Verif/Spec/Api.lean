import Verif.Model.CWrapper
import Verif.Model.Calculator
import Verif.Spec.Cache

/-!
# Histories of library calls
-/

namespace Catima
variable {α : Type} [Scalar α]

/-- Every entry point that reads or writes the globals: the C++ functions of `catima.h`,
`reactions.h` and `storage.h`, the C functions of `cwrapper.h`, the calculator program, and
assignments to the globals `default_config` and `catima_defaults`. -/
inductive Call (α : Type) where
  | range (p : Projectile α) (t : Material α) (c : Config α)
  | dedx_from_range (p : Projectile α) (t : Material α) (c : Config α)
  | dedx_from_range_vec (p : Projectile α) (T : List α) (t : Material α) (c : Config α)
  | range_straggling (p : Projectile α) (T : α) (t : Material α) (c : Config α)
  | range_variance (p : Projectile α) (T : α) (t : Material α) (c : Config α)
  | domega2de (p : Projectile α) (T : α) (t : Material α) (c : Config α)
  | energy_out (p : Projectile α) (t : Material α) (c : Config α)
  | energy_out_vec (p : Projectile α) (T : List α) (t : Material α) (c : Config α)
  | angular_variance (p : Projectile α) (t : Material α) (c : Config α) (order : Int)
  | angular_straggling (p : Projectile α) (t : Material α) (c : Config α)
  | angular_straggling_from_E (p : Projectile α) (Tout : α) (t : Material α) (c : Config α)
  | energy_straggling_from_E (p : Projectile α) (T Tout : α) (t : Material α) (c : Config α)
  | w_magnification (p : Projectile α) (Ein : α) (t : Material α) (c : Config α)
  | nonreaction_rate (p : Projectile α) (t : Material α) (c : Config α)
  | calculate (p : Projectile α) (t : Material α) (c : Config α)
  | calculate_layers (p : Projectile α) (ps : Phasespace α) (l : Layers α) (c : Config α)
  | calculate_simple (pa : α) (pz : Int) (T ta tz thickness density : α)
  | get_data (p : Projectile α) (t : Material α) (c : Config α)
  | add (p : Projectile α) (t : Material α) (c : Config α)
  | reset
  | c_calculate (pa : α) (pz : Int) (T ta tz thickness density : α)
  | c_Eout (pa : α) (pz : Int) (T ta tz thickness density : α)
  | c_range (pa : α) (pz : Int) (T ta tz : α)
  | c_range_straggling (pa : α) (pz : Int) (T ta tz : α)
  | c_angular_straggling_from_E (pa : α) (pz : Int) (Tin Tout ta tz : α)
  | c_energy_straggling_from_E (pa : α) (pz : Int) (Tin Tout ta tz : α)
  | c_nonreaction_rate (pa : α) (pz : Int) (T ta tz thickness : α)
  | calculator (j : CalcInput α)
  | set_default_config (c : Config α)
  | set_c_defaults (z : Nat)

/-- What a call returns. -/
inductive Response (α : Type) where
  | unit
  | num (x : α)
  | nums (xs : List α)
  | pair (x y : α)
  | result (r : Result α)
  | multi (r : MultiResult α)
  | data (d : DataPoint α)
  | calc (o : CalcOutput α)

/-- Run one call. -/
def Call.run (env : Env α) : Call α → Api α (Response α)
  | .range p t c => do return .num (← Catima.range env p t c)
  | .dedx_from_range p t c => do return .num (← Catima.dedx_from_range env p t c)
  | .dedx_from_range_vec p T t c => do return .nums (← Catima.dedx_from_range_vec env p T t c)
  | .range_straggling p T t c => do return .num (← Catima.range_straggling env p T t c)
  | .range_variance p T t c => do return .num (← Catima.range_variance env p T t c)
  | .domega2de p T t c => do return .num (← Catima.domega2de env p T t c)
  | .energy_out p t c => do return .num (← Catima.energy_out env p t c)
  | .energy_out_vec p T t c => do return .nums (← Catima.energy_out_vec env p T t c)
  | .angular_variance p t c o => do return .num (← Catima.angular_variance env p t c o)
  | .angular_straggling p t c => do return .num (← Catima.angular_straggling env p t c)
  | .angular_straggling_from_E p e t c => do
      return .num (← Catima.angular_straggling_from_E env p e t c)
  | .energy_straggling_from_E p T e t c => do
      return .num (← Catima.energy_straggling_from_E env p T e t c)
  | .w_magnification p e t c => do
      let r ← Catima.w_magnification env p e t c
      return .pair r.1 r.2
  | .nonreaction_rate p t c => do return .num (← Catima.nonreaction_rate env p t c)
  | .calculate p t c => do return .result (← Catima.calculate env p t c)
  | .calculate_layers p ps l c => do return .multi (← Catima.calculate_layers env p ps l c)
  | .calculate_simple pa pz T ta tz th rho => do
      return .result (← Catima.calculate_simple env pa pz T ta tz th rho)
  | .get_data p t c => do return .data (← Catima.get_data env p t c)
  | .add p t c => fun w => do
      let s ← w.storage.addWith (Storage.computeDP env) p t c
      return (.unit, { w with storage := s })
  | .reset => fun w => .ok (.unit, { w with storage := w.storage.reset })
  | .c_calculate pa pz T ta tz th rho => do
      return .result (← Catima.catima_calculate env pa pz T ta tz th rho)
  | .c_Eout pa pz T ta tz th rho => do return .num (← Catima.catima_Eout env pa pz T ta tz th rho)
  | .c_range pa pz T ta tz => do return .num (← Catima.catima_range env pa pz T ta tz)
  | .c_range_straggling pa pz T ta tz => do
      return .num (← Catima.catima_range_straggling env pa pz T ta tz)
  | .c_angular_straggling_from_E pa pz Tin Tout ta tz => do
      return .num (← Catima.catima_angular_straggling_from_E env pa pz Tin Tout ta tz)
  | .c_energy_straggling_from_E pa pz Tin Tout ta tz => do
      return .num (← Catima.catima_energy_straggling_from_E env pa pz Tin Tout ta tz)
  | .c_nonreaction_rate pa pz T ta tz th => do
      return .num (← Catima.catima_nonreaction_rate env pa pz T ta tz th)
  | .calculator j => do return .calc (← Catima.calculator env j)
  | .set_default_config c => fun w => .ok (.unit, { w with default_config := c })
  | .set_c_defaults z => fun w => .ok (.unit, { w with c_defaults_z_effective := z })

/-- The state after a history of calls, if none of them faulted. -/
def runCalls (env : Env α) : List (Call α) → World α → M (World α)
  | [], w => .ok w
  | c :: cs, w => do
    let r ← c.run env w
    runCalls env cs r.2

/-- States a program can be in: reached from program start by some history of calls. -/
def ReachableW (env : Env α) (w : World α) : Prop := ∃ h, runCalls env h .init = .ok w

end Catima
