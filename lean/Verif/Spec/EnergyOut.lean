import Verif.Model.Scalar

/-!
# The loop of `energy_out` without a bound on the number of turns

Transcribed from `/repo/src/catima.cpp:213-224` for any range function `f` and slope `f'`; nothing
here limits how often the loop may turn.
-/

namespace Catima
variable {α : Type} [Scalar α]

/-- One turn of `while(1)` from `(e, dedx, counter)`: the value returned, or the next state. -/
def loopTurn (debug : Bool) (f f' : α → M α) (range thickness : α) :
    α × α × Nat → M (α ⊕ (α × α × Nat)) := fun (e, dedx, counter) => do
  let r := range - (← f e) - thickness
  if Scalar.fabs r <? 1.0e-5 then return .inl e
  let e := e - (-r * dedx)
  if e <? 1.0e-3 then return .inl 0.0
  let dedx := 1.0 / (← f' e)
  let counter := counter + 1
  cassert debug (decide (counter ≤ 100))
  if 100 < counter then return .inl (-1.0)
  return .inr (e, dedx, counter)

/-- `LoopRun debug f f' range th s n r`: from state `s` the loop is left in its `n`-th turn, with
result `r`. -/
inductive LoopRun (debug : Bool) (f f' : α → M α) (range thickness : α) :
    α × α × Nat → Nat → M α → Prop
  | value {s x} : loopTurn debug f f' range thickness s = .ok (.inl x) →
      LoopRun debug f f' range thickness s 1 (.ok x)
  | fault {s e} : loopTurn debug f f' range thickness s = .error e →
      LoopRun debug f f' range thickness s 1 (.error e)
  | next {s s' n r} : loopTurn debug f f' range thickness s = .ok (.inr s') →
      LoopRun debug f f' range thickness s' n r → LoopRun debug f f' range thickness s (n + 1) r

end Catima
