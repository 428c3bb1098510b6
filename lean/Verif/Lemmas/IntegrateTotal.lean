import Verif.Lemmas.Run
import Verif.Lemmas.Basic
import Verif.Spec.Quadrature
import Verif.Model.Integrators

/-!
# The Gauss-Legendre integrator in any arithmetic
-/

namespace Catima

variable {α : Type} [Scalar α]

/-- The value with which the loop of `integrate` begins. -/
def glStart (d : GLData) (f : α → M α) (p q : α) : M α :=
  if d.order % 2 = 1 then
    match d.nodes (α := α) with
    | [] => .error .outOfBounds
    | (x0, w0) :: _ => f (p * x0 + q) >>= fun v => .ok ((0.0 : α) + w0 * v)
  else .ok 0.0

theorem integrate_start (d : GLData) (f : α → M α) (a b : α) :
    d.integrate f a b = glStart d f (0.5 * (b - a)) (0.5 * (b + a)) >>= fun r0 =>
      ((d.nodes (α := α)).drop (d.order % 2)).foldlM (GLData.step f (0.5 * (b - a)) (0.5 * (b + a))) r0 >>=
        fun r => .ok (0.5 * (b - a) * r) := by
  unfold GLData.integrate glStart
  dsimp only
  by_cases ho : d.order % 2 = 1
  · rw [if_pos ho, if_pos ho]
    cases hn : d.nodes (α := α) with
    | nil => rfl
    | cons e l =>
      simp only
      cases f (0.5 * (b - a) * e.1 + 0.5 * (b + a)) <;> rfl
  · rw [if_neg ho, if_neg ho]
    rfl

/-- The integral of a function that is defined everywhere is defined. -/
theorem integrate_total (d : GLData) (hd : d ∈ GLData.supported) (f : α → α) (a b : α) :
    ∃ v, d.integrate (fun x => .ok (f x)) a b = .ok v := by
  have hne : d.nodes (α := α) ≠ [] := by
    have : ∀ d ∈ GLData.supported, d.x.zip d.w ≠ [] := by decide +kernel
    unfold GLData.nodes
    simpa using this d hd
  have hfold : ∀ (p q : α) (l : List (α × α)) (r : α),
      ∃ v, l.foldlM (GLData.step (fun x => .ok (f x)) p q) r = .ok v := by
    intro p q l
    induction l with
    | nil => intro r; exact ⟨r, rfl⟩
    | cons e l ih => intro r; rw [List.foldlM_cons]; exact ih _
  rw [integrate_start]
  have h0 : ∃ r, glStart d (fun x => .ok (f x)) (0.5 * (b - a)) (0.5 * (b + a)) = .ok r := by
    unfold glStart
    split_ifs
    · cases hn : d.nodes (α := α) with
      | nil => exact absurd hn hne
      | cons e l => exact ⟨_, rfl⟩
    · exact ⟨_, rfl⟩
  obtain ⟨r, hr⟩ := h0
  rw [hr]
  simp only [bind_ok]
  obtain ⟨v, hv⟩ := hfold (0.5 * (b - a)) (0.5 * (b + a)) ((d.nodes (α := α)).drop (d.order % 2)) r
  rw [hv]
  exact ⟨_, rfl⟩

end Catima
