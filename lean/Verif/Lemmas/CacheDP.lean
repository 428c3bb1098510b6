import Verif.Spec.Cache

/-!
# The library's fill function is faithful
-/

set_option linter.unusedSectionVars false

namespace Catima
variable {α : Type} [Scalar α]

theorem foldlM_ne_nil {β γ : Type} (l : List β) (f : List γ → β → M (List γ)) (a : List γ)
    (hf : ∀ a b c, f a b = .ok c → c ≠ []) (ha : a ≠ []) {r : List γ}
    (h : l.foldlM f a = .ok r) : r ≠ [] := by
  induction l generalizing a with
  | nil => cases h; exact ha
  | cons b l ih =>
    rw [List.foldlM_cons] at h
    cases hb : f a b with
    | error e => rw [hb] at h; cases h
    | ok c => rw [hb] at h; exact ih c (hf a b c hb) h

theorem cumulative_ne_nil (n : Nat) (A : α) (tab : EnergyTable α) (f : α → M α) {r : List α}
    (h : cumulative n A tab f = .ok r) : r ≠ [] := by
  refine foldlM_ne_nil _ _ _ ?_ (by simp) h
  intro a b c hc
  simp only [bind, Except.bind] at hc
  split at hc
  · cases hc
  · cases hc; simp

/-- The library's fill function stores the key and non-empty tables. -/
theorem computeDP_faithful (env : Env α) : Compute.Faithful (Storage.computeDP env) := by
  intro p t c d h
  simp only [Storage.computeDP, calculate_DataPoint, bind, Except.bind] at h
  split at h
  · cases h
  · rename_i d' hd'
    split at hd'
    · cases hd'
    · rename_i r hr
      have hr := cumulative_ne_nil _ _ _ _ hr
      split at hd'
      · cases hd'
      · split at hd'
        · cases hd'
        · cases hd'
          simp only [DataPoint.withSplines] at h
          split at h
          · simp only [bind, Except.bind] at h
            split at h
            · cases h
            · split at h
              · cases h
              · split at h
                · cases h
                · cases h
                  exact ⟨rfl, hr⟩
          · cases h
            exact ⟨rfl, hr⟩

theorem find_set {β : Type} (l : List β) (p : β → Bool) (i : Nat) (hi : i < l.length) (d : β)
    (hl : ∀ x ∈ l, p x = false) (hd : p d = true) : (l.set i d).find? p = some d := by
  induction l generalizing i with
  | nil => simp at hi
  | cons a l ih =>
    cases i with
    | zero => simp [hd]
    | succ i =>
      rw [List.set_cons_succ, List.find?_cons, hl a (by simp)]
      exact ih i (by simpa using hi) (fun x hx => hl x (by simp [hx]))

end Catima
