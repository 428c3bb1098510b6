import Verif.Spec.Transparency

/-!
# Relating two executions
-/

set_option linter.unusedSectionVars false

namespace Catima
variable {α : Type} [Scalar α]

/-! ## Outcomes -/

section ERel
variable {β γ β' γ' : Type}

theorem ERel.ok {R : β → γ → Prop} {b : β} {c : γ} (h : R b c) :
    ERel R (.ok b : M β) (.ok c : M γ) := h

theorem ERel.pure {R : β → γ → Prop} {b : β} {c : γ} (h : R b c) :
    ERel R (Pure.pure b : M β) (Pure.pure c : M γ) := h

theorem ERel.error {R : β → γ → Prop} (e : Fault) : ERel R (.error e : M β) (.error e : M γ) := rfl

theorem ERel.refl (x : M β) : ERel Eq x x := by
  cases x <;> rfl

theorem ERel.of_eq {x y : M β} (h : x = y) : ERel Eq x y := h ▸ ERel.refl x

theorem ERel.eq {x y : M β} (h : ERel Eq x y) : x = y := by
  cases x <;> cases y <;> first | exact h.elim | (cases h; rfl)

theorem ERel.mono {R R' : β → γ → Prop} (hR : ∀ b c, R b c → R' b c) {x : M β} {y : M γ}
    (h : ERel R x y) : ERel R' x y := by
  cases x <;> cases y <;> first | exact h.elim | exact h | exact hR _ _ h

theorem ERel.bind {R : β → γ → Prop} {R' : β' → γ' → Prop} {x : M β} {y : M γ} {f : β → M β'}
    {g : γ → M γ'} (h : ERel R x y) (hf : ∀ b c, R b c → ERel R' (f b) (g c)) :
    ERel R' (x >>= f) (y >>= g) := by
  cases x <;> cases y
  · cases h; exact rfl
  · exact h.elim
  · exact h.elim
  · exact hf _ _ h

theorem ERel.and {R R' : β → γ → Prop} {x : M β} {y : M γ} (h : ERel R x y) (h' : ERel R' x y) :
    ERel (fun b c => R b c ∧ R' b c) x y := by
  cases x <;> cases y <;> first | exact h.elim | exact h | exact ⟨h, h'⟩

/-- Same fault or both values. -/
abbrev Sh {β γ : Type} : M β → M γ → Prop := ERel (fun _ _ => True)

theorem foldlM_rel {σ : Type} {R : β → γ → Prop} (l : List σ) (f : β → σ → M β) (g : γ → σ → M γ)
    (hf : ∀ b c s, R b c → ERel R (f b s) (g c s)) {b : β} {c : γ} (h : R b c) :
    ERel R (l.foldlM f b) (l.foldlM g c) := by
  induction l generalizing b c with
  | nil => exact h
  | cons s l ih =>
    rw [List.foldlM_cons, List.foldlM_cons]
    exact (hf b c s h).bind fun b' c' h' => ih h'

theorem mapM_rel {σ : Type} {R : β → γ → Prop} (l : List σ) (f : σ → M β) (g : σ → M γ)
    (hf : ∀ s ∈ l, ERel R (f s) (g s)) : ERel (List.Forall₂ R) (l.mapM f) (l.mapM g) := by
  induction l with
  | nil => exact List.Forall₂.nil
  | cons s l ih =>
    rw [List.mapM_cons, List.mapM_cons]
    refine (hf s (by simp)).bind fun b c hbc => ?_
    refine (ih (fun x hx => hf x (by simp [hx]))).bind fun bs cs h => ?_
    exact List.Forall₂.cons hbc h

end ERel

/-! ## Library calls -/

section Rel
variable {β γ β' γ' : Type}

/-- From related states, both calls fault equally, or return related values in related states. -/
def Rel (S : World α → World α → Prop) (R : β → γ → Prop) (x : Api α β) (y : Api α γ) : Prop :=
  ∀ w w', S w w' → ERel (fun a b => R a.1 b.1 ∧ S a.2 b.2) (x w) (y w')

variable {S : World α → World α → Prop}

theorem Rel.pure {R : β → γ → Prop} {b : β} {c : γ} (h : R b c) :
    Rel S R (Pure.pure b : Api α β) (Pure.pure c : Api α γ) := fun _ _ hS => ⟨h, hS⟩

theorem Rel.bind {R : β → γ → Prop} {R' : β' → γ' → Prop} {x : Api α β} {y : Api α γ}
    {f : β → Api α β'} {g : γ → Api α γ'} (h : Rel S R x y)
    (hf : ∀ b c, R b c → Rel S R' (f b) (g c)) : Rel S R' (x >>= f) (y >>= g) := by
  intro w w' hS
  exact (h w w' hS).bind fun a b hab => hf a.1 b.1 hab.1 a.2 b.2 hab.2

theorem Rel.mono {R R' : β → γ → Prop} (hR : ∀ b c, R b c → R' b c) {x : Api α β} {y : Api α γ}
    (h : Rel S R x y) : Rel S R' x y := fun w w' hS =>
  (h w w' hS).mono fun _ _ hab => ⟨hR _ _ hab.1, hab.2⟩

theorem Rel.pureM {R : β → γ → Prop} {x : M β} {y : M γ} (h : ERel R x y) :
    Rel S R (pureM x : Api α β) (pureM y : Api α γ) := fun _ _ hS =>
  h.bind fun _ _ hbc => ⟨hbc, hS⟩

theorem Rel.pureM_eq {x y : M β} (h : x = y) : Rel S Eq (Catima.pureM x : Api α β) (Catima.pureM y) :=
  .pureM (.of_eq h)

theorem Rel.get : Rel S S (MonadState.get : Api α (World α)) (MonadState.get : Api α (World α)) :=
  fun _ _ hS => ⟨hS, hS⟩

theorem Rel.modify {f : World α → World α} (h : ∀ w w', S w w' → S (f w) (f w')) :
    Rel S Eq (_root_.modify f : Api α Unit) (_root_.modify f : Api α Unit) :=
  fun w w' hS => ⟨rfl, h w w' hS⟩

theorem Rel.ite {R : β → γ → Prop} {b : Prop} [Decidable b] {x x' : Api α β} {y y' : Api α γ}
    (h : b → Rel S R x y) (h' : ¬ b → Rel S R x' y') :
    Rel S R (if b then x else x') (if b then y else y') := by
  by_cases hb : b
  · simpa [hb] using h hb
  · simpa [hb] using h' hb

end Rel

end Catima
