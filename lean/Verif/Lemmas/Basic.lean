import Verif.Lemmas.RealScalar
import Verif.Model.Structures

/-!
# Helper lemmas: array reads, folds in `Except`
-/

namespace Catima

theorem rd_nat {β : Type} (xs : List β) (i : Nat) (h : i < xs.length) :
    rd xs (i : Int) = .ok xs[i] := by
  have h1 : ¬ ((i : Int) < 0) := by omega
  simp [rd, h1, h]

theorem rd_neg {β : Type} (xs : List β) (i : Int) (h : i < 0) : rd xs i = .error .outOfBounds := by
  simp [rd, h]

theorem rd_ge {β : Type} (xs : List β) (i : Int) (h : (xs.length : Int) ≤ i) :
    rd xs i = .error .outOfBounds := by
  unfold rd
  split
  · rfl
  · rw [List.getElem?_eq_none (by omega)]

/-- A read succeeds exactly for an index inside the array. -/
theorem rd_ok_iff {β : Type} (xs : List β) (i : Int) (v : β) :
    rd xs i = .ok v ↔ ∃ h : 0 ≤ i ∧ i.toNat < xs.length, v = xs[i.toNat]'h.2 := by
  unfold rd
  split
  · rename_i h
    constructor
    · intro h'; cases h'
    · rintro ⟨⟨h1, _⟩, _⟩; omega
  · rename_i h
    constructor
    · intro h'
      split at h'
      · rename_i w hw
        cases h'
        obtain ⟨h2, h3⟩ := List.getElem?_eq_some_iff.mp hw
        exact ⟨⟨by omega, h2⟩, h3.symm⟩
      · cases h'
    · rintro ⟨⟨h1, h2⟩, h3⟩
      rw [List.getElem?_eq_getElem h2, h3]

theorem rd_isOk_iff {β : Type} (xs : List β) (i : Int) :
    (∃ v, rd xs i = .ok v) ↔ 0 ≤ i ∧ i < xs.length := by
  constructor
  · rintro ⟨v, hv⟩
    obtain ⟨⟨h1, h2⟩, _⟩ := (rd_ok_iff _ _ _).mp hv
    omega
  · rintro ⟨h1, h2⟩
    exact ⟨xs[i.toNat]'(by omega), (rd_ok_iff _ _ _).mpr ⟨⟨h1, by omega⟩, rfl⟩⟩

theorem mapM_ok {β γ : Type} (f : β → M γ) (g : β → γ) (xs : List β)
    (h : ∀ x ∈ xs, f x = .ok (g x)) : xs.mapM f = .ok (xs.map g) := by
  induction xs with
  | nil => rfl
  | cons x xs ih =>
    rw [List.mapM_cons, h x (by simp), ih (fun y hy => h y (by simp [hy]))]
    rfl

/-- Reading all indices of an array one by one gives the array. -/
theorem mapM_rd {β γ : Type} (xs : List β) (f : β → γ) :
    (List.range xs.length).mapM (fun i : Nat => (rd xs (i : Int)).map f) = .ok (xs.map f) := by
  rcases xs.length.eq_zero_or_pos with h | h
  · have : xs = [] := List.length_eq_zero_iff.mp h
    subst this; rfl
  · have hne : xs ≠ [] := by rintro rfl; simp at h
    have : Inhabited β := ⟨xs.head hne⟩
    rw [mapM_ok _ (fun i => f (xs.getD i default)) _ ?_]
    · congr 1
      apply List.ext_getElem (by simp)
      intro n h1 h2
      have h3 : n < xs.length := by simpa using h1
      simp [h3]
    · intro i hi
      have hi' : i < xs.length := by simpa using hi
      rw [rd_nat _ _ hi']
      simp [Except.map, hi']

@[simp] theorem bind_ok {β γ : Type} (v : β) (f : β → M γ) : ((Except.ok v : M β) >>= f) = f v := rfl
@[simp] theorem bind_error {β γ : Type} (e : Fault) (f : β → M γ) :
    ((Except.error e : M β) >>= f) = .error e := rfl
theorem pure_ok {β : Type} (v : β) : (pure v : M β) = .ok v := rfl

/-- A `foldlM` whose turns all succeed. -/
theorem foldlM_ok {β γ : Type} (f : γ → β → M γ) (F : γ → β → γ) (l : List β)
    (h : ∀ x ∈ l, ∀ r, f r x = .ok (F r x)) (r : γ) : l.foldlM f r = .ok (l.foldl F r) := by
  induction l generalizing r with
  | nil => rfl
  | cons x l ih =>
    rw [List.foldlM_cons, h x (by simp), bind_ok, ih (fun y hy => h y (by simp [hy]))]
    rfl

end Catima
