import Verif.Props.Transparency
import Verif.Props.Cache

/-!
# Helper lemmas: taking apart successful runs
-/

namespace Catima
variable {α : Type} [Scalar α]

theorem ok_bind {β γ : Type} {x : M β} {f : β → M γ} {r : γ} :
    (x >>= f) = .ok r ↔ ∃ a, x = .ok a ∧ f a = .ok r := by
  cases x with
  | error e => simp
  | ok a => simp

theorem ok_pure {β : Type} {a b : β} : (pure a : M β) = .ok b ↔ a = b := by
  simp [pure, Except.pure]

omit [Scalar α] in
theorem api_bind {β γ : Type} {x : Api α β} {f : β → Api α γ} {w w' : World α} {r : γ} :
    (x >>= f) w = .ok (r, w') ↔ ∃ a w1, x w = .ok (a, w1) ∧ f a w1 = .ok (r, w') := by
  show (x w >>= fun s => f s.1 s.2) = _ ↔ _
  rw [ok_bind]
  simp [Prod.exists]

omit [Scalar α] in
theorem api_pure {β : Type} {a b : β} {w w' : World α} :
    (pure a : Api α β) w = .ok (b, w') ↔ a = b ∧ w = w' := by
  show (Except.ok (a, w) : M (β × World α)) = _ ↔ _
  simp

omit [Scalar α] in
theorem api_pureM {β : Type} {x : M β} {b : β} {w w' : World α} :
    (pureM x : Api α β) w = .ok (b, w') ↔ x = .ok b ∧ w = w' := by
  unfold pureM
  rw [ok_bind]
  constructor
  · rintro ⟨a, h, h'⟩
    cases h'
    exact ⟨h, rfl⟩
  · rintro ⟨h, rfl⟩
    exact ⟨b, h, rfl⟩

omit [Scalar α] in
theorem api_get {w w' v : World α} :
    (get : Api α (World α)) w = .ok (v, w') ↔ v = w ∧ w = w' := by
  show (Except.ok (w, w) : M (World α × World α)) = _ ↔ _
  simp only [Except.ok.injEq, Prod.mk.injEq]
  constructor
  · rintro ⟨rfl, rfl⟩; exact ⟨rfl, rfl⟩
  · rintro ⟨rfl, rfl⟩; exact ⟨rfl, rfl⟩

theorem ok_ite {β : Type} {c : Prop} [Decidable c] {x y : M β} {r : β} :
    (if c then x else y) = .ok r ↔ (c ∧ x = .ok r) ∨ (¬ c ∧ y = .ok r) := by
  split <;> simp_all

theorem ok_cassert {d c : Bool} {u : Unit} : cassert d c = .ok u ↔ (d && !c) = false := by
  unfold cassert
  split <;> simp_all

/-- After a query, every query for the same projectile (at any energy), material and configuration
finds the same entry and leaves the state alone. -/
theorem get_again {env : Env α} {w w' : World α} {p : Projectile α} {t : Material α} {c : Config α}
    {d : DataPoint α} (hr : ReachableW env w) (hk : (⟨p, t, c⟩ : Key α).eq ⟨p, t, c⟩ = true)
    (hd : get_data env p t c w = .ok (d, w')) (T : α) :
    get_data env (p.withT T) t c w' = .ok (d, w') := by
  have hR := api_cache_reachable env w hr
  unfold get_data at hd
  rw [ok_bind] at hd
  obtain ⟨⟨d1, s1⟩, h1, h2⟩ := hd
  cases h2
  have := repeated_get _ hR.2 w.storage s1 hR.1 ⟨p, t, c⟩ hk d h1 (Storage.computeDP env)
  have h3 : s1.getWith (Storage.computeDP env) (p.withT T) t c = .ok (d, s1) := by
    unfold Storage.getWith at this ⊢
    have e : Storage.hit (p.withT T) t c = Storage.hit p t c := rfl
    rw [e]
    cases hf : s1.slots.find? (Storage.hit p t c) with
    | some e => rw [hf] at this; exact this
    | none =>
      exfalso
      have hno : ¬ s1.has ⟨p, t, c⟩ := (find_none_iff s1 ⟨p, t, c⟩).mp hf
      rcases getWith_cases (reachable_shape hR.1) (k := ⟨p, t, c⟩) h1 with ⟨h4, _, _, h5⟩ | ⟨h4, h6, h5⟩
      · rw [h5] at hno; exact hno h4
      · refine hno ⟨d, ?_, ?_⟩
        · rw [h5]
          exact List.mem_set (shape_pos (reachable_shape hR.1)) d
        · rw [(hR.2 _ _ _ _ h6).1]; exact hk
  unfold get_data
  show (do
    let (d, s) ← s1.getWith (Storage.computeDP env) (p.withT T) t c
    return (d, (⟨s, w.default_config, w.c_defaults_z_effective⟩ : World α))) = _
  rw [h3]
  rfl

theorem key_refl_real (k : Key ℝ) : k.eq k = true := by
  obtain ⟨p, t, c⟩ := k
  simp only [Key.eq, Bool.and_eq_true, material_eq_iff]
  refine ⟨⟨by simp [Projectile.eq], ?_⟩, ?_⟩
  · norm_num
  · simp only [Config.eq, beq_self_eq_true, Bool.true_and, Bool.not_eq_true']
    rw [lt_real_false, fabs_real]
    norm_num

end Catima
