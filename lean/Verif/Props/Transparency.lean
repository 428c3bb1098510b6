import Verif.Lemmas.Lockstep

/-!
# C08, C13-C15, C19: library calls and the cache

All theorems hold for every number type with the operations of `Scalar`; those that compare
executions need the two laws `EqLaws`.
-/

set_option maxRecDepth 8000

namespace Catima
variable {α : Type} [Scalar α]

/-- C08: 60 slots and an index between 0 and 60 after every history of library calls. -/
theorem api_cache_shape (env : Env α) (w : World α) (h : ReachableW env w) :
    w.storage.getN = 60 ∧ w.storage.index ≤ 60 :=
  reachable_shape (reachableW_reachable env w h)

/-- The cache theorems of `Props/Cache` apply after every history of library calls: the cache is
then one that cache operations with the library's fill function produce. -/
theorem api_cache_reachable (env : Env α) (w : World α) (h : ReachableW env w) :
    Reachable (Storage.computeDP env) w.storage ∧ Compute.Faithful (Storage.computeDP env) :=
  ⟨reachableW_reachable env w h, computeDP_faithful env⟩

/-- C13: after any history, every call whose keys are not the default key answers as in a fresh
process: same fault, or the same value in every field except possibly the angular ones
(`sigma_a`; for the total of several layers `sigma_a`, `sigma_x`, `cov`). -/
theorem cache_transparent (hl : EqLaws α) (env : Env α) (w : World α) (h : ReachableW env w)
    (call : Call α) (hc : call.Within NonDefault (fun _ => True)) :
    ERel (RespEq env env False) (call.respond env w) (call.respond env w.fresh) := by
  obtain ⟨cs, hcs⟩ := h
  exact transparent_core hl env (fun _ => True) trivial False False.elim cs w
    (fun c _ => within_true c) hcs call hc

/-- C14, the part that holds: if all scattering factors used so far (and the initial 1.0) are
pairwise equal or further apart than the tolerance of `Config ==`, the angular fields are those of
a fresh process too.  Missing: factors within the tolerance, see `angular_not_transparent`. -/
theorem angular_transparent_partial (hl : EqLaws α) (env : Env α) (F : α → Prop) (h1 : F 1.0)
    (hF : Separated F) (cs : List (Call α)) (w : World α)
    (hcs : ∀ c ∈ cs, c.Within (fun _ _ _ => True) F) (hr : runCalls env cs .init = .ok w)
    (call : Call α) (hc : call.Within NonDefault F) :
    ERel (RespEq env env True) (call.respond env w) (call.respond env w.fresh) :=
  transparent_core hl env F h1 True (fun _ => hF) cs w hcs hr call hc

/-- C14: with any scattering model other than the default one, `calculate` does not read the
cached angular table and its whole result is history-independent, whatever the factors. -/
theorem angular_transparent_other_models (hl : EqLaws α) (env : Env α) (w : World α)
    (h : ReachableW env w) (p : Projectile α) (t : Material α) (c : Config α)
    (hk : NonDefault p t c) (hs : c.scattering ≠ 255) :
    (calculate env p t c w).map Prod.fst = (calculate env p t c w.fresh).map Prod.fst := by
  obtain ⟨cs, hcs⟩ := h
  have hinv := history_inv env (fun _ => True) trivial cs w (fun c _ => within_true c) hcs
  have := calculate_rel (pair_sim hl env env.storeSplines (fun _ => True)) hk trivial w w.fresh
    ⟨rfl, rfl, trivial, hinv.1, cacheInv_init _ _⟩
  rw [withStore_self] at this
  cases c1 : calculate env p t c w <;> cases c2 : calculate env p t c w.fresh <;> rw [c1, c2] at this
  · exact congrArg Except.error this
  · exact this.elim
  · exact this.elim
  · exact congrArg Except.ok (this.1.2 (.inr hs))

/-- C15: the three tables do not depend on the energy of the projectile, nor on the density or
thickness of the material (and neither does a fault). -/
theorem tables_independent (env : Env α) (p : Projectile α) (t : Material α) (c : Config α)
    (T rho th : α) :
    ERel (fun d d' => d.range = d'.range ∧ d.range_straggling = d'.range_straggling ∧
        d.angular_variance = d'.angular_variance)
      (calculate_DataPoint env (p.withT T) ((t.set_density rho).set_thickness th) c)
      (calculate_DataPoint env p t c) := by
  have := tables_rel (env := env) (b := env.storeSplines) (p := p.withT T) (p' := p)
    (t := (t.set_density rho).set_thickness th) (t' := t) (c := c) (c' := c)
    ⟨rfl, rfl, rfl, rfl, rfl, rfl, rfl, rfl, rfl, rfl, rfl⟩
  rw [withStore_self] at this
  exact this.mono fun d d' h => ⟨h.1.1, h.1.2.1, h.1.2.2.2 rfl⟩

/-- C19: the builds with and without `STORE_SPLINES` give the same responses (same fault at the
same call, or all values equal, angular ones included) to every sequence of calls that does not use
the default key. -/
theorem store_splines_equiv (hl : EqLaws α) (env env' : Env α) (he : env.Alike env')
    (cs : List (Call α)) (hcs : ∀ c ∈ cs, c.Within NonDefault (fun _ => True)) :
    ERel (List.Forall₂ (RespEq env env' True)) (respondAll env cs .init)
      (respondAll env' cs .init) := by
  rw [he.eq]
  have key : ∀ (cs : List (Call α)) (w w' : World α),
      (∀ c ∈ cs, c.Within NonDefault (fun _ => True)) → Lock env env'.storeSplines w w' →
      ERel (List.Forall₂ (RespEq env (env.withStore env'.storeSplines) True)) (respondAll env cs w)
        (respondAll (env.withStore env'.storeSplines) cs w') := by
    intro cs
    induction cs with
    | nil => exact fun _ _ _ _ => List.Forall₂.nil
    | cons c cs ih =>
      intro w w' hc hS
      refine (lock_call hl env _ c (hc c (by simp)) w w' hS).bind fun r r' hr => ?_
      exact (ih r.2 r'.2 (fun x hx => hc x (by simp [hx])) hr.2).bind fun rs rs' hrs =>
        .pure (.cons hr.1 hrs)
  exact key cs _ _ hcs (lock_init _ _)

/-- The laws hold for the real numbers. -/
theorem eqLaws_real : EqLaws ℝ := ⟨beqEq_real, by
  rw [beq_real_false]
  norm_num⟩

/-- `Projectile(1,1)` on carbon with default configuration is within the hypotheses. -/
example : (Call.calculate (⟨1, 1, 1, 10⟩ : Projectile ℝ) ⟨2, 1, 12, 0, [⟨12, 6, 1⟩]⟩ .default).Within
    NonDefault (fun x => x = 1.0 ∨ x = 2.0) := by
  refine ⟨?_, .inl rfl⟩
  simp [NonDefault, Key.eq, Key.default, Projectile.eq, Projectile.default]
  intro h
  norm_num at h

/-- Two separated factors. -/
example : Separated (fun x : ℝ => x = 1.0 ∨ x = 2.0) := by
  rintro a b (rfl | rfl) (rfl | rfl) h
  · rfl
  · rw [lt_real_false, fabs_real] at h
    norm_num [abs_of_neg] at h
  · rw [lt_real_false, fabs_real] at h
    norm_num at h
  · rfl

end Catima
