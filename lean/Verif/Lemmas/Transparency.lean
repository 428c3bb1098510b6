import Verif.Lemmas.Tables
import Verif.Lemmas.CacheDP

/-!
# Cached entries give the same answers as freshly computed ones
-/

set_option linter.unusedSectionVars false
set_option maxRecDepth 8000

namespace Catima
variable {α : Type} [Scalar α]

/-! ## Invariants of single executions -/

theorem withStore_self (env : Env α) : env.withStore env.storeSplines = env := rfl

theorem ERel.rfl_of {β : Type} {R : β → β → Prop} (h : ∀ b, R b b) (x : M β) : ERel R x x := by
  cases x
  · exact ERel.error _
  · exact h _

theorem DataEq.refl (env : Env α) (A : Prop) (d : DataPoint α) : DataEq env env A d d :=
  ⟨rfl, rfl, ERel.rfl_of (fun _ => ⟨⟨rfl, rfl, rfl, rfl, rfl⟩, fun _ => rfl⟩) _⟩

/-- A predicate on states closed under cache operations and changes of the globals holds after
every history of library calls. -/
theorem call_preserves (env : Env α) (F : α → Prop) (P : World α → Prop)
    (hF : ∀ w, P w → F w.default_config.scattering_factor)
    (hg : ∀ w p t c r, P w → F c.scattering_factor →
      w.storage.getWith (Storage.computeDP env) p t c = .ok r → P { w with storage := r.2 })
    (ha : ∀ w p t c s, P w → F c.scattering_factor →
      w.storage.addWith (Storage.computeDP env) p t c = .ok s → P { w with storage := s })
    (hr : ∀ w, P w → P { w with storage := w.storage.reset })
    (call : Call α)
    (hset : ∀ w c, call = .set_default_config c → P w → F c.scattering_factor →
      P { w with default_config := c })
    (hsetD : ∀ w, P w → P (setDefaults w)) (hsetS : ∀ w, P w → P (setScattering w))
    (hsetc : ∀ w z, call = .set_c_defaults z → P w → P { w with c_defaults_z_effective := z })
    (hc : call.Within (fun _ _ _ => True) F) (w : World α) (h : P w)
    (r : Response α × World α) (hrun : call.run env w = .ok r) : P r.2 := by
  have key : Rel (fun w w' => w = w' ∧ P w) (RespEq env env True) (call.run env) (call.run env) := by
    refine call_rel (env := env) (b := env.storeSplines) (A := True) (K := fun _ _ _ => True)
      (F := F) ?_ call ?_ ?_ ?_ ?_ hc
    · refine ⟨?_, fun _ _ _ _ _ => trivial, fun _ _ _ _ _ => trivial, ?_, ?_, ?_, ?_, ?_⟩
      · rintro p t c _ hFc w w' ⟨rfl, hP⟩
        rw [withStore_self]
        cases hgw : w.storage.getWith (Storage.computeDP env) p t c with
        | error e =>
          have : get_data env p t c w = .error e := by simp only [get_data, hgw]; rfl
          rw [this]; exact ERel.error _
        | ok r =>
          have : get_data env p t c w = .ok (r.1, { w with storage := r.2 }) := by
            simp only [get_data, hgw]; rfl
          rw [this]
          exact ⟨.refl _ _ _, rfl, hg w p t c r hP hFc hgw⟩
      · rintro w w' ⟨rfl, _⟩; rfl
      · rintro w w' ⟨rfl, _⟩; rfl
      · rintro w w' ⟨rfl, h⟩; exact hF w h
      · rintro w w' ⟨rfl, h⟩; exact ⟨rfl, hsetD w h⟩
      · rintro w w' ⟨rfl, h⟩; exact ⟨rfl, hsetS w h⟩
    · rintro p t c _ hFc w w' ⟨rfl, hP⟩
      rw [withStore_self]
      cases hgw : w.storage.addWith (Storage.computeDP env) p t c with
      | error e =>
        have : (Call.add p t c).run env w = .error e := by
          show (do let s ← w.storage.addWith (Storage.computeDP env) p t c
                   return (Response.unit, { w with storage := s })) = _
          rw [hgw]; rfl
        rw [this]; exact ERel.error _
      | ok s =>
        have : (Call.add p t c).run env w = .ok (.unit, { w with storage := s }) := by
          show (do let s ← w.storage.addWith (Storage.computeDP env) p t c
                   return (Response.unit, { w with storage := s })) = _
          rw [hgw]; rfl
        rw [this]
        exact ⟨trivial, rfl, ha w p t c s hP hFc hgw⟩
    · rintro w w' ⟨rfl, h⟩; exact ⟨rfl, hr w h⟩
    · rintro w w' c he ⟨rfl, h⟩ hc; exact ⟨rfl, hset w c he h hc⟩
    · rintro w w' z he ⟨rfl, h⟩; exact ⟨rfl, hsetc w z he h⟩
  have := key w w ⟨rfl, h⟩
  rw [hrun] at this
  exact this.2.2

/-- The same for histories. -/
theorem runCalls_preserves (env : Env α) (Q : Call α → Prop) (P : World α → Prop)
    (hstep : ∀ call w r, Q call → P w → call.run env w = .ok r → P r.2) :
    ∀ (cs : List (Call α)) (w w' : World α), (∀ c ∈ cs, Q c) → P w →
      runCalls env cs w = .ok w' → P w'
  | [], w, w', _, h, hr => by cases hr; exact h
  | c :: cs, w, w', hq, h, hr => by
    rw [runCalls] at hr
    cases hc : c.run env w with
    | error e => rw [hc] at hr; cases hr
    | ok r =>
      rw [hc] at hr
      exact runCalls_preserves env Q P hstep cs r.2 w' (fun x hx => hq x (by simp [hx]))
        (hstep c w r (hq c (by simp)) h hc) hr

theorem within_true (call : Call α) : call.Within (fun _ _ _ => True) (fun _ => True) := by
  cases call <;> simp [Call.Within]

/-- The cache of a reachable state is reachable by cache operations. -/
theorem reachableW_reachable (env : Env α) (w : World α) (h : ReachableW env w) :
    Reachable (Storage.computeDP env) w.storage := by
  obtain ⟨cs, hcs⟩ := h
  refine runCalls_preserves env (fun _ => True)
    (fun w => Reachable (Storage.computeDP env) w.storage) ?_ cs _ _ (fun _ _ => trivial) .init hcs
  intro call w r _ hP hr
  refine call_preserves env (fun _ => True) (fun w => Reachable (Storage.computeDP env) w.storage)
    (fun _ _ => trivial) ?_ ?_ ?_ call (fun _ _ _ h _ => h) (fun _ h => h) (fun _ h => h)
    (fun _ _ _ h => h) (within_true _) w hP r hr
  · intro w p t c r hP _ hg
    exact .step hP (.get ⟨p, t, c⟩) (by simp only [CacheOp.run, hg, Except.map])
  · intro w p t c s hP _ hg
    exact .step hP (.add ⟨p, t, c⟩) (by simp only [CacheOp.run, hg])
  · intro w hP
    exact .step hP .reset rfl

/-! ## Interpolators -/

theorem trig_solve_ok (A : Tridiag α) (N : Nat) (b : Nat → α) (h : Scalar.beq (A.d 0) 0.0 = false) :
    ∃ l, A.trig_solve N b = .ok l := by
  unfold Tridiag.trig_solve
  rw [if_neg (by simp [h])]
  dsimp only
  split <;> exact ⟨_, rfl⟩

/-- Interpolators of tables of equal length: same fault or same shape. -/
theorem newSpline_rel (env : Env α) (y y' : List α) (h : y.length = y'.length) :
    ERel (fun s s' => SplShape s s' ∧ (y = y' → s = s')) (newSpline env y) (newSpline env y') := by
  unfold newSpline Spline.new
  by_cases hl : y.length < (energy_table.grid env.calcIndex : Grid α).n
  · rw [if_pos hl, if_pos (h ▸ hl)]
    exact ERel.error _
  · rw [if_neg hl, if_neg (h ▸ hl)]
    have : ∀ (A : Tridiag α) (N : Nat) (b b' : Nat → α),
        ERel (fun l l' => b = b' → l = l') (A.trig_solve N b) (A.trig_solve N b') := by
      intro A N b b'
      by_cases hd : (A.d 0 =? 0.0) = true
      · unfold Tridiag.trig_solve
        rw [if_pos hd, if_pos hd]
        exact ERel.error _
      · obtain ⟨l, h1⟩ := trig_solve_ok A N b (by simpa using hd)
        obtain ⟨l', h2⟩ := trig_solve_ok A N b' (by simpa using hd)
        rw [h1, h2]
        intro hb
        rw [hb, h2] at h1
        cases h1
        rfl
    refine (this _ _ _ _).bind fun l l' hll => .pure ⟨?_, ?_⟩
    · refine ⟨rfl, h, ?_, ?_, ?_⟩ <;> simp [Spline.ofB]
    · intro hy
      subst hy
      rw [hll rfl]

theorem newSpline_ok (hl : EqLaws α) (env : Env α) (y : List α) (h : y.length = max_datapoints) :
    ∃ s, newSpline env y = .ok s := by
  unfold newSpline Spline.new
  rw [if_neg (by rw [h]; exact lt_irrefl max_datapoints)]
  obtain ⟨l, h1⟩ := trig_solve_ok
    (Spline.matrix (energy_table.grid env.calcIndex : Grid α).n (energy_table.grid env.calcIndex : Grid α).val env.junk)
    (energy_table.grid env.calcIndex : Grid α).n
    (Spline.rhs (energy_table.grid env.calcIndex : Grid α).n (energy_table.grid env.calcIndex).val (fun i => y.getD i 0.0))
    hl.two
  rw [h1]
  exact ⟨_, rfl⟩

/-- What `computeDP` stores, read through the accessors. -/
theorem computeDP_view (hl : EqLaws α) (env : Env α) (p : Projectile α) (t : Material α)
    (c : Config α) :
    ERel (fun d e => get_range_spline env e = newSpline env d.range ∧
        get_range_straggling_spline env e = newSpline env d.range_straggling ∧
        get_angular_variance_spline env e = newSpline env d.angular_variance)
      (calculate_DataPoint env p t c) (Storage.computeDP env p t c) := by
  have hr := tables_rel (env := env) (b := env.storeSplines) (p := p) (t := t) (c := c) (p' := p)
    (t' := t) (c' := c) ⟨rfl, rfl, rfl, rfl, rfl, rfl, rfl, rfl, rfl, rfl, rfl⟩
  rw [withStore_self] at hr
  unfold Storage.computeDP
  cases hd : calculate_DataPoint env p t c with
  | error e => exact ERel.error _
  | ok d =>
    rw [hd] at hr
    obtain ⟨_, h1, h2, h3⟩ := hr
    simp only [bind, Except.bind]
    unfold DataPoint.withSplines get_range_spline get_range_straggling_spline
      get_angular_variance_spline
    by_cases hs : env.storeSplines = true
    · obtain ⟨s1, e1⟩ := newSpline_ok hl env _ h1
      obtain ⟨s2, e2⟩ := newSpline_ok hl env _ h2
      obtain ⟨s3, e3⟩ := newSpline_ok hl env _ h3
      rw [if_pos hs, e1, e2, e3]
      refine ⟨?_, ?_, ?_⟩ <;> · rw [if_pos hs]; simp only [e1, e2, e3]
    · rw [if_neg hs]
      refine ⟨?_, ?_, ?_⟩ <;> rw [if_neg hs]

/-- Computed entries of agreeing queries. -/
theorem computeDP_rel (hl : EqLaws α) {env : Env α} {b : Bool} {p p' : Projectile α}
    {t t' : Material α} {c c' : Config α} (h : Agree p p' t t' c c') (A : Prop)
    (hA : A → c.scattering_factor = c'.scattering_factor) :
    ERel (DataEq env (env.withStore b) A) (Storage.computeDP env p t c)
      (Storage.computeDP (env.withStore b) p' t' c') := by
  have h0 := tables_rel (env := env) (b := b) h
  have h1 := computeDP_view hl env p t c
  have h2 := computeDP_view hl (env.withStore b) p' t' c'
  cases e0 : calculate_DataPoint env p t c <;>
    cases e0' : calculate_DataPoint (env.withStore b) p' t' c' <;> rw [e0, e0'] at h0
  · rw [e0] at h1
    rw [e0'] at h2
    cases e1 : Storage.computeDP env p t c <;> rw [e1] at h1
    · cases e2 : Storage.computeDP (env.withStore b) p' t' c' <;> rw [e2] at h2
      · have a : _ = _ := h0
        have b : _ = _ := h1
        have c : _ = _ := h2
        subst a b c
        exact ERel.error _
      · exact h2.elim
    · exact h1.elim
  · exact h0.elim
  · exact h0.elim
  · rw [e0] at h1
    rw [e0'] at h2
    cases e1 : Storage.computeDP env p t c <;> rw [e1] at h1
    · exact h1.elim
    · cases e2 : Storage.computeDP (env.withStore b) p' t' c' <;> rw [e2] at h2
      · exact h2.elim
      · obtain ⟨⟨a1, a2, a3, a4⟩, _⟩ := h0
        obtain ⟨b1, b2, b3⟩ := h1
        obtain ⟨c1, c2, c3⟩ := h2
        refine ⟨?_, ?_, ?_⟩
        · rw [b1, c1, a1]; rfl
        · rw [b2, c2, a2]; rfl
        · rw [b3, c3]
          exact (newSpline_rel env _ _ a3).mono fun s s' hs => ⟨hs.1, fun hh => hs.2 (a4 (hA hh))⟩

/-! ## The invariant of two executions -/

/-- Every entry is the default one or was computed from its own key, with a scattering factor in
`F`. -/
def CacheInv (env : Env α) (F : α → Prop) (s : Storage α) : Prop :=
  Shape s ∧ ∀ e ∈ s.slots, e = .default ∨
    (Storage.computeDP env e.p e.m e.config = .ok e ∧ F e.config.scattering_factor)

theorem cacheInv_init (env : Env α) (F : α → Prop) : CacheInv env F .init :=
  ⟨shape_init, fun _ he => .inl (mem_init he)⟩

theorem cacheInv_set {env : Env α} {F : α → Prop} {s : Storage α} (h : CacheInv env F s)
    {p : Projectile α} {t : Material α} {c : Config α} (hF : F c.scattering_factor)
    {d : DataPoint α} (hd : Storage.computeDP env p t c = .ok d) :
    CacheInv env F ⟨s.slots.set s.pos d, s.pos + 1⟩ := by
  refine ⟨shape_set h.1 d, fun e he => ?_⟩
  rcases List.mem_or_eq_of_mem_set he with he | rfl
  · exact h.2 e he
  · right
    have := (computeDP_faithful env p t c e hd).1
    have h1 : e.p = p := congrArg Key.p this
    have h2 : e.m = t := congrArg Key.t this
    have h3 : e.config = c := congrArg Key.c this
    rw [h1, h2, h3]
    exact ⟨hd, hF⟩

theorem Agree.refl (p : Projectile α) (t : Material α) (c : Config α) : Agree p p t t c c :=
  ⟨rfl, rfl, rfl, rfl, rfl, rfl, rfl, rfl, rfl, rfl, rfl⟩

theorem Agree.symm {p p' : Projectile α} {t t' : Material α} {c c' : Config α}
    (h : Agree p p' t t' c c') : Agree p' p t' t c' c :=
  ⟨h.1.symm, h.2.symm, h.3.symm, h.4.symm, h.5.symm, h.6.symm, h.7.symm, h.8.symm, h.9.symm,
    h.10.symm, h.11.symm⟩

theorem Agree.trans {p p' p'' : Projectile α} {t t' t'' : Material α} {c c' c'' : Config α}
    (h : Agree p p' t t' c c') (h' : Agree p' p'' t' t'' c' c'') : Agree p p'' t t'' c c'' :=
  ⟨h.1.trans h'.1, h.2.trans h'.2, h.3.trans h'.3, h.4.trans h'.4, h.5.trans h'.5, h.6.trans h'.6,
    h.7.trans h'.7, h.8.trans h'.8, h.9.trans h'.9, h.10.trans h'.10, h.11.trans h'.11⟩

/-- What a query of a non-default key amounts to: the computation for some agreeing key. -/
theorem getWith_view (hl : EqLaws α) {env : Env α} {F : α → Prop} {s : Storage α}
    (h : CacheInv env F s) (k : Key α) (hk : Key.default.eq k = false)
    (hF : F k.c.scattering_factor) :
    ∃ (k' : Key α) (g : DataPoint α → Storage α), Agree k'.p k.p k'.t k.t k'.c k.c ∧
      (Separated F → k'.c.scattering_factor = k.c.scattering_factor) ∧
      (∀ d, Storage.computeDP env k'.p k'.t k'.c = .ok d → CacheInv env F (g d)) ∧
      s.getWith (Storage.computeDP env) k.p k.t k.c =
        (Storage.computeDP env k'.p k'.t k'.c).map fun d => (d, g d) := by
  by_cases hh : s.has k
  · obtain ⟨e, he, hek, hg⟩ := getWith_hit (Storage.computeDP env) s k hh
    rcases h.2 e he with rfl | ⟨h1, h2⟩
    · rw [show (DataPoint.default : DataPoint α).key = Key.default from rfl, hk] at hek
      cases hek
    · have ha := agree_of_eq hl.beqEq hek
      refine ⟨e.key, fun _ => s, ha.1, fun hs => hs _ _ h2 hF ha.2, fun _ _ => h, ?_⟩
      rw [hg, show e.key.p = e.p from rfl, show e.key.t = e.m from rfl,
        show e.key.c = e.config from rfl, h1]
      rfl
  · refine ⟨k, fun d => ⟨s.slots.set s.pos d, s.pos + 1⟩, .refl _ _ _, fun _ => rfl,
      fun d hd => cacheInv_set h hF hd, ?_⟩
    cases hd : Storage.computeDP env k.p k.t k.c with
    | error e => rw [getWith_miss_error hh hd]; rfl
    | ok d => rw [getWith_miss_ok h.1 hh hd]; rfl

theorem cacheInv_get {env : Env α} {F : α → Prop} {s : Storage α} (h : CacheInv env F s)
    {p : Projectile α} {t : Material α} {c : Config α} (hF : F c.scattering_factor)
    {r : DataPoint α × Storage α} (hg : s.getWith (Storage.computeDP env) p t c = .ok r) :
    CacheInv env F r.2 := by
  rcases getWith_cases (k := ⟨p, t, c⟩) (e := r.1) (s' := r.2) h.1 hg with ⟨_, _, _, h4⟩ | ⟨_, h2, h3⟩
  · rw [h4]; exact h
  · rw [h3]; exact cacheInv_set h hF h2

theorem cacheInv_add {env : Env α} {F : α → Prop} {s s' : Storage α} (h : CacheInv env F s)
    {p : Projectile α} {t : Material α} {c : Config α} (hF : F c.scattering_factor)
    (hg : s.addWith (Storage.computeDP env) p t c = .ok s') : CacheInv env F s' := by
  rcases addWith_cases (k := ⟨p, t, c⟩) h.1 hg with ⟨_, h4⟩ | ⟨_, d, h2, h3⟩
  · rw [h4]; exact h
  · rw [h3]; exact cacheInv_set h hF h2

/-- States of two executions that are compared. -/
structure Pair (env : Env α) (b : Bool) (F : α → Prop) (w w' : World α) : Prop where
  conf : w.default_config = w'.default_config
  cdef : w.c_defaults_z_effective = w'.c_defaults_z_effective
  fdef : F w.default_config.scattering_factor
  inv : CacheInv env F w.storage
  inv' : CacheInv (env.withStore b) F w'.storage

theorem pair_sim (hl : EqLaws α) (env : Env α) (b : Bool) (F : α → Prop) :
    Sim env b (Pair env b F) (Separated F) NonDefault F where
  get := by
    intro p t c hK hF w w' hS
    obtain ⟨k1, g1, a1, s1, i1, e1⟩ := getWith_view hl hS.inv ⟨p, t, c⟩ hK hF
    obtain ⟨k2, g2, a2, s2, i2, e2⟩ := getWith_view hl hS.inv' ⟨p, t, c⟩ hK hF
    have hrel := computeDP_rel (env := env) (b := b) hl (a1.trans a2.symm) (Separated F)
      fun h => (s1 h).trans (s2 h).symm
    unfold get_data
    simp only at e1 e2
    rw [e1, e2]
    cases c1 : Storage.computeDP env k1.p k1.t k1.c <;>
      cases c2 : Storage.computeDP (env.withStore b) k2.p k2.t k2.c <;> rw [c1, c2] at hrel
    · have h : _ = _ := hrel
      subst h
      exact ERel.error _
    · exact hrel.elim
    · exact hrel.elim
    · exact ⟨hrel, ⟨hS.conf, hS.cdef, hS.fdef, i1 _ c1, i2 _ c2⟩⟩
  keyT := fun _ _ _ _ h => h
  keyTh := fun _ _ _ _ h => h
  conf := fun _ _ h => h.conf
  cdef := fun _ _ h => h.cdef
  fdef := fun _ _ h => h.fdef
  setD := fun w w' h => ⟨by simp only [setDefaults, h.conf, h.cdef], h.cdef, h.fdef, h.inv, h.inv'⟩
  setS := fun w w' h => ⟨by simp only [setScattering, h.conf], h.cdef, h.fdef, h.inv, h.inv'⟩

/-- Two executions from any two states with the same globals. -/
theorem pair_call (hl : EqLaws α) (env : Env α) (b : Bool) (F : α → Prop) (call : Call α)
    (hc : call.Within NonDefault F) :
    Rel (Pair env b F) (RespEq env (env.withStore b) (Separated F)) (call.run env)
      (call.run (env.withStore b)) := by
  refine call_rel (pair_sim hl env b F) call ?_ ?_ ?_ ?_ hc
  · intro p t c hK hF w w' hS
    have hg := (pair_sim hl env b F).get p t c hK hF w w' hS
    -- `Add` succeeds exactly when `Get` does
    have key : ∀ (env : Env α) (s : Storage α), Shape s →
        s.addWith (Storage.computeDP env) p t c =
          (s.getWith (Storage.computeDP env) p t c).map Prod.snd := by
      intro env s hs
      by_cases hh : s.has ⟨p, t, c⟩
      · obtain ⟨e, _, _, h⟩ := getWith_hit (Storage.computeDP env) s ⟨p, t, c⟩ hh
        have h' := addWith_hit (Storage.computeDP env) s ⟨p, t, c⟩ hh
        simp only at h h'
        rw [h, h']; rfl
      · cases hd : Storage.computeDP env p t c with
        | error e =>
          have h := getWith_miss_error (k := ⟨p, t, c⟩) hh hd
          have h' := addWith_miss_error (k := ⟨p, t, c⟩) hh hd
          simp only at h h'
          rw [h, h']; rfl
        | ok d =>
          have h := getWith_miss_ok (k := ⟨p, t, c⟩) hs hh hd
          have h' := addWith_miss_ok (k := ⟨p, t, c⟩) hs hh hd
          simp only at h h'
          rw [h, h']; rfl
    show ERel _ (do let s ← w.storage.addWith (Storage.computeDP env) p t c
                    return (Response.unit, { w with storage := s }))
      (do let s ← w'.storage.addWith (Storage.computeDP (env.withStore b)) p t c
          return (Response.unit, { w' with storage := s }))
    rw [key env _ hS.inv.1, key _ _ hS.inv'.1]
    unfold get_data at hg
    cases c1 : w.storage.getWith (Storage.computeDP env) p t c <;>
      cases c2 : w'.storage.getWith (Storage.computeDP (env.withStore b)) p t c <;>
      rw [c1, c2] at hg
    · have h : _ = _ := hg
      subst h
      exact ERel.error _
    · exact hg.elim
    · exact hg.elim
    · exact ⟨trivial, hg.2⟩
  · exact fun w w' h => ⟨h.conf, h.cdef, h.fdef, cacheInv_init _ _, cacheInv_init _ _⟩
  · exact fun w w' c _ h hc => ⟨rfl, h.cdef, hc, h.inv, h.inv'⟩
  · exact fun w w' z _ h => ⟨h.conf, rfl, h.fdef, h.inv, h.inv'⟩

/-- The invariant after a history of calls with scattering factors in `F`. -/
theorem history_inv (env : Env α) (F : α → Prop) (h1 : F 1.0) (cs : List (Call α)) (w : World α)
    (hcs : ∀ c ∈ cs, c.Within (fun _ _ _ => True) F) (hr : runCalls env cs .init = .ok w) :
    CacheInv env F w.storage ∧ F w.default_config.scattering_factor := by
  refine runCalls_preserves env (fun c => c.Within (fun _ _ _ => True) F)
    (fun w => CacheInv env F w.storage ∧ F w.default_config.scattering_factor) ?_ cs _ _ hcs
    ⟨cacheInv_init _ _, h1⟩ hr
  intro call w r hc hP hrun
  refine call_preserves env F (fun w => CacheInv env F w.storage ∧ F w.default_config.scattering_factor)
    (fun _ h => h.2) ?_ ?_ ?_ call (fun _ _ _ h hc => ⟨h.1, hc⟩) (fun _ h => h) (fun _ h => h)
    (fun _ _ _ h => h) hc w hP r hrun
  · exact fun w p t c r h hF hg => ⟨cacheInv_get h.1 hF hg, h.2⟩
  · exact fun w p t c r h hF hg => ⟨cacheInv_add h.1 hF hg, h.2⟩
  · exact fun w h => ⟨cacheInv_init _ _, h.2⟩

theorem ResEq.weaken {A A' : Prop} (h : A' → A) {r r' : Result α} (hr : ResEq A r r') :
    ResEq A' r r' := ⟨hr.1, fun ha => hr.2 (h ha)⟩

theorem MultiEq.weaken {A A' : Prop} (h : A' → A) {r r' : MultiResult α} (hr : MultiEq A r r') :
    MultiEq A' r r' :=
  ⟨hr.1.imp fun _ _ h' => h'.weaken h, hr.2.1, fun ha => hr.2.2 (h ha)⟩

theorem RespEq.weaken {env env' : Env α} {A A' : Prop} (h : A' → A) {r r' : Response α}
    (hr : RespEq env env' A r r') : RespEq env env' A' r r' := by
  cases r <;> cases r' <;> try exact hr.elim
  · trivial
  · exact hr
  · exact hr
  · exact hr
  · exact ResEq.weaken h hr
  · exact MultiEq.weaken h hr
  · exact ⟨hr.1, hr.2.1, hr.2.2.mono fun _ _ hs => ⟨hs.1, fun ha => hs.2 (h ha)⟩⟩
  · rename_i o o'
    cases o <;> cases o' <;> try exact hr.elim
    · trivial
    · trivial
    · trivial
    · exact ⟨hr.1, hr.2.1, hr.2.2.1, hr.2.2.2.1, hr.2.2.2.2.imp fun _ _ hx => ⟨hx.1, hx.2.weaken h⟩⟩

/-- After a history with factors in `F`, a call answers as in a fresh process. -/
theorem transparent_core (hl : EqLaws α) (env : Env α) (F : α → Prop) (h1 : F 1.0) (A : Prop)
    (hA : A → Separated F) (cs : List (Call α)) (w : World α)
    (hcs : ∀ c ∈ cs, c.Within (fun _ _ _ => True) F) (hr : runCalls env cs .init = .ok w)
    (call : Call α) (hc : call.Within NonDefault F) :
    ERel (RespEq env env A) (call.respond env w) (call.respond env w.fresh) := by
  have hinv := history_inv env F h1 cs w hcs hr
  have := pair_call hl env env.storeSplines F call hc w w.fresh
    ⟨rfl, rfl, hinv.2, hinv.1, cacheInv_init _ _⟩
  rw [withStore_self] at this
  unfold Call.respond
  cases c1 : call.run env w <;> cases c2 : call.run env w.fresh <;> rw [c1, c2] at this
  · exact this
  · exact this.elim
  · exact this.elim
  · exact RespEq.weaken hA this.1

end Catima
