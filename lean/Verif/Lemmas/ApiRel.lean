import Verif.Lemmas.Rel

/-!
# Library functions map related states to related results

`Sim` collects what the two executions have to satisfy at `get_data`; everything else follows
function by function.
-/

set_option linter.unusedSectionVars false

namespace Catima
variable {α : Type} [Scalar α]

/-- The build `env` with `STORE_SPLINES` set to `b`. -/
def Env.withStore (env : Env α) (b : Bool) : Env α := { env with storeSplines := b }

theorem Env.Alike.eq {env env' : Env α} (h : env.Alike env') :
    env' = env.withStore env'.storeSplines := by
  obtain ⟨h1, h2, h3, h4⟩ := h
  cases env; cases env'
  simp_all [Env.withStore]

/-- Requirements on two executions, of the builds `env` and `env.withStore b`. -/
structure Sim (env : Env α) (b : Bool) (S : World α → World α → Prop) (A : Prop)
    (K : Projectile α → Material α → Config α → Prop) (F : α → Prop) : Prop where
  get : ∀ p t c, K p t c → F c.scattering_factor →
    Rel S (DataEq env (env.withStore b) A) (get_data env p t c) (get_data (env.withStore b) p t c)
  keyT : ∀ p t c e, K p t c → K (p.withT e) t c
  keyTh : ∀ p t c th, K p t c → K p (t.set_thickness th) c
  conf : ∀ w w', S w w' → w.default_config = w'.default_config
  cdef : ∀ w w', S w w' → w.c_defaults_z_effective = w'.c_defaults_z_effective
  fdef : ∀ w w', S w w' → F w.default_config.scattering_factor
  setD : ∀ w w', S w w' → S (setDefaults w) (setDefaults w')
  setS : ∀ w w', S w w' → S (setScattering w) (setScattering w')

section
variable {env : Env α} {b : Bool} {S : World α → World α → Prop} {A : Prop}
  {K : Projectile α → Material α → Config α → Prop} {F : α → Prop}

theorem range_rel (h : Sim env b S A K F) {p : Projectile α} {t : Material α} {c : Config α}
    (hK : K p t c) (hF : F c.scattering_factor) :
    Rel S Eq (range env p t c) (range (env.withStore b) p t c) :=
  (h.get p t c hK hF).bind fun d d' hd => .pureM_eq (by rw [hd.1])

theorem dedx_from_range_rel (h : Sim env b S A K F) {p : Projectile α} {t : Material α}
    {c : Config α} (hK : K p t c) (hF : F c.scattering_factor) :
    Rel S Eq (dedx_from_range env p t c) (dedx_from_range (env.withStore b) p t c) :=
  (h.get p t c hK hF).bind fun d d' hd => .pureM_eq (by rw [hd.1])

theorem dedx_from_range_vec_rel (h : Sim env b S A K F) {p : Projectile α} {T : List α}
    {t : Material α} {c : Config α} (hK : K p t c) (hF : F c.scattering_factor) :
    Rel S Eq (dedx_from_range_vec env p T t c) (dedx_from_range_vec (env.withStore b) p T t c) :=
  (h.get p t c hK hF).bind fun d d' hd => .pureM_eq (by rw [hd.1])

theorem range_straggling_rel (h : Sim env b S A K F) {p : Projectile α} {T : α}
    {t : Material α} {c : Config α} (hK : K p t c) (hF : F c.scattering_factor) :
    Rel S Eq (range_straggling env p T t c) (range_straggling (env.withStore b) p T t c) :=
  (h.get p t c hK hF).bind fun d d' hd => .pureM_eq (by rw [hd.2.1])

theorem range_variance_rel (h : Sim env b S A K F) {p : Projectile α} {T : α}
    {t : Material α} {c : Config α} (hK : K p t c) (hF : F c.scattering_factor) :
    Rel S Eq (range_variance env p T t c) (range_variance (env.withStore b) p T t c) :=
  (h.get p t c hK hF).bind fun d d' hd => .pureM_eq (by rw [hd.2.1])

theorem domega2de_rel (h : Sim env b S A K F) {p : Projectile α} {T : α}
    {t : Material α} {c : Config α} (hK : K p t c) (hF : F c.scattering_factor) :
    Rel S Eq (domega2de env p T t c) (domega2de (env.withStore b) p T t c) :=
  (h.get p t c hK hF).bind fun d d' hd => .pureM_eq (by rw [hd.2.1])

theorem energy_out_rel (h : Sim env b S A K F) {p : Projectile α} {t : Material α}
    {c : Config α} (hK : K p t c) (hF : F c.scattering_factor) :
    Rel S Eq (energy_out env p t c) (energy_out (env.withStore b) p t c) :=
  (h.get p t c hK hF).bind fun d d' hd => .pureM_eq (by rw [hd.1]; rfl)

theorem energy_out_vec_rel (h : Sim env b S A K F) {p : Projectile α} {T : List α}
    {t : Material α} {c : Config α} (hK : K p t c) (hF : F c.scattering_factor) :
    Rel S Eq (energy_out_vec env p T t c) (energy_out_vec (env.withStore b) p T t c) :=
  (h.get p t c hK hF).bind fun d d' hd => .pureM_eq (by rw [hd.1]; rfl)

theorem angular_variance_rel (h : Sim env b S A K F) {p : Projectile α} {t : Material α}
    {c : Config α} (o : Int) (hK : K p t c) (hF : F c.scattering_factor) :
    Rel S Eq (angular_variance env p t c o) (angular_variance (env.withStore b) p t c o) := by
  refine (Rel.pureM_eq rfl).bind fun _ _ _ => ?_
  refine (Rel.pureM_eq rfl).bind fun _ _ _ => ?_
  refine (Rel.pureM_eq rfl).bind fun _ _ _ => ?_
  exact (h.get p t c hK hF).bind fun d d' hd => .pureM_eq (by rw [hd.1]; rfl)

theorem angular_straggling_rel (h : Sim env b S A K F) {p : Projectile α} {t : Material α}
    {c : Config α} (hK : K p t c) (hF : F c.scattering_factor) :
    Rel S Eq (angular_straggling env p t c) (angular_straggling (env.withStore b) p t c) :=
  (angular_variance_rel h 0 hK hF).bind fun x y hxy => .pure (by rw [hxy])

theorem angular_straggling_from_E_rel (h : Sim env b S A K F) {p : Projectile α} {T : α}
    {t : Material α} {c : Config α} (hK : K p t c) (hF : F c.scattering_factor) :
    Rel S Eq (angular_straggling_from_E env p T t c)
      (angular_straggling_from_E (env.withStore b) p T t c) := by
  refine (h.get p t c hK hF).bind fun d d' hd => ?_
  refine (Rel.pureM_eq (by rw [hd.1])).bind fun x y hxy => ?_
  subst hxy
  exact angular_straggling_rel h (h.keyTh _ _ _ _ hK) hF

theorem energy_straggling_from_E_rel (h : Sim env b S A K F) {p : Projectile α} {T T' : α}
    {t : Material α} {c : Config α} (hK : K p t c) (hF : F c.scattering_factor) :
    Rel S Eq (energy_straggling_from_E env p T T' t c)
      (energy_straggling_from_E (env.withStore b) p T T' t c) :=
  (h.get p t c hK hF).bind fun d d' hd => .pureM_eq (by rw [hd.1, hd.2.1])

theorem w_magnification_rel (h : Sim env b S A K F) {p : Projectile α} {T : α}
    {t : Material α} {c : Config α} (hK : K p t c) (hF : F c.scattering_factor) :
    Rel S Eq (w_magnification env p T t c) (w_magnification (env.withStore b) p T t c) := by
  unfold w_magnification
  refine .ite (fun _ => .pure rfl) fun _ => ?_
  refine (energy_out_vec_rel h hK hF).bind fun x y hxy => ?_
  subst hxy
  split
  · exact .ite (fun _ => .pure rfl) fun _ => .pure rfl
  · exact .pureM_eq rfl

theorem nonreaction_rate_rel (h : Sim env b S A K F) {p : Projectile α} {t : Material α}
    {c : Config α} (hK : K p t c) (hF : F c.scattering_factor) :
    Rel S Eq (nonreaction_rate env p t c) (nonreaction_rate (env.withStore b) p t c) := by
  unfold nonreaction_rate
  refine .ite (fun _ => .pure rfl) fun _ => ?_
  refine .ite (fun _ => .pure rfl) fun _ => ?_
  exact (h.get p t c hK hF).bind fun d d' hd => .pureM_eq (by rw [hd.1]; rfl)

/-! ### `calculate` -/

theorem rd_sh {β : Type} {xs ys : List β} (h : xs.length = ys.length) (i : Int) :
    Sh (rd xs i) (rd ys i) := by
  unfold rd
  split
  · exact .error _
  · by_cases hi : i.toNat < xs.length
    · rw [List.getElem?_eq_getElem hi, List.getElem?_eq_getElem (h ▸ hi)]
      exact .ok trivial
    · rw [List.getElem?_eq_none (by omega), List.getElem?_eq_none (by omega)]
      exact .error _

theorem deriv_sh {s s' : Spline α} (h : SplShape s s') (x : α) : Sh (s.deriv x) (s'.deriv x) := by
  obtain ⟨h1, h2, h3, h4, h5⟩ := h
  unfold Spline.deriv
  rw [← h1]
  refine (ERel.refl _).bind fun i j hij => ?_
  subst hij
  dsimp only
  split
  · exact .pure trivial
  · split
    · exact (rd_sh h4 _).bind fun _ _ _ => (rd_sh h5 _).bind fun _ _ _ => .pure trivial
    · exact (rd_sh h3 _).bind fun _ _ _ => (rd_sh h4 _).bind fun _ _ _ =>
        (rd_sh h5 _).bind fun _ _ _ => .pure trivial

theorem evaluate_sh {s s' : Spline α} (h : SplShape s s') (x : α) :
    Sh (s.evaluate x) (s'.evaluate x) := by
  obtain ⟨h1, h2, h3, h4, h5⟩ := h
  unfold Spline.evaluate
  rw [← h1]
  refine (ERel.refl _).bind fun i j hij => ?_
  subst hij
  dsimp only
  split
  · exact (rd_sh h2 _).bind fun _ _ _ => .pure trivial
  · split
    · exact (rd_sh h4 _).bind fun _ _ _ => (rd_sh h5 _).bind fun _ _ _ =>
        (rd_sh h2 _).bind fun _ _ _ => .pure trivial
    · exact (rd_sh h3 _).bind fun _ _ _ => (rd_sh h4 _).bind fun _ _ _ =>
        (rd_sh h5 _).bind fun _ _ _ => (rd_sh h2 _).bind fun _ _ _ => .pure trivial

theorem stragglings_rel (E T Eout d : α) (u : Bool) {ss as_ as' : Spline α}
    (h : SplShape as_ as') :
    ERel (fun x y => x.1 = y.1 ∧ (as_ = as' ∨ u = false → x = y))
      (stragglings env E T Eout d u ss as_) (stragglings (env.withStore b) E T Eout d u ss as') := by
  by_cases he : as_ = as'
  · subst he
    exact (ERel.refl _).mono fun x y hxy => by subst hxy; exact ⟨rfl, fun _ => rfl⟩
  · unfold stragglings
    show ERel _ (if env.thin && (thin_target_limit * T <? Eout) then _ else _)
      (if env.thin && (thin_target_limit * T <? Eout) then _ else _)
    split
    · refine (ERel.refl _).bind fun x y hxy => ?_
      subst hxy
      refine (ERel.refl _).bind fun x y hxy => ?_
      subst hxy
      cases u
      · exact .pure ⟨rfl, fun _ => rfl⟩
      · refine (deriv_sh h _).bind fun _ _ _ => (deriv_sh h _).bind fun _ _ _ => .pure ⟨rfl, ?_⟩
        rintro (h | h)
        · exact absurd h he
        · cases h
    · refine (ERel.refl _).bind fun x y hxy => ?_
      subst hxy
      refine (ERel.refl _).bind fun x y hxy => ?_
      subst hxy
      cases u
      · exact .pure ⟨rfl, fun _ => rfl⟩
      · refine (evaluate_sh h _).bind fun _ _ _ => (evaluate_sh h _).bind fun _ _ _ =>
          .pure ⟨rfl, ?_⟩
        rintro (h | h)
        · exact absurd h he
        · cases h

theorem ResEq.refl (A : Prop) (r : Result α) : ResEq A r r := ⟨rfl, fun _ => rfl⟩

theorem calculateThrough_rel (h : Sim env b S A K F) {p : Projectile α} {t : Material α}
    {c : Config α} (hK : K p t c) (hF : F c.scattering_factor) {d d' : DataPoint α}
    (hd : DataEq env (env.withStore b) A d d') (rs ss : Spline α) (u : Bool) (res : Result α) :
    Rel S (ResEq (A ∨ u = false)) (calculateThrough env p t c d rs ss u res)
      (calculateThrough (env.withStore b) p t c d' rs ss u res) := by
  unfold calculateThrough
  refine (Rel.pureM hd.2.2).bind fun s s' hs => ?_
  refine (Rel.pureM_eq rfl).bind fun x y hxy => ?_
  subst hxy
  refine (Rel.pureM (stragglings_rel (b := b) _ _ _ _ u hs.1)).bind fun y y' hy => ?_
  obtain ⟨y1, y2⟩ := y
  obtain ⟨y1', y2'⟩ := y'
  obtain ⟨hy1, hy2⟩ := hy
  cases hy1
  dsimp only
  have tail : ∀ a a' : α, (A ∨ u = false → a = a') → Rel S (ResEq (A ∨ u = false))
      (do
        let w ← MonadState.get
        let tof ← pureM (calculate_tof_from_E env p res.Eout t w.default_config)
        pure { res with dEdxo := x, sigma_E := y1, sigma_a := a, tof := tof })
      (do
        let w ← MonadState.get
        let tof ← pureM (calculate_tof_from_E (env.withStore b) p res.Eout t w.default_config)
        pure { res with dEdxo := x, sigma_E := y1, sigma_a := a', tof := tof }) := by
    intro a a' ha
    refine Rel.get.bind fun w w' hw => ?_
    refine (Rel.pureM_eq ?_).bind fun x y hxy => ?_
    · rw [← h.conf w w' hw]; rfl
    · subst hxy
      exact .pure ⟨rfl, fun hAu => by rw [ha hAu]⟩
  refine .ite (fun _ => ?_) fun _ => ?_
  · exact (angular_straggling_rel h (h.keyT _ _ _ _ hK) hF).bind fun a a' ha => tail a a' fun _ => ha
  · have : Rel S (fun a a' => A ∨ u = false → a = a') (pure y2 : Api α α) (pure y2') := by
      refine .pure fun hAu => ?_
      have := hy2 (by
        rcases hAu with hA | hu
        · exact .inl (hs.2 hA)
        · exact .inr hu)
      exact congrArg Prod.snd this
    exact this.bind fun a a' ha => tail a a' ha

theorem calculate_rel (h : Sim env b S A K F) {p : Projectile α} {t : Material α}
    {c : Config α} (hK : K p t c) (hF : F c.scattering_factor) :
    Rel S (ResEq (A ∨ c.scattering ≠ scattering_atima)) (calculate env p t c)
      (calculate (env.withStore b) p t c) := by
  unfold calculate
  refine .ite (fun _ => .pure (.refl _ _)) fun _ => ?_
  refine (h.get p t c hK hF).bind fun d d' hd => ?_
  refine (Rel.pureM_eq hd.1).bind fun rs rs' hrs => ?_
  subst hrs
  refine (Rel.pureM_eq hd.2.1).bind fun ss ss' hss => ?_
  subst hss
  refine (Rel.pureM_eq rfl).bind fun x y hxy => ?_
  subst hxy
  refine (Rel.pureM_eq rfl).bind fun x y hxy => ?_
  subst hxy
  refine (Rel.pureM_eq rfl).bind fun x y hxy => ?_
  subst hxy
  refine .ite (fun _ => .pure (.refl _ _)) fun _ => ?_
  refine (Rel.pureM_eq rfl).bind fun x y hxy => ?_
  subst hxy
  have tail : ∀ r r' : Result α, ResEq (A ∨ c.scattering ≠ scattering_atima) r r' →
      Rel S (ResEq (A ∨ c.scattering ≠ scattering_atima))
      (do
        let sx ← angular_variance env (p.withT p.T) t c 2
        let cov ← angular_variance env (p.withT p.T) t c 1
        let sp ← nonreaction_rate env p t c
        pure { r with sigma_x := Scalar.sqrt sx, cov := cov, sp := sp })
      (do
        let sx ← angular_variance (env.withStore b) (p.withT p.T) t c 2
        let cov ← angular_variance (env.withStore b) (p.withT p.T) t c 1
        let sp ← nonreaction_rate (env.withStore b) p t c
        pure { r' with sigma_x := Scalar.sqrt sx, cov := cov, sp := sp }) := by
    intro r r' hr
    refine (angular_variance_rel h 2 (h.keyT _ _ _ _ hK) hF).bind fun x y hxy => ?_
    subst hxy
    refine (angular_variance_rel h 1 (h.keyT _ _ _ _ hK) hF).bind fun x y hxy => ?_
    subst hxy
    refine (nonreaction_rate_rel h hK hF).bind fun x y hxy => ?_
    subst hxy
    refine .pure ⟨?_, fun hA => by rw [hr.2 hA]⟩
    rw [← hr.1]
  refine .ite (fun _ => ?_) fun _ => ?_
  · exact Rel.bind (R := ResEq (A ∨ c.scattering ≠ scattering_atima)) (.pure (.refl _ _)) tail
  · refine (calculateThrough_rel h hK hF hd _ _ _ _).bind fun r r' hr => tail r r' ⟨hr.1, fun hA => hr.2 ?_⟩
    simpa using hA

theorem calculate_rel' (h : Sim env b S A K F) {p : Projectile α} {t : Material α}
    {c : Config α} (hK : K p t c) (hF : F c.scattering_factor) :
    Rel S (ResEq A) (calculate env p t c) (calculate (env.withStore b) p t c) :=
  (calculate_rel h hK hF).mono fun _ _ hr => ⟨hr.1, fun hA => hr.2 (.inl hA)⟩

theorem addLayerResult_rel (m : Material α) {r r' t t' : Result α} (hr : ResEq A r r')
    (ht : TotEq A t t') : TotEq A (addLayerResult m r t) (addLayerResult m r' t') := by
  refine ⟨?_, fun hA => by rw [hr.2 hA, ht.2 hA]⟩
  rw [← hr.1, ← ht.1]
  rfl

theorem finishTotal_rel (e : α) {t t' : Result α} (ht : TotEq A t t') :
    TotEq A (finishTotal e t) (finishTotal e t') := by
  refine ⟨?_, fun hA => by rw [ht.2 hA]⟩
  rw [← ht.1]
  unfold finishTotal
  split <;> rfl

theorem layersLoop_rel (h : Sim env b S A K F) {p : Projectile α} {c : Config α}
    (hF : F c.scattering_factor) (ms : List (Material α)) (hK : ∀ m ∈ ms, K p m c) :
    ∀ (e : α) (t t' : Result α), TotEq A t t' →
    Rel S (fun x y => List.Forall₂ (ResEq A) x.1 y.1 ∧ TotEq A x.2.1 y.2.1 ∧ x.2.2 = y.2.2)
      (layersLoop env p c ms e t) (layersLoop (env.withStore b) p c ms e t') := by
  induction ms with
  | nil => exact fun e t t' ht => .pure ⟨.nil, ht, rfl⟩
  | cons m ms ih =>
    intro e t t' ht
    unfold layersLoop
    refine (calculate_rel' h (h.keyT p m c e (hK m (by simp))) hF).bind fun r r' hr => ?_
    have he : r.Eout = r'.Eout := by rw [← hr.1]
    rw [he]
    refine (ih (fun m hm => hK m (by simp [hm])) _ _ _ (addLayerResult_rel m hr ht)).bind
      fun x y hxy => ?_
    obtain ⟨x1, x2, x3⟩ := x
    obtain ⟨y1, y2, y3⟩ := y
    exact .pure ⟨.cons hr hxy.1, hxy.2⟩

theorem calculate_layers_rel (h : Sim env b S A K F) {p : Projectile α} {ps : Phasespace α}
    {l : Layers α} {c : Config α} (hF : F c.scattering_factor) (hK : ∀ m ∈ l.materials, K p m c) :
    Rel S (MultiEq A) (calculate_layers env p ps l c)
      (calculate_layers (env.withStore b) p ps l c) := by
  refine (layersLoop_rel h hF l.materials hK _ _ _ ⟨rfl, fun _ => rfl⟩).bind fun x y hxy => ?_
  obtain ⟨x1, x2, x3⟩ := x
  obtain ⟨y1, y2, y3⟩ := y
  obtain ⟨h1, h2, h3⟩ := hxy
  cases h3
  exact .pure ⟨h1, finishTotal_rel _ h2⟩

/-! ### Calls that take the configuration from the globals -/

/-- Read the globals, then continue with the same configuration. -/
theorem conf_rel {β γ : Type} (h : Sim env b S A K F) {R : β → γ → Prop} {x : Config α → Api α β}
    {y : Config α → Api α γ} (hxy : ∀ c, F c.scattering_factor → Rel S R (x c) (y c)) :
    Rel S R (do let w ← MonadState.get; x w.default_config)
      (do let w ← MonadState.get; y w.default_config) := by
  refine Rel.get.bind fun w w' hw => ?_
  rw [← h.conf w w' hw]
  exact hxy _ (h.fdef w w' hw)

theorem calculate_simple_rel (h : Sim env b S A K F) {pa T ta tz th rho : α} {pz : Int}
    (hK : ∀ t c, K (Projectile.new pa (ofInt pz)) t c) :
    Rel S (ResEq A) (calculate_simple env pa pz T ta tz th rho)
      (calculate_simple (env.withStore b) pa pz T ta tz th rho) := by
  refine (Rel.pureM_eq rfl).bind fun z z' hz => ?_
  subst hz
  exact conf_rel h fun c hc => calculate_rel' h (h.keyT _ _ _ _ (hK _ _)) hc

theorem calcLoop_rel (h : Sim env b S A K F) {p : Projectile α} {l : Layers α} {c0 : Config α}
    (hK : ∀ t c, K p t c) (es : List α) :
    Rel S (List.Forall₂ (fun x y => x.1 = y.1 ∧ MultiEq A x.2 y.2))
      (calcLoop env p l c0 es) (calcLoop (env.withStore b) p l c0 es) := by
  induction es with
  | nil => exact .pure .nil
  | cons e es ih =>
    unfold calcLoop
    refine conf_rel (x := fun c => do
        let r ← calculate_layers_nops env (p.withT e) l c
        let rs ← calcLoop env p l c0 es
        return (e, r) :: rs) (y := fun c => do
        let r ← calculate_layers_nops (env.withStore b) (p.withT e) l c
        let rs ← calcLoop (env.withStore b) p l c0 es
        return (e, r) :: rs) h fun c hc => ?_
    refine (calculate_layers_rel h hc fun m _ => h.keyT _ _ _ _ (hK _ _)).bind fun r r' hr => ?_
    exact ih.bind fun rs rs' hrs => .pure (.cons ⟨rfl, hr⟩ hrs)

theorem calculator_rel (h : Sim env b S A K F) {j : CalcInput α} (hK : ∀ t c, K j.proj t c) :
    Rel S (CalcEq A) (calculator env j) (calculator (env.withStore b) j) := by
  have key : Rel S (CalcEq A)
      (match j.energy with
        | none => pure .badConfig
        | some spec => do
          let es ← pureM (energies spec)
          match j.material with
          | none => return .badConfig
          | some ms =>
            match ← pureM (calcLayers ms) with
            | none => return .badConfig
            | some mats =>
              if mats.isEmpty then return .noMaterial
              if es.isEmpty then return .noEnergy
              let rs ← calcLoop env j.proj ⟨mats⟩ (calcConfig j.config) es
              return .results j.proj.A j.proj.Z (mats.map fun m => (m.rho, m.th)) rs 1)
      (match j.energy with
        | none => pure .badConfig
        | some spec => do
          let es ← pureM (energies spec)
          match j.material with
          | none => return .badConfig
          | some ms =>
            match ← pureM (calcLayers ms) with
            | none => return .badConfig
            | some mats =>
              if mats.isEmpty then return .noMaterial
              if es.isEmpty then return .noEnergy
              let rs ← calcLoop (env.withStore b) j.proj ⟨mats⟩ (calcConfig j.config) es
              return .results j.proj.A j.proj.Z (mats.map fun m => (m.rho, m.th)) rs 1) := by
    cases j.energy with
    | none => exact .pure trivial
    | some spec =>
      refine (Rel.pureM_eq rfl).bind fun es es' hes => ?_
      subst hes
      cases j.material with
      | none => exact .pure trivial
      | some ms =>
        refine (Rel.pureM_eq rfl).bind fun o o' ho => ?_
        subst ho
        cases o with
        | none => exact .pure trivial
        | some mats =>
          refine .ite (fun _ => .pure trivial) fun _ => ?_
          refine .ite (fun _ => .pure trivial) fun _ => ?_
          exact (calcLoop_rel h hK es).bind fun rs rs' hrs => .pure ⟨rfl, rfl, rfl, rfl, hrs⟩
  unfold calculator
  unfold CalcInput.proj at key
  rcases hj : j.projectile with _ | _ | ⟨A', Z'⟩
  · exact .pure trivial
  · rw [hj] at key
    exact key
  · rw [hj] at key
    exact key

/-- Every library call, except direct use of the cache, maps related states to related
responses. -/
theorem call_rel (h : Sim env b S A K F) (call : Call α)
    (hadd : ∀ p t c, K p t c → F c.scattering_factor →
      Rel S (RespEq env (env.withStore b) A) ((Call.add p t c).run env)
        ((Call.add p t c).run (env.withStore b)))
    (hreset : ∀ w w', S w w' → S { w with storage := w.storage.reset } { w' with storage := w'.storage.reset })
    (hset : ∀ w w' c, call = .set_default_config c → S w w' → F c.scattering_factor →
      S { w with default_config := c } { w' with default_config := c })
    (hsetc : ∀ w w' z, call = .set_c_defaults z → S w w' →
      S { w with c_defaults_z_effective := z } { w' with c_defaults_z_effective := z })
    (hc : call.Within K F) :
    Rel S (RespEq env (env.withStore b) A) (call.run env) (call.run (env.withStore b)) := by
  have num : ∀ {x y : Api α α}, Rel S Eq x y → Rel S (RespEq env (env.withStore b) A)
      (do return .num (← x)) (do return .num (← y)) := fun h => h.bind fun _ _ h => .pure h
  have nums : ∀ {x y : Api α (List α)}, Rel S Eq x y → Rel S (RespEq env (env.withStore b) A)
      (do return .nums (← x)) (do return .nums (← y)) := fun h => h.bind fun _ _ h => .pure h
  have res : ∀ {x y : Api α (Result α)}, Rel S (ResEq A) x y →
      Rel S (RespEq env (env.withStore b) A) (do return .result (← x)) (do return .result (← y)) :=
    fun h => h.bind fun _ _ h => .pure h
  have wrap : ∀ {β : Type} {f : World α → World α} (_ : ∀ w w', S w w' → S (f w) (f w'))
      {m : M (Material α)} {R : β → β → Prop} {x y : Material α → Config α → Api α β}
      (_ : ∀ t c, F c.scattering_factor → Rel S R (x t c) (y t c)),
      Rel S R (do modify f; let t ← pureM m; let w ← MonadState.get; x t w.default_config)
        (do modify f; let t ← pureM m; let w ← MonadState.get; y t w.default_config) := by
    intro β f hf m R x y hxy
    refine (Rel.modify hf).bind fun _ _ _ => (Rel.pureM_eq rfl).bind fun t t' ht => ?_
    subst ht
    exact conf_rel h fun c hc => hxy t c hc
  cases call with
  | range p t c => exact num (range_rel h hc.1 hc.2)
  | dedx_from_range p t c => exact num (dedx_from_range_rel h hc.1 hc.2)
  | dedx_from_range_vec p T t c => exact nums (dedx_from_range_vec_rel h hc.1 hc.2)
  | range_straggling p T t c => exact num (range_straggling_rel h hc.1 hc.2)
  | range_variance p T t c => exact num (range_variance_rel h hc.1 hc.2)
  | domega2de p T t c => exact num (domega2de_rel h hc.1 hc.2)
  | energy_out p t c => exact num (energy_out_rel h hc.1 hc.2)
  | energy_out_vec p T t c => exact nums (energy_out_vec_rel h hc.1 hc.2)
  | angular_variance p t c o => exact num (angular_variance_rel h o hc.1 hc.2)
  | angular_straggling p t c => exact num (angular_straggling_rel h hc.1 hc.2)
  | angular_straggling_from_E p T t c => exact num (angular_straggling_from_E_rel h hc.1 hc.2)
  | energy_straggling_from_E p T T' t c => exact num (energy_straggling_from_E_rel h hc.1 hc.2)
  | w_magnification p T t c =>
    exact (w_magnification_rel h hc.1 hc.2).bind fun _ _ h => .pure (by subst h; exact ⟨rfl, rfl⟩)
  | nonreaction_rate p t c => exact num (nonreaction_rate_rel h hc.1 hc.2)
  | calculate p t c => exact res (calculate_rel' h hc.1 hc.2)
  | calculate_layers p ps l c =>
    exact (calculate_layers_rel h hc.2 hc.1).bind fun _ _ h => .pure h
  | calculate_simple pa pz T ta tz th rho => exact res (calculate_simple_rel h hc)
  | get_data p t c => exact (h.get p t c hc.1 hc.2).bind fun _ _ h => .pure h
  | add p t c => exact hadd p t c hc.1 hc.2
  | reset => exact fun w w' hS => ⟨trivial, hreset w w' hS⟩
  | c_calculate pa pz T ta tz th rho =>
    exact res (wrap h.setD fun t c hF => calculate_rel' h (h.keyT _ _ _ _ (hc t c)) hF)
  | c_Eout pa pz T ta tz th rho =>
    exact num (wrap h.setD fun t c hF => energy_out_rel h (h.keyT _ _ _ _ (hc t c)) hF)
  | c_range pa pz T ta tz => exact num (wrap h.setD fun t c hF => range_rel h (hc t c) hF)
  | c_range_straggling pa pz T ta tz =>
    exact num (wrap h.setD fun t c hF => range_straggling_rel h (hc t c) hF)
  | c_angular_straggling_from_E pa pz Tin Tout ta tz =>
    exact num (wrap h.setS fun t c hF =>
      angular_straggling_from_E_rel h (h.keyT _ _ _ _ (hc t c)) hF)
  | c_energy_straggling_from_E pa pz Tin Tout ta tz =>
    exact num (wrap h.setS fun t c hF => energy_straggling_from_E_rel h (hc t c) hF)
  | c_nonreaction_rate pa pz T ta tz th =>
    refine num ?_
    refine (Rel.pureM_eq rfl).bind fun t t' ht => ?_
    subst ht
    exact conf_rel h fun c hF => nonreaction_rate_rel h (h.keyT _ _ _ _ (hc t c)) hF
  | calculator j => exact (calculator_rel h hc).bind fun _ _ h => .pure h
  | set_default_config c => exact fun w w' hS => ⟨trivial, hset w w' c rfl hS hc⟩
  | set_c_defaults z => exact fun w w' hS => ⟨trivial, hsetc w w' z rfl hS⟩

end
end Catima
