import Verif.Props.StragglingOption
import Verif.Props.CutLayers

/-!
# C147: the charge state of the projectile matters with the effective-charge option none only
-/

namespace Catima

/-- The projectile in another charge state. -/
def Projectile.inState (p : Projectile ℝ) (q : ℝ) : Projectile ℝ := { p with Q := q }

theorem z_effective_state (debug : Bool) (p : Projectile ℝ) (t : Target ℝ) (c : Config ℝ) (hc : c.z_effective ≠ 0) (q : ℝ) :
    z_effective debug (p.inState q) t c = z_effective debug p t c := by
  unfold z_effective
  rw [if_neg hc, if_neg hc]
  rfl

/-- C147: unless the effective charge is the given one, the stopping power, the energy-loss variance and the scattering power do not depend on the
charge state, for all inputs, faults included. -/
theorem charge_state_ignored (env : Env ℝ) (p : Projectile ℝ) (m : Material ℝ) (c : Config ℝ) (hc : c.z_effective ≠ 0) (q : ℝ) :
    dedx env (p.inState q) m c = dedx env p m c ∧ domega2dx env (p.inState q) m c = domega2dx env p m c ∧
    da2dx (p.inState q) m c = da2dx p m c := by
  have eb : bethek_dedx_e env (p.inState q) m c = bethek_dedx_e env p m c := by
    unfold bethek_dedx_e
    congr 1
    funext t
    unfold bethek_dedx_e_target
    rw [z_effective_state env.debug p t c hc q]
    rfl
  refine ⟨?_, ?_, rfl⟩
  · unfold dedx
    rw [eb]
    rfl
  · unfold domega2dx
    congr 1
    funext t
    unfold dedx_variance
    rw [z_effective_state env.debug p t c hc q]
    rfl

/-- The tables of both charge states agree. -/
theorem charge_state_tables (env : Env ℝ) (p : Projectile ℝ) (m : Material ℝ) (c : Config ℝ) (hc : c.z_effective ≠ 0) (q : ℝ) (d d' : DataPoint ℝ)
    (hd : calculate_DataPoint env p m c = .ok d) (hd' : calculate_DataPoint env (p.inState q) m c = .ok d') :
    d'.range = d.range ∧ d'.range_straggling = d.range_straggling ∧ d'.angular_variance = d.angular_variance := by
  obtain ⟨a1, a2, a3⟩ := data_point_parts env p m c d hd
  obtain ⟨b1, b2, b3⟩ := data_point_parts env (p.inState q) m c d' hd'
  have k := fun x => charge_state_ignored env (p.withT x) m c hc q
  have e1 : fdedx env (p.inState q) m c = fdedx env p m c := by
    funext x
    unfold fdedx
    exact congrArg (fun s => s >>= fun v => pure ((1.0 : ℝ) / v)) (k x).1
  have e2 : ftheta env (p.inState q) m c = ftheta env p m c := by
    funext x
    unfold ftheta da2de
    exact congrArg (fun s => s >>= fun v => pure (da2dx (p.withT x) m c / v)) (k x).1
  have e3 : fomega env (p.inState q) m c = fomega env p m c := by
    funext x
    have := (k x).1
    have := (k x).2.1
    change domega2dx env ((p.inState q).withT x) m c = _ at this
    have h2 : dedx env ((p.inState q).withT x) m c = dedx env (p.withT x) m c := (k x).1
    unfold fomega
    rw [this, h2]
  rw [e1, show (p.inState q).A = p.A from rfl, a1] at b1
  rw [e2, show (p.inState q).A = p.A from rfl, a2] at b2
  rw [e3, show (p.inState q).A = p.A from rfl, a3] at b3
  exact ⟨(Except.ok.inj b1).symm, (Except.ok.inj b3).symm, (Except.ok.inj b2).symm⟩

/-- What the calls answer, in terms of the data they get. -/
theorem responses_of_data (env : Env ℝ) (p : Projectile ℝ) (t : Material ℝ) (c : Config ℝ) (w w' : World ℝ) (d : DataPoint ℝ)
    (h : get_data env p t c w = .ok (d, w')) :
    (Call.range p t c).respond env w = (do let s ← get_range_spline env d; let v ← s.evaluate p.T; return .num v) ∧
    (Call.dedx_from_range p t c).respond env w = (do let s ← get_range_spline env d; let v ← s.deriv p.T; return .num (p.A / v)) ∧
    (Call.energy_out p t c).respond env w = (do let s ← get_range_spline env d; let v ← energy_out_spline env.debug p.T t.th s; return .num v) ∧
    (∀ T, (Call.range_variance p T t c).respond env w = (do let s ← get_range_straggling_spline env d; let v ← s.evaluate T; return .num v)) ∧
    (∀ T, (Call.range_straggling p T t c).respond env w =
      (do let s ← get_range_straggling_spline env d; let v ← s.evaluate T; return .num (Scalar.sqrt v))) ∧
    ∀ T e, (Call.energy_straggling_from_E p T e t c).respond env w = (do
      let rs ← get_range_spline env d
      let ss ← get_range_straggling_spline env d
      let D ← rs.deriv e
      let a ← ss.evaluate T
      let b ← ss.evaluate e
      return .num (p.A / D * Scalar.sqrt (a - b) / p.A)) := by
  refine ⟨?_, ?_, ?_, fun T => ?_, fun T => ?_, fun T e => ?_⟩
  · unfold Call.respond Call.run range
    simp only [bind, StateT.bind, h, Except.bind, pureM]
    cases get_range_spline env d with
    | error _ => rfl
    | ok s => cases hs : s.evaluate p.T <;> simp [hs, Except.bind, Except.map, pure, Except.pure, StateT.pure]
  · unfold Call.respond Call.run dedx_from_range
    simp only [bind, StateT.bind, h, Except.bind, pureM]
    cases get_range_spline env d with
    | error _ => rfl
    | ok s => cases hs : s.deriv p.T <;> simp [hs, Except.bind, Except.map, pure, Except.pure, StateT.pure]
  · unfold Call.respond Call.run energy_out
    simp only [bind, StateT.bind, h, Except.bind, pureM]
    cases get_range_spline env d with
    | error _ => rfl
    | ok s => cases hs : energy_out_spline env.debug p.T t.th s <;> simp [hs, Except.bind, Except.map, pure, Except.pure, StateT.pure]
  · unfold Call.respond Call.run range_variance
    simp only [bind, StateT.bind, h, Except.bind, pureM]
    cases get_range_straggling_spline env d with
    | error _ => rfl
    | ok s => cases hs : s.evaluate T <;> simp [hs, Except.bind, Except.map, pure, Except.pure, StateT.pure]
  · unfold Call.respond Call.run range_straggling
    simp only [bind, StateT.bind, h, Except.bind, pureM]
    cases get_range_straggling_spline env d with
    | error _ => rfl
    | ok s => cases hs : s.evaluate T <;> simp [hs, Except.bind, Except.map, pure, Except.pure, StateT.pure]
  · unfold Call.respond Call.run energy_straggling_from_E
    simp only [bind, StateT.bind, h, Except.bind, pureM]
    cases get_range_spline env d with
    | error _ => rfl
    | ok s =>
      cases get_range_straggling_spline env d with
      | error _ => rfl
      | ok s' =>
        cases hs : s.deriv e with
        | error _ => simp [hs, Except.bind, Except.map]
        | ok D =>
          cases h1 : s'.evaluate T with
          | error _ => simp [hs, h1, Except.bind, Except.map]
          | ok a => cases h2 : s'.evaluate e <;> simp [hs, h1, h2, Except.bind, Except.map, pure, Except.pure, StateT.pure]

/-- C147: so the ions of all charge states have, after any two histories, the same range, energy behind a layer, stopping power taken from the range,
range straggling and energy straggling, at every energy. -/
theorem charge_state_calls (env : Env ℝ) (p : Projectile ℝ) (n : Int) (t : Material ℝ) (c : Config ℝ) (h : Computable p n t c) (hc : c.z_effective ≠ 0)
    (q : ℝ) (n1 : NonDefault p t c) (n2 : NonDefault (p.inState q) t c) (w1 w2 : World ℝ) (r1 : ReachableW env w1) (r2 : ReachableW env w2) :
    (Call.range (p.inState q) t c).respond env w2 = (Call.range p t c).respond env w1 ∧
    (Call.dedx_from_range (p.inState q) t c).respond env w2 = (Call.dedx_from_range p t c).respond env w1 ∧
    (Call.energy_out (p.inState q) t c).respond env w2 = (Call.energy_out p t c).respond env w1 ∧
    (∀ T, (Call.range_variance (p.inState q) T t c).respond env w2 = (Call.range_variance p T t c).respond env w1) ∧
    (∀ T, (Call.range_straggling (p.inState q) T t c).respond env w2 = (Call.range_straggling p T t c).respond env w1) ∧
    ∀ T e, (Call.energy_straggling_from_E (p.inState q) T e t c).respond env w2 = (Call.energy_straggling_from_E p T e t c).respond env w1 := by
  have h' : Computable (p.inState q) n t c := ⟨⟨h.ion.Z, h.ion.pos, h.ion.int, h.ion.A⟩, h.small, h.sound, h.known,
    Or.inl (h.charge.resolve_right fun e => hc e.1)⟩
  obtain ⟨d1, w1', d0, g1, -, -, c1, s1, s2, -⟩ := get_view env w1 r1 p n t c h n1
  obtain ⟨d2, w2', d0', g2, -, -, c2, s1', s2', -⟩ := get_view env w2 r2 _ n t c h' n2
  obtain ⟨e1, e2, -⟩ := charge_state_tables env p t c hc q d0 d0' c1 c2
  obtain ⟨a1, a2, a3, a4, a5, a6⟩ := responses_of_data env p t c w1 w1' d1 g1
  obtain ⟨b1, b2, b3, b4, b5, b6⟩ := responses_of_data env _ t c w2 w2' d2 g2
  rw [e1, ← s1] at s1'
  rw [e2, ← s2] at s2'
  rw [s1'] at b1 b2 b3 b6
  rw [s2'] at b4 b5 b6
  refine ⟨?_, ?_, ?_, fun T => ?_, fun T => ?_, fun T e => ?_⟩
  · rw [a1, b1]; rfl
  · rw [a2, b2]; rfl
  · rw [a3, b3]; rfl
  · rw [a4, b4]
  · rw [a5, b5]
  · rw [a6, b6]; rfl

/-- The energy straggling behind a layer is read from the table of the range variances. -/
theorem stragglings_energy {env : Env ℝ} {A T E D : ℝ} {u : Bool} {ss a1 a2 : Spline ℝ} {x y x' y' : ℝ}
    (h1 : stragglings env A T E D u ss a1 = .ok (x, y)) (h2 : stragglings env A T E D u ss a2 = .ok (x', y')) : x = x' := by
  unfold stragglings at h1 h2
  by_cases hb : (env.thin && (thin_target_limit * T <? E)) = true
  · rw [if_pos hb] at h1 h2
    simp only [ok_bind] at h1 h2
    obtain ⟨s1, e1, s2, e2, h1⟩ := h1
    obtain ⟨s1', e1', s2', e2', h2⟩ := h2
    rw [e1] at e1'
    rw [e2] at e2'
    obtain rfl := Except.ok.inj e1'
    obtain rfl := Except.ok.inj e2'
    cases u
    · simp [ok_pure] at h1 h2
      exact h1.1.symm.trans h2.1
    · rw [if_pos rfl] at h1 h2
      simp only [ok_bind, ok_pure] at h1 h2
      obtain ⟨_, -, _, -, h1⟩ := h1
      obtain ⟨_, -, _, -, h2⟩ := h2
      exact (Prod.mk.inj h1).1.symm.trans (Prod.mk.inj h2).1
  · rw [if_neg hb] at h1 h2
    simp only [ok_bind] at h1 h2
    obtain ⟨s1, e1, s2, e2, h1⟩ := h1
    obtain ⟨s1', e1', s2', e2', h2⟩ := h2
    rw [e1] at e1'
    rw [e2] at e2'
    obtain rfl := Except.ok.inj e1'
    obtain rfl := Except.ok.inj e2'
    cases u
    · simp [ok_pure] at h1 h2
      exact h1.1.symm.trans h2.1
    · rw [if_pos rfl] at h1 h2
      simp only [ok_bind, ok_pure] at h1 h2
      obtain ⟨_, -, _, -, h1⟩ := h1
      obtain ⟨_, -, _, -, h2⟩ := h2
      exact (Prod.mk.inj h1).1.symm.trans (Prod.mk.inj h2).1

/-- C147: and `calculate` reports the same energies, ranges, stopping powers, longitudinal straggling, position spread, covariance and probability not
to react. -/
theorem charge_state_calculate (env : Env ℝ) (p : Projectile ℝ) (n : Int) (t : Material ℝ) (c : Config ℝ) (h : Computable p n t c)
    (hc : c.z_effective ≠ 0) (q : ℝ) (n1 : NonDefault p t c) (n2 : NonDefault (p.inState q) t c) (w1 w2 u1 u2 : World ℝ)
    (r1 : ReachableW env w1) (r2 : ReachableW env w2) (a b : Result ℝ)
    (ha : calculate env p t c w1 = .ok (a, u1)) (hb : calculate env (p.inState q) t c w2 = .ok (b, u2)) :
    a.Ein = b.Ein ∧ a.Eout = b.Eout ∧ a.Eloss = b.Eloss ∧ a.range = b.range ∧ a.dEdxi = b.dEdxi ∧ a.dEdxo = b.dEdxo ∧ a.sigma_r = b.sigma_r ∧
      a.sigma_E = b.sigma_E ∧ a.sigma_x = b.sigma_x ∧ a.cov = b.cov ∧ a.sp = b.sp := by
  have h' : Computable (p.inState q) n t c := ⟨⟨h.ion.Z, h.ion.pos, h.ion.int, h.ion.A⟩, h.small, h.sound, h.known,
    Or.inl (h.charge.resolve_right fun e => hc e.1)⟩
  obtain ⟨d1, x1, d0, g1, -, -, c1, s1, v1, -⟩ := get_view env w1 r1 p n t c h n1
  obtain ⟨d2, x2, d0', g2, -, -, c2, s2, v2, -⟩ := get_view env w2 r2 _ n t c h' n2
  obtain ⟨t1, t2, -⟩ := charge_state_tables env p t c hc q d0 d0' c1 c2
  rw [t1, ← s1] at s2
  rw [t2, ← v1] at v2
  rcases calculate_steps ha with ⟨hs, rfl, -⟩ | ⟨hs, y1, e1, rs, ss, hst, ha'⟩
  · rcases calculate_steps hb with ⟨-, rfl, -⟩ | ⟨hs', -⟩
    · exact ⟨rfl, rfl, rfl, rfl, rfl, rfl, rfl, rfl, rfl, rfl, rfl⟩
    · change tooSlow p.T = false at hs'
      rw [hs] at hs'; cases hs'
  rcases calculate_steps hb with ⟨hs', -, -⟩ | ⟨-, y2, e2, rs', ss', hst', hb'⟩
  · change tooSlow p.T = true at hs'
    rw [hs] at hs'; cases hs'
  have q1 := hst.data
  rw [g1] at q1
  obtain ⟨rfl, rfl⟩ := Prod.mk.inj (Except.ok.inj q1)
  have q2 := hst'.data
  rw [g2] at q2
  obtain ⟨rfl, rfl⟩ := Prod.mk.inj (Except.ok.inj q2)
  have q4 := hst'.rspline
  rw [s2, hst.rspline] at q4
  obtain rfl := Except.ok.inj q4
  have q5 := hst'.sspline
  rw [v2, hst.sspline] at q5
  obtain rfl := Except.ok.inj q5
  have eR : a.range = b.range := by
    have := hst'.range
    change rs.evaluate p.T = _ at this
    rw [hst.range] at this
    exact Except.ok.inj this
  have eD : a.dEdxi = b.dEdxi := by
    obtain ⟨D, f1, f2⟩ := hst.dEdxi
    obtain ⟨D', f1', f2'⟩ := hst'.dEdxi
    change rs.deriv p.T = _ at f1'
    rw [f1] at f1'
    rw [f2, f2', Except.ok.inj f1']
    rfl
  have eS : a.sigma_r = b.sigma_r := by
    obtain ⟨D, f1, f2⟩ := hst.sigma_r
    obtain ⟨D', f1', f2'⟩ := hst'.sigma_r
    change ss.evaluate p.T = _ at f1'
    rw [f1] at f1'
    rw [f2, f2', Except.ok.inj f1']
  have eI : a.Ein = b.Ein := by rw [hst.ein, hst'.ein]; rfl
  have hT' : ((p.T <? Ezero) && (p.T <? Ezero - numeric_epsilon)) = false := hs
  rcases ha' with ⟨z0, -, za⟩ | ⟨z0, hE, hL, wa, wb, wc, sx, hcase, -⟩
  · rcases hb' with ⟨-, -, zb⟩ | ⟨z1, -⟩
    · refine ⟨eI, ?_, ?_, eR, eD, ?_, eS, ?_, ?_, ?_, ?_⟩ <;> rw [za, zb]
      · rfl
      · exact eD
    · rw [z0] at z1; cases z1
  rcases hb' with ⟨z1, -⟩ | ⟨-, hE', hL', wa', wb', wc', sx', hcase', -⟩
  · rw [z0] at z1; cases z1
  have eE : a.Eout = b.Eout := by
    change energy_out_spline env.debug p.T t.th rs = _ at hE'
    rw [hE] at hE'
    exact Except.ok.inj hE'
  obtain ⟨⟨_, m1, m2⟩, m3, ⟨_, m4⟩, -⟩ := calculate_agrees_out env p t c w1 u1 a r1 (key_refl_real _) hT' z0 ha
  obtain ⟨⟨_, l1, l2⟩, l3, ⟨_, l4⟩, -⟩ := calculate_agrees_out env (p.inState q) t _ w2 u2 b r2 (key_refl_real _) hT' z0 hb
  have av : ∀ o x y z z', angular_variance env p t c o w1 = .ok (x, z) → angular_variance env (p.inState q) t c o w2 = .ok (y, z') → x = y := by
    intro o x y z z' i1 i2
    unfold angular_variance at i1 i2
    simp only [api_bind, api_pureM, ok_bind] at i1 i2
    obtain ⟨_, _, ⟨-, rfl⟩, _, _, ⟨-, rfl⟩, _, _, ⟨-, rfl⟩, d, _, hd, ⟨R, hR, f1⟩, -⟩ := i1
    obtain ⟨_, _, ⟨-, rfl⟩, _, _, ⟨-, rfl⟩, _, _, ⟨-, rfl⟩, d', _, hd', ⟨R', hR', f2⟩, -⟩ := i2
    rw [g1] at hd
    obtain ⟨rfl, rfl⟩ := Prod.mk.inj (Except.ok.inj hd)
    rw [g2] at hd'
    obtain ⟨rfl, rfl⟩ := Prod.mk.inj (Except.ok.inj hd')
    rw [s2, hR] at hR'
    obtain rfl := Except.ok.inj hR'
    change angular_variance_from env p t c o R = _ at f2
    rw [f1] at f2
    exact Except.ok.inj f2
  have nr : ∀ x y z z', nonreaction_rate env p t c w1 = .ok (x, z) → nonreaction_rate env (p.inState q) t c w2 = .ok (y, z') → x = y := by
    intro x y z z' i1 i2
    unfold nonreaction_rate at i1 i2
    rw [show (p.inState q).T = p.T from rfl] at i2
    by_cases b1 : (p.T <? (emin_reaction : ℝ)) = true
    · rw [if_pos b1, api_pure] at i1
      rw [if_pos b1, api_pure] at i2
      rw [← i1.1, ← i2.1]
    by_cases b2 : (t.th ≤? (0.0 : ℝ)) = true
    · rw [if_neg b1, if_pos b2, api_pure] at i1
      rw [if_neg b1, if_pos b2, api_pure] at i2
      rw [← i1.1, ← i2.1]
    rw [if_neg b1, if_neg b2] at i1 i2
    simp only [api_bind, api_pureM, ok_bind] at i1 i2
    obtain ⟨d, _, hd, ⟨R, hR, f1⟩, -⟩ := i1
    obtain ⟨d', _, hd', ⟨R', hR', f2⟩, -⟩ := i2
    rw [g1] at hd
    obtain ⟨rfl, rfl⟩ := Prod.mk.inj (Except.ok.inj hd)
    rw [g2] at hd'
    obtain ⟨rfl, rfl⟩ := Prod.mk.inj (Except.ok.inj hd')
    rw [s2, hR] at hR'
    obtain rfl := Except.ok.inj hR'
    change nonreaction_rate_from env p t R = _ at f2
    rw [f1] at f2
    exact Except.ok.inj f2
  refine ⟨eI, eE, by rw [hL, hL', eE]; rfl, eR, eD, ?_, eS, ?_, ?_, av _ _ _ _ _ m3 l3, nr _ _ _ _ m4 l4⟩
  · rcases hcase with ⟨i1, i2, -⟩ | ⟨i1, i2⟩
    · rcases hcase' with ⟨j1, j2, -⟩ | ⟨j1, -⟩
      · rw [i2, j2]
      · rw [← eE, i1] at j1; cases j1
    · rcases hcase' with ⟨j1, -⟩ | ⟨j1, j2⟩
      · rw [← eE, i1] at j1; cases j1
      · obtain ⟨D, f1, f2⟩ := i2.slope
        obtain ⟨D', f1', f2'⟩ := j2.slope
        rw [← eE, f1] at f1'
        rw [f2, f2', Except.ok.inj f1']
        rfl
  · rcases hcase with ⟨i1, -, i2, -⟩ | ⟨i1, i2⟩
    · rcases hcase' with ⟨j1, -, j2, -⟩ | ⟨j1, -⟩
      · rw [i2, j2]
      · rw [← eE, i1] at j1; cases j1
    · rcases hcase' with ⟨j1, -⟩ | ⟨j1, j2⟩
      · rw [← eE, i1] at j1; cases j1
      · obtain ⟨D, f1, f2⟩ := i2.slope
        obtain ⟨D', f1', f2'⟩ := j2.slope
        rw [← eE, f1] at f1'
        have eo : a.dEdxo = b.dEdxo := by
          rw [f2, f2', Except.ok.inj f1']
          rfl
        obtain ⟨A1, B1, -, k1, -⟩ := i2.strag
        obtain ⟨A2, B2, -, k2, -⟩ := j2.strag
        change stragglings env p.A p.T _ _ _ ss A2 = _ at k2
        rw [← eE, ← eo] at k2
        exact stragglings_energy k1 k2
  · rw [m2, l2, av _ _ _ _ _ m1 l1]

/-- What both charge states have in common behind a layer. -/
def SameFlight (a b : Result ℝ) : Prop :=
  a.Ein = b.Ein ∧ a.Eout = b.Eout ∧ a.Eloss = b.Eloss ∧ a.range = b.range ∧ a.dEdxi = b.dEdxi ∧ a.dEdxo = b.dEdxo ∧ a.sigma_r = b.sigma_r ∧
    a.sigma_E = b.sigma_E ∧ a.sigma_x = b.sigma_x ∧ a.cov = b.cov ∧ a.sp = b.sp

/-- C147: the same layer by layer for stacks of layers, and for the energy behind the stack and the energy that is lost in it. -/
theorem charge_state_layers (env : Env ℝ) (p : Projectile ℝ) (n : Int) (ps : Phasespace ℝ) (l : Layers ℝ) (c : Config ℝ) (hc : c.z_effective ≠ 0)
    (q : ℝ) (h : ∀ m ∈ l.materials, Computable p n m c ∧ NonDefault p m c ∧ NonDefault (p.inState q) m c) (w1 w2 u1 u2 : World ℝ)
    (r1 : ReachableW env w1) (r2 : ReachableW env w2) (a b : MultiResult ℝ)
    (ha : calculate_layers env p ps l c w1 = .ok (a, u1)) (hb : calculate_layers env (p.inState q) ps l c w2 = .ok (b, u2)) :
    List.Forall₂ SameFlight a.results b.results ∧ a.total_result.Eloss = b.total_result.Eloss ∧
      (l.materials ≠ [] → a.total_result.Eout = b.total_result.Eout) := by
  obtain ⟨ca, -⟩ := layers_inv ha
  obtain ⟨cb, -⟩ := layers_inv hb
  have key : ∀ (ms : List (Material ℝ)) (e : ℝ) (w1 w2 u1 u2 : World ℝ) (ra rb : List (Result ℝ)), ReachableW env w1 → ReachableW env w2 →
      (∀ m ∈ ms, Computable p n m c ∧ NonDefault p m c ∧ NonDefault (p.inState q) m c) →
      Crossing env p c e ms w1 ra u1 → Crossing env (p.inState q) c e ms w2 rb u2 → List.Forall₂ SameFlight ra rb := by
    intro ms
    induction ms with
    | nil =>
      intro e w1 w2 u1 u2 ra rb _ _ _ k1 k2
      cases k1
      cases k2
      exact .nil
    | cons m ms ih =>
      intro e w1 w2 u1 u2 ra rb r1 r2 h k1 k2
      cases k1 with
      | cons i1 k1 =>
        cases k2 with
        | cons i2 k2 =>
          obtain ⟨h1, h2, h3⟩ := h m (by simp)
          have hf := charge_state_calculate env (p.withT e) n m c ⟨⟨h1.ion.Z, h1.ion.pos, h1.ion.int, h1.ion.A⟩, h1.small, h1.sound, h1.known,
            h1.charge⟩ hc q h2 h3 _ _ _ _ r1 r2 _ _ i1 i2
          rw [hf.2.1] at k1
          exact .cons hf (ih _ _ _ _ _ _ _ (crossing_reachable r1 i1) (crossing_reachable r2 i2) (fun m' hm => h m' (by simp [hm])) k1 k2)
  have hf := key _ _ _ _ _ _ _ _ r1 r2 h ca cb
  obtain ⟨-, t2, -, t4⟩ := layers_totals env p ps l c w1 u1 _ ha
  obtain ⟨-, s2, -, s4⟩ := layers_totals env (p.inState q) ps l c w2 u2 _ hb
  have la := crossing_lengths ca
  have eL : a.results.map Result.Eloss = b.results.map Result.Eloss := by
    rw [← List.forall₂_eq_eq_eq, List.forall₂_map_left_iff, List.forall₂_map_right_iff]
    exact hf.imp fun _ _ g => g.2.2.1
  have eO : a.results.map Result.Eout = b.results.map Result.Eout := by
    rw [← List.forall₂_eq_eq_eq, List.forall₂_map_left_iff, List.forall₂_map_right_iff]
    exact hf.imp fun _ _ g => g.2.1
  refine ⟨hf, by rw [t2, s2, eL], fun hne => ?_⟩
  have n1 : a.results ≠ [] := by
    intro h0
    rw [h0] at la
    exact hne (List.length_eq_zero_iff.mp la.symm)
  have n2 : b.results ≠ [] := by
    intro h0
    have := hf.length_eq
    rw [h0] at this
    exact n1 (List.length_eq_zero_iff.mp this)
  rw [t4 _ (List.getLast?_eq_getLast_of_ne_nil n1), s4 _ (List.getLast?_eq_getLast_of_ne_nil n2)]
  have := congrArg List.getLast? eO
  rw [List.getLast?_map, List.getLast?_map, List.getLast?_eq_getLast_of_ne_nil n1, List.getLast?_eq_getLast_of_ne_nil n2] at this
  exact Option.some.inj this

/-- Carbon ions in water, bare and with one electron, in the default configuration: the difference of the charge states is without effect. -/
example (env : Env ℝ) (w : World ℝ) (hw : ReachableW env w) :
    (Call.range (⟨12, 6, 5, 100⟩ : Projectile ℝ) ⟨1, 1, 18.015, 0, [⟨1.00794, 1, 2⟩, ⟨15.9994, 8, 1⟩]⟩ .default).respond env w =
    (Call.range (⟨12, 6, 6, 100⟩ : Projectile ℝ) ⟨1, 1, 18.015, 0, [⟨1.00794, 1, 2⟩, ⟨15.9994, 8, 1⟩]⟩ .default).respond env .init := by
  have hk : ∀ q, NonDefault (⟨12, 6, q, 100⟩ : Projectile ℝ) ⟨1, 1, 18.015, 0, [⟨1.00794, 1, 2⟩, ⟨15.9994, 8, 1⟩]⟩ .default := by
    intro q
    simp only [NonDefault, Key.eq, Key.default, Projectile.eq, Projectile.default]
    simp
    intro h
    norm_num at h
  exact (charge_state_calls env (⟨12, 6, 6, 100⟩ : Projectile ℝ) 6 _ .default (carbon_water_usual 6 100).1 (by decide) 5 (hk 6) (hk 5) .init w
    ⟨[], rfl⟩ hw).1

/-- The same ions behind 1 g/cm² of water. -/
example (env : Env ℝ) (w u v : World ℝ) (hw : ReachableW env w) (a b : Result ℝ)
    (ha : calculate env (⟨12, 6, 6, 100⟩ : Projectile ℝ) ⟨1, 1, 18.015, 0, [⟨1.00794, 1, 2⟩, ⟨15.9994, 8, 1⟩]⟩ .default .init = .ok (a, u))
    (hb : calculate env (⟨12, 6, 5, 100⟩ : Projectile ℝ) ⟨1, 1, 18.015, 0, [⟨1.00794, 1, 2⟩, ⟨15.9994, 8, 1⟩]⟩ .default w = .ok (b, v)) :
    a.Eout = b.Eout ∧ a.sigma_E = b.sigma_E := by
  have hk : ∀ q, NonDefault (⟨12, 6, q, 100⟩ : Projectile ℝ) ⟨1, 1, 18.015, 0, [⟨1.00794, 1, 2⟩, ⟨15.9994, 8, 1⟩]⟩ .default := by
    intro q
    simp only [NonDefault, Key.eq, Key.default, Projectile.eq, Projectile.default]
    simp
    intro h
    norm_num at h
  obtain ⟨-, h1, -, -, -, -, -, h2, -⟩ := charge_state_calculate env (⟨12, 6, 6, 100⟩ : Projectile ℝ) 6 _ .default (carbon_water_usual 6 100).1
    (by decide) 5 (hk 6) (hk 5) .init w u v ⟨[], rfl⟩ hw a b ha hb
  exact ⟨h1, h2⟩

/-- And behind two layers of water. -/
example (env : Env ℝ) (w u v : World ℝ) (hw : ReachableW env w) (a b : MultiResult ℝ)
    (ha : calculate_layers env (⟨12, 6, 6, 100⟩ : Projectile ℝ) .init ⟨[⟨1, 1, 18.015, 0, [⟨1.00794, 1, 2⟩, ⟨15.9994, 8, 1⟩]⟩,
      ⟨1, 1, 18.015, 0, [⟨1.00794, 1, 2⟩, ⟨15.9994, 8, 1⟩]⟩]⟩ .default .init = .ok (a, u))
    (hb : calculate_layers env (⟨12, 6, 5, 100⟩ : Projectile ℝ) .init ⟨[⟨1, 1, 18.015, 0, [⟨1.00794, 1, 2⟩, ⟨15.9994, 8, 1⟩]⟩,
      ⟨1, 1, 18.015, 0, [⟨1.00794, 1, 2⟩, ⟨15.9994, 8, 1⟩]⟩]⟩ .default w = .ok (b, v)) :
    a.total_result.Eout = b.total_result.Eout := by
  have hk : ∀ q, NonDefault (⟨12, 6, q, 100⟩ : Projectile ℝ) ⟨1, 1, 18.015, 0, [⟨1.00794, 1, 2⟩, ⟨15.9994, 8, 1⟩]⟩ .default := by
    intro q
    simp only [NonDefault, Key.eq, Key.default, Projectile.eq, Projectile.default]
    simp
    intro h
    norm_num at h
  refine (charge_state_layers env (⟨12, 6, 6, 100⟩ : Projectile ℝ) 6 .init _ .default (by decide) 5 ?_ .init w u v ⟨[], rfl⟩ hw a b ha hb).2.2 (by simp)
  intro m hm
  simp only [List.mem_cons, List.not_mem_nil, or_false, or_self] at hm
  subst hm
  exact ⟨(carbon_water_usual 6 100).1, hk 6, hk 5⟩

end Catima
