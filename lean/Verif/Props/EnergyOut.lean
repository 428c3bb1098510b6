import Verif.Lemmas.Run
import Verif.Props.Spline
import Verif.Spec.EnergyOut

/-!
# C49-C53: outgoing energy
-/

namespace Catima
variable {α : Type} [Scalar α]

/-! ## C52: termination -/

theorem LoopRun.det {debug : Bool} {f f' : α → M α} {range th : α} {s : α × α × Nat} {n n' : Nat}
    {r r' : M α} (h : LoopRun debug f f' range th s n r) (h' : LoopRun debug f f' range th s n' r') :
    n = n' ∧ r = r' := by
  induction h generalizing n' r' with
  | value h1 =>
    cases h' with
    | value h2 => rw [h1] at h2; cases h2; exact ⟨rfl, rfl⟩
    | fault h2 => rw [h1] at h2; cases h2
    | next h2 _ => rw [h1] at h2; cases h2
  | fault h1 =>
    cases h' with
    | value h2 => rw [h1] at h2; cases h2
    | fault h2 => rw [h1] at h2; cases h2; exact ⟨rfl, rfl⟩
    | next h2 _ => rw [h1] at h2; cases h2
  | next h1 _ ih =>
    cases h' with
    | value h2 => rw [h1] at h2; cases h2
    | fault h2 => rw [h1] at h2; cases h2
    | next h2 h3 =>
      rw [h1] at h2; cases h2
      obtain ⟨e1, e2⟩ := ih h3
      exact ⟨by rw [e1], e2⟩

/-- The model's loop with `fuel` turns left is the loop of the code at `counter = 101 - fuel`. -/
theorem loop_runs (debug : Bool) (rs : Spline α) (range th : α) (fuel : Nat) (hf : fuel + 1 ≤ 101)
    (e dedx : α) : ∃ n ≤ fuel + 1, LoopRun debug rs.evaluate rs.deriv range th (e, dedx, 100 - fuel) n
      (energyOutLoop debug rs range th (fuel + 1) e dedx) := by
  induction fuel generalizing e dedx with
  | zero =>
    refine ⟨1, le_rfl, ?_⟩
    unfold energyOutLoop Eout_th_epsilon Ezero
    cases he : rs.evaluate e with
    | error x => exact .fault (by simp only [loopTurn, he]; rfl)
    | ok v =>
      simp only [bind_ok]
      by_cases h1 : Scalar.lt (Scalar.fabs (range - v - th)) 1.0e-5 = true
      · rw [if_pos h1]
        refine .value ?_
        simp only [loopTurn, he, bind_ok]
        rw [if_pos h1]; rfl
      · rw [if_neg h1]
        by_cases h2 : Scalar.lt (e - -(range - v - th) * dedx) 1.0e-3 = true
        · rw [if_pos h2]
          refine .value ?_
          simp only [loopTurn, he, bind_ok]
          rw [if_neg h1, if_pos h2]; rfl
        · rw [if_neg h2]
          cases hd : rs.deriv (e - -(range - v - th) * dedx) with
          | error x =>
            refine .fault ?_
            simp only [loopTurn, he, bind_ok]
            rw [if_neg h1, if_neg h2, hd]; rfl
          | ok v' =>
            cases debug with
            | true =>
              refine .fault ?_
              simp only [loopTurn, he, bind_ok]
              rw [if_neg h1, if_neg h2, hd]; rfl
            | false =>
              refine .value ?_
              simp only [loopTurn, he, bind_ok]
              rw [if_neg h1, if_neg h2, hd]; rfl
  | succ fuel ih =>
    unfold energyOutLoop Eout_th_epsilon Ezero
    cases he : rs.evaluate e with
    | error x => exact ⟨1, by omega, .fault (by simp only [loopTurn, he]; rfl)⟩
    | ok v =>
      simp only [bind_ok]
      by_cases h1 : Scalar.lt (Scalar.fabs (range - v - th)) 1.0e-5 = true
      · rw [if_pos h1]
        refine ⟨1, by omega, .value ?_⟩
        simp only [loopTurn, he, bind_ok]
        rw [if_pos h1]; rfl
      · rw [if_neg h1]
        by_cases h2 : Scalar.lt (e - -(range - v - th) * dedx) 1.0e-3 = true
        · rw [if_pos h2]
          refine ⟨1, by omega, .value ?_⟩
          simp only [loopTurn, he, bind_ok]
          rw [if_neg h1, if_pos h2]; rfl
        · rw [if_neg h2]
          cases hd : rs.deriv (e - -(range - v - th) * dedx) with
          | error x =>
            refine ⟨1, by omega, .fault ?_⟩
            simp only [loopTurn, he, bind_ok]
            rw [if_neg h1, if_neg h2, hd]; rfl
          | ok v' =>
            simp only [bind_ok]
            rw [if_neg (by omega)]
            obtain ⟨n, hn, hr⟩ := ih (by omega) (e - -(range - v - th) * dedx) (1.0 / v')
            refine ⟨n + 1, by omega, .next (s' := (_, _, 100 - fuel)) ?_ hr⟩
            simp only [loopTurn, he, bind_ok]
            rw [if_neg h1, if_neg h2, hd]
            have e1 : 100 - (fuel + 1) + 1 = 100 - fuel := by omega
            have e2 : decide (100 - fuel ≤ 100) = true := by simp
            simp only [bind_ok, e1, e2]
            rw [if_neg (by omega)]
            simp [cassert]

/-- C52: the loop of `energy_out`, in which nothing but its own exits limits the number of turns, is
left after at most 101 turns, for every input; it has exactly one run, and the result of that run is
the value `energy_out` returns. -/
theorem energy_out_terminates (debug : Bool) (rs : Spline α) (T th : α) :
    (∃ R dR, rs.evaluate T = .ok R ∧ rs.deriv T = .ok dR ∧ Scalar.le R th = false ∧
      ∃ n ≤ 101, LoopRun debug rs.evaluate rs.deriv R th (T - th * (1.0 / dR), 1.0 / dR, 0) n
          (energy_out_spline debug T th rs) ∧
        ∀ n' r', LoopRun debug rs.evaluate rs.deriv R th (T - th * (1.0 / dR), 1.0 / dR, 0) n' r' →
          n' = n ∧ r' = energy_out_spline debug T th rs) ∨
    (∃ R, rs.evaluate T = .ok R ∧ Scalar.le R th = true ∧ energy_out_spline debug T th rs = .ok 0.0) ∨
    (∃ e, (rs.evaluate T = .error e ∨ rs.deriv T = .error e) ∧
      energy_out_spline debug T th rs = .error e) := by
  unfold energy_out_spline
  cases h1 : rs.evaluate T with
  | error e => exact .inr (.inr ⟨e, .inl rfl, rfl⟩)
  | ok R =>
    cases h2 : rs.deriv T with
    | error e => exact .inr (.inr ⟨e, .inr rfl, rfl⟩)
    | ok dR =>
      simp only [bind_ok]
      cases h3 : Scalar.le R th with
      | true => exact .inr (.inl ⟨R, rfl, h3, rfl⟩)
      | false =>
        rw [if_neg (by simp)]
        obtain ⟨n, hn, hr⟩ := loop_runs debug rs R th 100 (by omega) (T - th * (1.0 / dR)) (1.0 / dR)
        exact .inl ⟨R, dR, rfl, rfl, h3, n, hn, hr, fun n' r' h' => h'.det hr⟩

/-- The interpolators of the library never fault, so that in a build without assertions
`energy_out` returns a value for all energies and thicknesses. -/
theorem spline_total (jk : Junk ℝ) (g : Grid ℝ) (w : ℝ) (hg : g.Ordered w) (y : List ℝ)
    (hy : y.length = g.n) : ∃ s, Spline.new jk g y = .ok s ∧
      ∀ x, (∃ v, s.evaluate x = .ok v) ∧ ∃ v, s.deriv x = .ok v := by
  obtain ⟨bs, h⟩ := Spline.new_eq hg jk y hy.ge
  refine ⟨_, h, fun x => ?_⟩
  obtain ⟨i, k, h1, h2, h3, h4, h5⟩ := Spline.index_data hg x
  exact ⟨⟨_, Spline.evaluate_ofB g y bs hg.size hy.ge x i k h1 h2 h3 h4 h5⟩,
    ⟨_, Spline.deriv_ofB g y bs hg.size x i k h1 h2 h3 h5⟩⟩

theorem loop_defined (rs : Spline ℝ) (h1 : ∀ x, ∃ v, rs.evaluate x = .ok v)
    (h2 : ∀ x, ∃ v, rs.deriv x = .ok v) (range th : ℝ) (fuel : Nat) (e d : ℝ) :
    ∃ E, energyOutLoop false rs range th fuel e d = .ok E := by
  induction fuel generalizing e d with
  | zero => exact ⟨_, rfl⟩
  | succ fuel ih =>
    unfold energyOutLoop
    obtain ⟨v, hv⟩ := h1 e
    simp only [hv, bind_ok]
    split
    · exact ⟨_, rfl⟩
    · split
      · exact ⟨_, rfl⟩
      · obtain ⟨v', hv'⟩ := h2 (e - -(range - v - th) * d)
        simp only [hv', bind_ok]
        split
        · exact ⟨_, rfl⟩
        · exact ih _ _

/-- C52: without assertions `energy_out` returns a value for every energy and thickness. -/
theorem energy_out_defined (jk : Junk ℝ) (g : Grid ℝ) (w : ℝ) (hg : g.Ordered w) (y : List ℝ)
    (hy : y.length = g.n) : ∃ s, Spline.new jk g y = .ok s ∧
      ∀ T th, ∃ E, energy_out_spline false T th s = .ok E := by
  obtain ⟨s, hs, ht⟩ := spline_total jk g w hg y hy
  refine ⟨s, hs, fun T th => ?_⟩
  obtain ⟨⟨R, hR⟩, ⟨d, hd⟩⟩ := ht T
  unfold energy_out_spline
  rw [hR, hd]
  simp only [bind_ok]
  split
  · exact ⟨_, rfl⟩
  · exact loop_defined s (fun x => (ht x).1) (fun x => (ht x).2) _ _ _ _ _

example (env : Env ℝ) : ∃ s, newSpline env (List.replicate 600 0) = .ok s ∧
    ∀ T th, ∃ E, energy_out_spline false T th s = .ok E :=
  energy_out_defined env.junk _ _ (library_table_ordered env.calcIndex) _ List.length_replicate

/-! ## C49, C50 -/

theorem loop_cases {debug : Bool} {rs : Spline α} {range th : α} {fuel : Nat} {e d E : α}
    (h : energyOutLoop debug rs range th fuel e d = .ok E) :
    E = 0.0 ∨ E = -1.0 ∨ ∃ R, rs.evaluate E = .ok R ∧
      Scalar.lt (Scalar.fabs (range - R - th)) 1.0e-5 = true := by
  induction fuel generalizing e d with
  | zero => cases h; exact .inr (.inl rfl)
  | succ fuel ih =>
    unfold energyOutLoop at h
    rw [ok_bind] at h
    obtain ⟨R, hR, h⟩ := h
    rw [ok_ite] at h
    rcases h with ⟨h1, h⟩ | ⟨h1, h⟩
    · cases h
      exact .inr (.inr ⟨R, hR, h1⟩)
    · rw [ok_ite] at h
      rcases h with ⟨h2, h⟩ | ⟨h2, h⟩
      · cases h; exact .inl rfl
      · rw [ok_bind] at h
        obtain ⟨v, hv, h⟩ := h
        dsimp only at h
        rw [ok_ite] at h
        rcases h with ⟨h3, h⟩ | ⟨h3, h⟩
        · rw [ok_bind] at h
          obtain ⟨_, _, h⟩ := h
          cases h
          exact .inr (.inl rfl)
        · exact ih h

/-- C49: a result of `energy_out` other than the values 0 and -1 is certified: after the call,
`range` of the incoming and of the outgoing energy differ by the thickness up to 1e-5 g/cm2.  Holds
for every number type with reflexive comparison of keys. -/
theorem energy_out_certified (env : Env α) (w w' : World α) (hr : ReachableW env w)
    (p : Projectile α) (t : Material α) (c : Config α)
    (hk : (⟨p, t, c⟩ : Key α).eq ⟨p, t, c⟩ = true) (E : α)
    (h : energy_out env p t c w = .ok (E, w')) :
    E = 0.0 ∨ E = -1.0 ∨ ∃ RT RE, range env p t c w' = .ok (RT, w') ∧
      range env (p.withT E) t c w' = .ok (RE, w') ∧
      Scalar.lt (Scalar.fabs (RT - RE - t.th)) 1.0e-5 = true := by
  unfold energy_out at h
  rw [api_bind] at h
  obtain ⟨d, w1, hd, h⟩ := h
  rw [api_pureM, ok_bind] at h
  obtain ⟨⟨rs, hrs, h⟩, rfl⟩ := h
  unfold energy_out_spline at h
  rw [ok_bind] at h
  obtain ⟨R, hR, h⟩ := h
  rw [ok_bind] at h
  obtain ⟨dR, _, h⟩ := h
  dsimp only at h
  rw [ok_ite] at h
  rcases h with ⟨_, h⟩ | ⟨_, h⟩
  · cases h; exact .inl rfl
  · rcases loop_cases h with h | h | ⟨RE, h1, h2⟩
    · exact .inl h
    · exact .inr (.inl h)
    · refine .inr (.inr ⟨R, RE, ?_, ?_, h2⟩)
      · have := get_again hr hk hd p.T
        unfold range
        rw [api_bind]
        exact ⟨d, w1, this, by rw [api_pureM, ok_bind]; exact ⟨⟨rs, hrs, hR⟩, rfl⟩⟩
      · unfold range
        rw [api_bind]
        exact ⟨d, w1, get_again hr hk hd E, by rw [api_pureM, ok_bind]; exact ⟨⟨rs, hrs, h1⟩, rfl⟩⟩

/-- C49 over the real numbers. -/
theorem energy_out_certified_real (env : Env ℝ) (w w' : World ℝ) (hr : ReachableW env w)
    (p : Projectile ℝ) (t : Material ℝ) (c : Config ℝ) (E : ℝ)
    (h : energy_out env p t c w = .ok (E, w')) :
    E = 0 ∨ E = -1 ∨ ∃ RT RE, range env p t c w' = .ok (RT, w') ∧
      range env (p.withT E) t c w' = .ok (RE, w') ∧ |RT - RE - t.th| < 1e-5 := by
  rcases energy_out_certified env w w' hr p t c (key_refl_real _) E h with h | h | ⟨a, b, h1, h2, h3⟩
  · left; rw [h]; norm_num
  · right; left; rw [h]; norm_num
  · right; right
    rw [lt_real, fabs_real] at h3
    exact ⟨a, b, h1, h2, lt_of_lt_of_eq h3 (by norm_num)⟩

/-- C50: a projectile whose range does not exceed the thickness does not leave the material, and a
positive result means that the range exceeds the thickness. -/
theorem energy_out_stops (env : Env ℝ) (w w' w'' : World ℝ) (p : Projectile ℝ) (t : Material ℝ)
    (c : Config ℝ) (E R : ℝ) (h : energy_out env p t c w = .ok (E, w'))
    (hR : range env p t c w = .ok (R, w'')) :
    (R ≤ t.th → E = 0) ∧ (0 < E → t.th < R) := by
  unfold energy_out at h
  unfold range at hR
  rw [api_bind] at h hR
  obtain ⟨d, w1, hd, h⟩ := h
  obtain ⟨d', w2, hd', hR⟩ := hR
  rw [hd] at hd'
  cases hd'
  rw [api_pureM, ok_bind] at h hR
  obtain ⟨⟨rs, hrs, h⟩, rfl⟩ := h
  obtain ⟨⟨rs', hrs', hR⟩, rfl⟩ := hR
  rw [hrs] at hrs'
  cases hrs'
  have key : R ≤ t.th → E = 0 := by
    intro hle
    unfold energy_out_spline at h
    rw [hR, bind_ok, ok_bind] at h
    obtain ⟨dR, _, h⟩ := h
    dsimp only at h
    rw [if_pos (by rw [le_real]; exact hle)] at h
    cases h
    norm_num
  exact ⟨key, fun h0 => by
    by_contra hc
    have := key (not_lt.mp hc)
    linarith⟩

/-! ## C53 -/

theorem mapM_forall {β γ : Type} {f : β → M γ} {l : List β} {r : List γ} (h : l.mapM f = .ok r) :
    r.length = l.length ∧ ∀ (i : Nat) b, l[i]? = some b → ∃ v, r[i]? = some v ∧ f b = .ok v := by
  induction l generalizing r with
  | nil => cases h; simp
  | cons a l ih =>
    rw [List.mapM_cons, ok_bind] at h
    obtain ⟨v, hv, h⟩ := h
    rw [ok_bind] at h
    obtain ⟨vs, hvs, h⟩ := h
    cases h
    obtain ⟨h1, h2⟩ := ih hvs
    refine ⟨by simp [h1], fun i b hb => ?_⟩
    cases i with
    | zero => simp at hb; subst hb; exact ⟨v, by simp, hv⟩
    | succ i => simpa using h2 i b (by simpa using hb)

theorem mapM_defined {β γ : Type} {f : β → M γ} {l : List β} (h : ∀ b ∈ l, ∃ v, f b = .ok v) :
    ∃ r, l.mapM f = .ok r := by
  induction l with
  | nil => exact ⟨[], rfl⟩
  | cons a l ih =>
    obtain ⟨v, hv⟩ := h a (by simp)
    obtain ⟨r, hr⟩ := ih fun b hb => h b (by simp [hb])
    exact ⟨v :: r, by rw [List.mapM_cons, hv, bind_ok, hr]; rfl⟩

/-- C53 for `energy_out`: a vector of energies gives a vector of the same length; energies below
1e-3 give 0, every other entry is the value the scalar function returns afterwards for that
energy. -/
theorem energy_out_vector (env : Env α) (w w' : World α) (hr : ReachableW env w)
    (p : Projectile α) (Ts : List α) (t : Material α) (c : Config α)
    (hk : (⟨p, t, c⟩ : Key α).eq ⟨p, t, c⟩ = true) (l : List α)
    (h : energy_out_vec env p Ts t c w = .ok (l, w')) :
    l.length = Ts.length ∧ ∀ (i : Nat) e, Ts[i]? = some e → ∃ v, l[i]? = some v ∧
      (Scalar.lt e 1.0e-3 = true → v = 0.0) ∧
      (Scalar.lt e 1.0e-3 = false → energy_out env (p.withT e) t c w' = .ok (v, w')) := by
  unfold energy_out_vec at h
  rw [api_bind] at h
  obtain ⟨d, w1, hd, h⟩ := h
  rw [api_pureM, ok_bind] at h
  obtain ⟨⟨rs, hrs, h⟩, rfl⟩ := h
  obtain ⟨h1, h2⟩ := mapM_forall h
  refine ⟨h1, fun i e he => ?_⟩
  obtain ⟨v, hv, hv'⟩ := h2 i e he
  refine ⟨v, hv, fun hlt => ?_, fun hge => ?_⟩
  · have e1 : Scalar.lt e Ezero = true := hlt
    rw [if_pos e1] at hv'
    cases hv'; rfl
  · have e1 : Scalar.lt e Ezero = false := hge
    rw [e1, if_neg (by simp)] at hv'
    unfold energy_out
    rw [api_bind]
    exact ⟨d, w1, get_again hr hk hd e, by rw [api_pureM, ok_bind]; exact ⟨⟨rs, hrs, hv'⟩, rfl⟩⟩

/-- C53 for `dedx_from_range`. -/
theorem dedx_from_range_vector (env : Env α) (w w' : World α) (hr : ReachableW env w)
    (p : Projectile α) (Ts : List α) (t : Material α) (c : Config α)
    (hk : (⟨p, t, c⟩ : Key α).eq ⟨p, t, c⟩ = true) (l : List α)
    (h : dedx_from_range_vec env p Ts t c w = .ok (l, w')) :
    l.length = Ts.length ∧ ∀ (i : Nat) e, Ts[i]? = some e → ∃ v, l[i]? = some v ∧
      (Scalar.lt e 1.0e-3 = true → v = 0.0) ∧
      (Scalar.lt e 1.0e-3 = false → dedx_from_range env (p.withT e) t c w' = .ok (v, w')) := by
  unfold dedx_from_range_vec at h
  rw [api_bind] at h
  obtain ⟨d, w1, hd, h⟩ := h
  rw [api_pureM, ok_bind] at h
  obtain ⟨⟨rs, hrs, h⟩, rfl⟩ := h
  obtain ⟨h1, h2⟩ := mapM_forall h
  refine ⟨h1, fun i e he => ?_⟩
  obtain ⟨v, hv, hv'⟩ := h2 i e he
  refine ⟨v, hv, fun hlt => ?_, fun hge => ?_⟩
  · have e1 : Scalar.lt e Ezero = true := hlt
    rw [if_pos e1] at hv'
    cases hv'; rfl
  · have e1 : Scalar.lt e Ezero = false := hge
    rw [e1, if_neg (by simp)] at hv'
    unfold dedx_from_range
    rw [api_bind]
    exact ⟨d, w1, get_again hr hk hd e, by rw [api_pureM, ok_bind]; exact ⟨⟨rs, hrs, hv'⟩, rfl⟩⟩

/-- C53: the vector functions succeed whenever the scalar ones do. -/
theorem vector_defined (env : Env α) (w w' : World α) (hr : ReachableW env w)
    (p : Projectile α) (Ts : List α) (t : Material α) (c : Config α)
    (hk : (⟨p, t, c⟩ : Key α).eq ⟨p, t, c⟩ = true) (d : DataPoint α)
    (hd : get_data env p t c w = .ok (d, w')) (rs : Spline α) (hrs : get_range_spline env d = .ok rs) :
    ((∀ e ∈ Ts, ∃ v, energy_out env (p.withT e) t c w' = .ok (v, w')) →
      ∃ l, energy_out_vec env p Ts t c w = .ok (l, w')) ∧
    ((∀ e ∈ Ts, ∃ v, dedx_from_range env (p.withT e) t c w' = .ok (v, w')) →
      ∃ l, dedx_from_range_vec env p Ts t c w = .ok (l, w')) := by
  constructor
  · intro h
    have : ∃ r, (Ts.mapM fun e => if e <? Ezero then pure 0.0
        else energy_out_spline env.debug e t.th rs) = .ok r := mapM_defined fun e he => by
      obtain ⟨v, hv⟩ := h e he
      unfold energy_out at hv
      rw [api_bind] at hv
      obtain ⟨d', w1, hd', hv⟩ := hv
      rw [get_again hr hk hd e] at hd'
      cases hd'
      rw [api_pureM, ok_bind] at hv
      obtain ⟨⟨rs', hrs', hv⟩, -⟩ := hv
      rw [hrs] at hrs'
      cases hrs'
      split
      · exact ⟨_, rfl⟩
      · exact ⟨v, hv⟩
    obtain ⟨l, hl⟩ := this
    refine ⟨l, ?_⟩
    unfold energy_out_vec
    rw [api_bind]
    exact ⟨d, w', hd, by rw [api_pureM, ok_bind]; exact ⟨⟨rs, hrs, hl⟩, rfl⟩⟩
  · intro h
    have : ∃ r, (Ts.mapM fun e => if e <? Ezero then pure 0.0
        else do return p.A / (← rs.deriv e)) = .ok r := mapM_defined fun e he => by
      obtain ⟨v, hv⟩ := h e he
      unfold dedx_from_range at hv
      rw [api_bind] at hv
      obtain ⟨d', w1, hd', hv⟩ := hv
      rw [get_again hr hk hd e] at hd'
      cases hd'
      rw [api_pureM, ok_bind] at hv
      obtain ⟨⟨rs', hrs', hv⟩, -⟩ := hv
      rw [hrs] at hrs'
      cases hrs'
      split
      · exact ⟨_, rfl⟩
      · exact ⟨v, hv⟩
    obtain ⟨l, hl⟩ := this
    refine ⟨l, ?_⟩
    unfold dedx_from_range_vec
    rw [api_bind]
    exact ⟨d, w', hd, by rw [api_pureM, ok_bind]; exact ⟨⟨rs, hrs, hl⟩, rfl⟩⟩

end Catima
