import Verif.Lemmas.BetheOrder
import Verif.Lemmas.HeliumCurve
import Verif.Lemmas.HeavyRatio
import Verif.Lemmas.LindhardLow
import Verif.Props.DensityEffect
import Verif.Props.Global
import Verif.Props.IonRanges
import Verif.Props.Stopping

/-!
# C128: where the stopping power jumps
-/

namespace Catima

open Filter Topology

/-- Around `x` the computed quantity `f` is defined, and it has no jump at `x`. -/
def NoJump (f : ℝ → M ℝ) (x : ℝ) : Prop := ∃ D : ℝ → ℝ, (∀ᶠ T in 𝓝 x, f T = .ok (D T)) ∧ ContinuousAt D x

theorem NoJump.congr {f g : ℝ → M ℝ} {x : ℝ} (h : ∀ᶠ T in 𝓝 x, f T = g T) (hg : NoJump g x) : NoJump f x := by
  obtain ⟨D, hD, hc⟩ := hg
  exact ⟨D, by filter_upwards [h, hD] with T h1 h2; rw [h1, h2], hc⟩

/-- Two quantities without jump, combined continuously. -/
theorem NoJump.map₂ {f g : ℝ → M ℝ} {x : ℝ} (hf : NoJump f x) (hg : NoJump g x) (k : ℝ → ℝ → ℝ)
    (hk : Continuous fun q : ℝ × ℝ => k q.1 q.2) :
    NoJump (fun T => do let a ← f T; let b ← g T; return k a b) x := by
  obtain ⟨D, hD, hc⟩ := hf
  obtain ⟨E, hE, hc'⟩ := hg
  refine ⟨fun T => k (D T) (E T), ?_, ?_⟩
  · filter_upwards [hD, hE] with T h1 h2
    rw [h1, h2]
    rfl
  · exact (hk.continuousAt (x := (D x, E x))).comp (f := fun T => (D T, E T)) (hc.prodMk hc')

/-- The same, where only the energies in `s` matter. -/
def NoJumpOn (s : Set ℝ) (f : ℝ → M ℝ) (x : ℝ) : Prop :=
  ∃ D : ℝ → ℝ, (∀ᶠ T in 𝓝 x, T ∈ s → f T = .ok (D T)) ∧ ContinuousAt D x

/-- Sums over the components of a material. -/
theorem NoJumpOn.sum {s : Set ℝ} {m : Material ℝ} {f : ℝ → Target ℝ → M ℝ} {x : ℝ}
    (h : ∀ t ∈ m.atoms, NoJumpOn s (fun T => f T t) x) : NoJumpOn s (fun T => componentSum m (f T)) x := by
  have h' : ∀ t ∈ m.atoms, ∃ D : ℝ → ℝ, (∀ᶠ T in 𝓝 x, T ∈ s → f T t = .ok (D T)) ∧ ContinuousAt D x := h
  choose! D hD hc using h'
  refine ⟨fun T => (m.atoms.map fun t => m.wfrac t * D t T).sum, ?_, ?_⟩
  · have : ∀ᶠ T in 𝓝 x, ∀ t ∈ m.atoms, T ∈ s → f T t = .ok (D t T) := by
      have := (List.finite_toSet m.atoms).eventually_all (l := 𝓝 x) (p := fun t T => T ∈ s → f T t = .ok (D t T))
      exact this.mpr hD
    filter_upwards [this] with T hT hs
    exact componentSum_ok m _ _ fun t ht => hT t ht hs
  · clear hD h
    generalize m.wfrac = w
    generalize m.atoms = l at hc ⊢
    induction l with
    | nil => exact continuousAt_const
    | cons t l ih =>
      simp only [List.map_cons, List.sum_cons]
      exact (continuousAt_const.mul (hc t (by simp))).add (ih fun t' ht' => hc t' (by simp [ht']))

theorem NoJump.on {f : ℝ → M ℝ} {x : ℝ} (h : NoJump f x) (s : Set ℝ) : NoJumpOn s f x := by
  obtain ⟨D, hD, hc⟩ := h
  exact ⟨D, by filter_upwards [hD] with T hT _; exact hT, hc⟩

theorem NoJump.sum {m : Material ℝ} {f : ℝ → Target ℝ → M ℝ} {x : ℝ} (h : ∀ t ∈ m.atoms, NoJump (fun T => f T t) x) :
    NoJump (fun T => componentSum m (f T)) x := by
  obtain ⟨D, hD, hc⟩ := NoJumpOn.sum (s := Set.univ) (m := m) (f := f) fun t ht => (h t ht).on _
  exact ⟨D, by filter_upwards [hD] with T hT; exact hT trivial, hc⟩

/-- A choice between two formulae that does not change near `x`. -/
theorem continuousAt_choice {P : ℝ → Prop} [DecidablePred P] {f g : ℝ → ℝ} {x : ℝ} (h : (∀ᶠ y in 𝓝 x, P y) ∨ ∀ᶠ y in 𝓝 x, ¬ P y)
    (hf : P x → ContinuousAt f x) (hg : ¬ P x → ContinuousAt g x) : ContinuousAt (fun y => if P y then f y else g y) x := by
  rcases h with h | h
  · refine (hf h.self_of_nhds).congr ?_
    filter_upwards [h] with y hy
    rw [if_pos hy]
  · refine (hg h.self_of_nhds).congr ?_
    filter_upwards [h] with y hy
    rw [if_neg hy]

/-! ## Nuclear stopping -/

/-- The universal nuclear stopping power: the formula used up to the reduced energy 30 and the one used above. -/
noncomputable def snLow (e : ℝ) : ℝ :=
  Real.log (1 + 1.1383 * e) / (2 * (e + 0.01321 * e ^ (0.21226 : ℝ) + 0.19593 * e ^ (0.5 : ℝ)))
noncomputable def snHigh (e : ℝ) : ℝ := Real.log e / (2 * e)

theorem snLow_continuousAt (e : ℝ) (h : 0 < e) : ContinuousAt snLow e := by
  unfold snLow
  have h1 := Real.rpow_pos_of_pos h 0.21226
  have h2 := Real.rpow_pos_of_pos h 0.5
  refine ContinuousAt.div ?_ ?_ (by positivity)
  · refine ContinuousAt.log (by fun_prop) (by positivity)
  · refine continuousAt_const.mul ((continuousAt_id.add (continuousAt_const.mul ?_)).add (continuousAt_const.mul ?_))
    · exact Real.continuousAt_rpow_const _ _ (.inl h.ne')
    · exact Real.continuousAt_rpow_const _ _ (.inl h.ne')

theorem snHigh_continuousAt (e : ℝ) (h : 0 < e) : ContinuousAt snHigh e := by
  unfold snHigh
  exact (Real.continuousAt_log h.ne').div (by fun_prop) (by positivity)

/-- The two formulae do not meet at 30. -/
theorem sn_gap : snHigh 30 < snLow 30 := by
  unfold snHigh snLow
  have a1 : (30 : ℝ) ^ (0.21226 : ℝ) ≤ 2.341 := by
    calc (30 : ℝ) ^ (0.21226 : ℝ) ≤ (30 : ℝ) ^ ((1 : ℝ) / 4) := Real.rpow_le_rpow_of_exponent_le (by norm_num) (by norm_num)
      _ ≤ ((2.341 : ℝ) ^ (4 : ℕ)) ^ ((1 : ℝ) / 4) := Real.rpow_le_rpow (by norm_num) (by norm_num) (by norm_num)
      _ = 2.341 := by
        rw [← Real.rpow_natCast, ← Real.rpow_mul (by norm_num)]
        rw [show ((4 : ℕ) : ℝ) * ((1 : ℝ) / 4) = 1 by norm_num, Real.rpow_one]
  have a2 : (30 : ℝ) ^ (0.5 : ℝ) ≤ 5.4773 := by
    rw [show (0.5 : ℝ) = 1 / 2 by norm_num, ← Real.sqrt_eq_rpow, Real.sqrt_le_left (by norm_num)]
    norm_num
  have p1 : 0 < (30 : ℝ) ^ (0.21226 : ℝ) := Real.rpow_pos_of_pos (by norm_num) _
  have p2 : 0 < (30 : ℝ) ^ (0.5 : ℝ) := Real.rpow_pos_of_pos (by norm_num) _
  generalize (30 : ℝ) ^ (0.21226 : ℝ) = u at a1 p1 ⊢
  generalize (30 : ℝ) ^ (0.5 : ℝ) = v at a2 p2 ⊢
  have l1 : Real.log 30 ≤ 3.466 := by
    have : Real.log 30 ≤ Real.log (2 ^ 5) := Real.log_le_log (by norm_num) (by norm_num)
    rw [Real.log_pow] at this
    have := Real.log_two_lt_d9
    norm_num at *
    linarith
  have l2 : Real.log (1 + 1.1383 * 30) = Real.log 30 + Real.log (35.149 / 30) := by
    rw [← Real.log_mul (by norm_num) (by norm_num)]
    norm_num
  have l3 := Real.one_sub_inv_le_log_of_pos (show (0 : ℝ) < 35.149 / 30 by norm_num)
  have l0 : 0 < Real.log 30 := Real.log_pos (by norm_num)
  rw [l2, div_lt_div_iff₀ (by norm_num) (by positivity)]
  generalize Real.log 30 = L at *
  generalize Real.log (35.149 / 30) = M at *
  norm_num at a1 a2 l1 l3 ⊢
  nlinarith

theorem reduced_energy_linear (p : Projectile ℝ) (t : Target ℝ) (T : ℝ) :
    reduced_energy_loss_unit (p.withT T) t = reduced_energy_loss_unit (p.withT 1) t * T := by
  unfold reduced_energy_loss_unit
  simp only [Projectile.withT, pow_real, ofInt_real]
  have e1 : (1.0 : ℝ) = 1 := by norm_num
  generalize p.Z ^ (0.23 : ℝ) + (t.Z : ℝ) ^ (0.23 : ℝ) = q
  generalize (t.Z : ℝ) = z
  generalize 32.53 * t.A * 1000.0 = w
  ring

/-- Nuclear stopping in terms of the universal curve. -/
theorem nuclear_value (debug : Bool) (p : Projectile ℝ) (t : Target ℝ) (hZ : 0 < p.Z) (hA : 0 < p.A) (tZ : 1 ≤ t.Z) (tA : 0 < t.A) :
    ∃ K, 0 < K ∧ ∀ T, 0 < T → dedx_n_target debug (p.withT T) t = .ok (K *
      (if reduced_energy_loss_unit (p.withT T) t ≤ 30 then snLow (reduced_energy_loss_unit (p.withT T) t)
        else snHigh (reduced_energy_loss_unit (p.withT T) t))) := by
  have htz : (0 : ℝ) < t.Z := by exact_mod_cast (by omega : 0 < t.Z)
  have h1 := Real.rpow_pos_of_pos hZ 0.23
  have h2 := Real.rpow_pos_of_pos htz 0.23
  have hav : (0 : ℝ) < Avogadro := by norm_num [Avogadro]
  refine ⟨100.0 * 8.4621 * p.Z * t.Z * p.A * Avogadro / ((p.A + t.A) * (p.Z ^ (0.23 : ℝ) + (t.Z : ℝ) ^ (0.23 : ℝ)) * t.A),
    by positivity, fun T hT => ?_⟩
  have hε := nuclear_eps_pos (p.withT T) t hZ hA tZ tA hT
  unfold reduced_energy_loss_unit at hε ⊢
  unfold dedx_n_target
  dsimp only at hε ⊢
  generalize 32.53 * t.A * 1000.0 * (p.withT T).T * (p.withT T).A / ((p.withT T).Z * ofInt t.Z * ((p.withT T).A + t.A) *
    (Scalar.pow (p.withT T).Z 0.23 + Scalar.pow (ofInt t.Z) 0.23)) = ε at hε ⊢
  rw [if_neg (by rw [le_real]; norm_num; exact hε), cassert_true _ _ (by rw [lt_real]; norm_num; exact hA),
    bind_ok, cassert_true _ _ (by rw [lt_real]; norm_num; exact hε), bind_ok]
  simp only [pow_real, ofInt_real, log1p_real, log_real]
  have e : (if Scalar.le ε 30.0 = true then Real.log (1 + 1.1383 * ε) /
      (2.0 * (ε + 0.01321 * ε ^ (0.21226 : ℝ) + 0.19593 * ε ^ (0.5 : ℝ)))
      else Real.log ε / (2.0 * ε)) = if ε ≤ 30 then snLow ε else snHigh ε := by
    have e2 : (2.0 : ℝ) = 2 := by norm_num
    unfold snLow snHigh
    rw [e2]
    by_cases h : ε ≤ 30
    · rw [if_pos h, if_pos (by rw [le_real]; norm_num; exact h)]
    · rw [if_neg h, if_neg (by rw [le_real]; norm_num; linarith)]
  rw [e]
  show Except.ok _ = Except.ok _
  refine congrArg Except.ok ?_
  show 100.0 * 8.4621 * p.Z * (t.Z : ℝ) * p.A * _ * Avogadro / ((p.A + t.A) * (p.Z ^ (0.23 : ℝ) + (t.Z : ℝ) ^ (0.23 : ℝ)) * t.A) = _
  generalize (if ε ≤ 30 then snLow ε else snHigh ε) = s
  generalize p.Z ^ (0.23 : ℝ) + (t.Z : ℝ) ^ (0.23 : ℝ) = q
  generalize (t.Z : ℝ) = z
  generalize (100.0 : ℝ) * 8.4621 = w
  generalize (Avogadro : ℝ) = a
  ring

/-- From above, nuclear stopping tends to its value, minus a drop where the reduced energy is 30. -/
theorem nuclear_right (debug : Bool) (p : Projectile ℝ) (t : Target ℝ) (hZ : 0 < p.Z) (hA : 0 < p.A) (tZ : 1 ≤ t.Z) (tA : 0 < t.A)
    (x : ℝ) (hx : 0 < x) : ∃ (D : ℝ → ℝ) (J : ℝ), (∀ T, 0 < T → dedx_n_target debug (p.withT T) t = .ok (D T)) ∧
      (reduced_energy_loss_unit (p.withT x) t ≠ 30 → ContinuousAt D x) ∧ 0 ≤ J ∧
      (reduced_energy_loss_unit (p.withT x) t = 30 → 0 < J) ∧ Tendsto D (𝓝[>] x) (𝓝 (D x - J)) := by
  obtain ⟨K, hK, hv⟩ := nuclear_value debug p t hZ hA tZ tA
  have lin : ∀ T, reduced_energy_loss_unit (p.withT T) t = reduced_energy_loss_unit (p.withT 1) t * T := reduced_energy_linear p t
  have k0 := nuclear_eps_pos (p.withT 1) t hZ hA tZ tA one_pos
  obtain ⟨k, hk⟩ : ∃ k, k = reduced_energy_loss_unit (p.withT 1) t := ⟨_, rfl⟩
  rw [← hk] at k0
  have lin : ∀ T, reduced_energy_loss_unit (p.withT T) t = k * T := fun T => by rw [hk]; exact lin T
  clear hk
  have hv : ∀ T, 0 < T → dedx_n_target debug (p.withT T) t = .ok (K * (if k * T ≤ 30 then snLow (k * T) else snHigh (k * T))) :=
    fun T hT => by rw [hv T hT, lin T]
  rw [lin x]
  have kx : 0 < k * x := by positivity
  have hcl : ContinuousAt (fun T => k * T) x := by fun_prop
  have cl : ContinuousAt (fun T => snLow (k * T)) x := (snLow_continuousAt _ kx).comp (f := fun T => k * T) hcl
  have ch : ContinuousAt (fun T => snHigh (k * T)) x := (snHigh_continuousAt _ kx).comp (f := fun T => k * T) hcl
  have main : k * x ≠ 30 → ContinuousAt (fun T => K * if k * T ≤ 30 then snLow (k * T) else snHigh (k * T)) x := by
    intro hne
    refine continuousAt_const.mul (continuousAt_choice ?_ (fun _ => cl) (fun _ => ch))
    rcases lt_or_gt_of_ne hne with h | h
    · left
      filter_upwards [hcl.eventually_lt continuousAt_const h] with T hT
      exact hT.le
    · right
      filter_upwards [continuousAt_const.eventually_lt hcl h] with T hT
      exact not_le.mpr hT
  obtain ⟨D, hD⟩ : ∃ D : ℝ → ℝ, D = fun T => K * if k * T ≤ 30 then snLow (k * T) else snHigh (k * T) := ⟨_, rfl⟩
  by_cases he : k * x = 30
  · refine ⟨D, K * (snLow 30 - snHigh 30), fun T hT => by rw [hD]; exact hv T hT, by rw [hD]; exact main, mul_nonneg hK.le (sub_nonneg.mpr sn_gap.le),
      fun _ => mul_pos hK (sub_pos.mpr sn_gap), ?_⟩
    have : D x - K * (snLow 30 - snHigh 30) = K * snHigh (k * x) := by
      rw [hD]
      dsimp only
      rw [if_pos he.le, he]; ring
    rw [this]
    refine ((continuousAt_const.mul ch).tendsto.mono_left nhdsWithin_le_nhds).congr' ?_
    filter_upwards [self_mem_nhdsWithin] with T hT
    have : ¬ k * T ≤ 30 := by
      rw [← he]
      exact not_le.mpr (mul_lt_mul_of_pos_left hT k0)
    rw [hD]
    dsimp only
    rw [if_neg this]
    rfl
  · refine ⟨D, 0, fun T hT => by rw [hD]; exact hv T hT, by rw [hD]; exact main, le_rfl, fun h => absurd h he, ?_⟩
    rw [sub_zero, hD]
    exact (main he).tendsto.mono_left nhdsWithin_le_nhds

/-- Nuclear stopping jumps exactly where the reduced energy of a component is 30. -/
theorem nuclear_jumps (debug : Bool) (p : Projectile ℝ) (hZ : 0 < p.Z) (hA : 0 < p.A) (m : Material ℝ) (hm : m.Sound)
    (x : ℝ) (hx : 0 < x) :
    NoJump (fun T => dedx_n debug (p.withT T) m) x ↔ ∀ t ∈ m.atoms, reduced_energy_loss_unit (p.withT x) t ≠ 30 := by
  have key := fun t (ht : t ∈ m.atoms) => nuclear_right debug p t hZ hA (hm.Z t ht) (hm.A t ht) x hx
  choose! D J hv hc hJ hJ' hr using key
  constructor
  · rintro ⟨E, hE, hcE⟩ t ht he
    have v : ∀ T, 0 < T → dedx_n debug (p.withT T) m = .ok ((m.atoms.map fun t => m.wfrac t * D t T).sum) := fun T hT =>
      componentSum_ok m _ _ fun t ht => hv t ht T hT
    have pos : ∀ᶠ T in 𝓝 x, 0 < T := lt_mem_nhds hx
    have ev : ∀ᶠ T in 𝓝 x, E T = (m.atoms.map fun t => m.wfrac t * D t T).sum := by
      filter_upwards [hE, pos] with T h1 h2
      rw [v T h2] at h1
      exact (Except.ok.inj h1).symm
    have lim : Tendsto (fun T => (m.atoms.map fun t => m.wfrac t * D t T).sum) (𝓝[>] x)
        (𝓝 ((m.atoms.map fun t => m.wfrac t * (D t x - J t)).sum)) := by
      clear hE ev v he hc hJ hJ' hv hcE
      generalize m.wfrac = w
      clear ht
      generalize m.atoms = l at hr ⊢
      induction l with
      | nil => exact tendsto_const_nhds
      | cons t l ih =>
        simp only [List.map_cons, List.sum_cons]
        exact (tendsto_const_nhds.mul (hr t (by simp))).add (ih fun t' ht' => hr t' (by simp [ht']))
    have lim' := (hcE.tendsto.mono_left (nhdsWithin_le_nhds (s := Set.Ioi x))).congr' (ev.filter_mono nhdsWithin_le_nhds)
    have := tendsto_nhds_unique lim lim'
    rw [ev.self_of_nhds] at this
    refine absurd this (ne_of_lt ?_)
    refine List.sum_lt_sum _ _ (fun t ht => ?_) ⟨t, ht, ?_⟩
    · have := m.wfrac_pos hm t ht
      have := hJ t ht
      gcongr
      linarith
    · have := m.wfrac_pos hm t ht
      have := hJ' t ht he
      gcongr
      linarith
  · intro h
    refine NoJump.sum (f := fun T t => dedx_n_target debug (p.withT T) t) fun t ht => ⟨D t, ?_, hc t ht (h t ht)⟩
    filter_upwards [lt_mem_nhds hx] with T hT
    exact hv t ht T hT

/-! ## Low-energy stopping of hydrogen and helium ions -/

theorem pseRow_continuous (r : List Dec) (hr : pseRowOk r = true) :
    ∃ R : ℝ → ℝ, ∀ e, 0 < e → pseRow (r.map Dec.toScalar) e = .ok (R e) ∧ ContinuousAt R e := by
  unfold pseRowOk at hr
  split at hr
  case h_2 => cases hr
  case h_1 a b c d e' f g h =>
    simp only [decide_eq_true_eq] at hr
    obtain ⟨ha, -, hc, -, he', -, hg, hh, hgh⟩ := hr
    have ha := a.toScalar_pos ha
    have hc := c.toScalar_pos hc
    have he' := e'.toScalar_pos he'
    have hg' := g.toScalar_pos hg
    have hh' := h.toScalar_pos hh
    have hp : (1 : ℝ) < 4 * (g.toScalar * h.toScalar) := by
      rw [Dec.toScalar_real, Dec.toScalar_real, div_mul_div_comm, ← pow_add, ← mul_div_assoc,
        lt_div_iff₀ (by positivity), one_mul]
      exact_mod_cast hgh
    clear hgh hg hh
    refine ⟨fun e => (a.toScalar * e ^ (b.toScalar : ℝ) + c.toScalar * e ^ (d.toScalar : ℝ)) *
      (e'.toScalar / e ^ (f.toScalar : ℝ) * Real.log (g.toScalar / e + h.toScalar * e)) /
      ((a.toScalar * e ^ (b.toScalar : ℝ) + c.toScalar * e ^ (d.toScalar : ℝ)) +
      (e'.toScalar / e ^ (f.toScalar : ℝ) * Real.log (g.toScalar / e + h.toScalar * e))), fun e he => ⟨rfl, ?_⟩⟩
    have hl := log_pos_of_product _ _ e hg' hh' he hp
    have c1 : ContinuousAt (fun e : ℝ => e ^ (b.toScalar : ℝ)) e := Real.continuousAt_rpow_const _ _ (.inl he.ne')
    have c2 : ContinuousAt (fun e : ℝ => e ^ (d.toScalar : ℝ)) e := Real.continuousAt_rpow_const _ _ (.inl he.ne')
    have c3 : ContinuousAt (fun e : ℝ => e ^ (f.toScalar : ℝ)) e := Real.continuousAt_rpow_const _ _ (.inl he.ne')
    have p1 := Real.rpow_pos_of_pos he (b.toScalar : ℝ)
    have p2 := Real.rpow_pos_of_pos he (d.toScalar : ℝ)
    have p3 := Real.rpow_pos_of_pos he (f.toScalar : ℝ)
    have n4 : (g.toScalar : ℝ) / e + h.toScalar * e ≠ 0 := by positivity
    have c4 : ContinuousAt (fun e : ℝ => Real.log (g.toScalar / e + h.toScalar * e)) e :=
      ((continuousAt_const.div continuousAt_id he.ne').add (by fun_prop)).log n4
    have k1 : ContinuousAt (fun e : ℝ => a.toScalar * e ^ (b.toScalar : ℝ) + c.toScalar * e ^ (d.toScalar : ℝ)) e :=
      (continuousAt_const.mul c1).add (continuousAt_const.mul c2)
    have k2 : ContinuousAt (fun e : ℝ => e'.toScalar / e ^ (f.toScalar : ℝ) * Real.log (g.toScalar / e + h.toScalar * e)) e :=
      (continuousAt_const.div c3 p3.ne').mul c4
    refine (k1.mul k2).div (k1.add k2) ?_
    positivity

theorem pseGen_continuous (tab : List (List Dec)) (hl : tab.length = 92) (hr : ∀ r ∈ tab, pseRowOk r = true) (Z : Int) (hZ : 1 ≤ Z) :
    ∃ F : ℝ → ℝ, ∀ e, 0 < e → pseGen tab Z e = .ok (F e) ∧ ContinuousAt F e := by
  obtain ⟨h0, h1⟩ := srimIdx_range Z hZ
  obtain ⟨k, hk⟩ := Int.eq_ofNat_of_zero_le h0
  have hk' : k < tab.length := by omega
  have hrow := rd_nat tab k hk'
  obtain ⟨R, hR⟩ := pseRow_continuous _ (hr _ (List.getElem_mem hk'))
  refine ⟨fun e => R (max 25 (1000 * e)) * (min 1 (1000 * e / 25)) ^ (if Z > 6 then 0.45 else 0.25 : ℝ), fun e he => ⟨?_, ?_⟩⟩
  · unfold pseGen
    rw [hk, hrow]
    have e1 : (1000.0 : ℝ) = 1000 := by norm_num
    have e2 : (25.0 : ℝ) = 25 := by norm_num
    rw [e1, e2]
    have he0 : (0 : ℝ) < 1000 * e := by linarith
    dsimp only
    generalize (1000 * e : ℝ) = e0 at he0
    rw [bind_ok]
    by_cases h : e0 ≤ 25
    · have h' : Scalar.le e0 25 = true := (le_real _ _).mpr h
      simp only [h', if_true]
      rw [(hR 25 (by norm_num)).1, bind_ok, max_eq_left h, min_eq_right (by rw [div_le_one (by norm_num)]; exact h)]
      simp only [pow_real]
      show Except.ok _ = Except.ok _
      split <;> rfl
    · have h' : Scalar.le e0 25 = false := by rw [le_real_false]; linarith
      simp only [h', if_false, Bool.false_eq_true]
      rw [(hR e0 he0).1, bind_ok, max_eq_right (by linarith), min_eq_left (by rw [le_div_iff₀ (by norm_num)]; linarith), Real.one_rpow,
        mul_one]
      rfl
  · have c1 : ContinuousAt (fun e : ℝ => max 25 (1000 * e)) e := by fun_prop
    have c2 : ContinuousAt (fun e : ℝ => min 1 (1000 * e / 25)) e := by fun_prop
    have p1 : (0 : ℝ) < max 25 (1000 * e) := lt_max_of_lt_left (by norm_num)
    refine ((hR _ p1).2.comp (f := fun e : ℝ => max 25 (1000 * e)) c1).mul (c2.rpow_const (.inr ?_))
    split <;> norm_num

theorem srim_continuous (n tZ : Int) (hn : n = 1 ∨ n = 2) (htZ : 1 ≤ tZ) (b : Bool) :
    ∃ F : ℝ → ℝ, ∀ e, 0 < e → srim_dedx_e n tZ e b = .ok (F e) ∧ ContinuousAt F e := by
  obtain ⟨F, hF⟩ : ∃ F : ℝ → ℝ, ∀ e, 0 < e → (if b then p_se tZ else p_se85 tZ : ℝ → M ℝ) e = .ok (F e) ∧ ContinuousAt F e := by
    cases b
    · exact pseGen_continuous _ proton_ok.1 proton_ok.2 tZ htZ
    · exact pseGen_continuous _ pse_95_ok.1 pse_95_ok.2 tZ htZ
  rcases hn with rfl | rfl
  · exact ⟨F, fun e he => hF e he⟩
  · refine ⟨fun e => F e * heF tZ (max 0 (Real.log (1000 * e))), fun e he => ⟨?_, ?_⟩⟩
    · show srimHelium _ tZ e = _
      exact srimHelium_eq _ tZ e _ he (hF e he).1
    · refine (hF e he).2.mul ?_
      have c1 : ContinuousAt (fun e : ℝ => max 0 (Real.log (1000 * e))) e :=
        continuousAt_const.max ((continuousAt_const.mul continuousAt_id).log (by simp; exact he.ne'))
      have c2 : Continuous (heF tZ) := by
        unfold heF heA
        fun_prop
      exact c2.continuousAt.comp (f := fun e : ℝ => max 0 (Real.log (1000 * e))) c1

theorem sezi_no_jump {p : Projectile ℝ} {n : Int} (hp : p.Ion n) (hn : n ≤ 2) {m : Material ℝ} (hm : m.Sound) (c : Config ℝ)
    (x : ℝ) (hx : 0 < x) : NoJump (fun T => sezi_dedx_e (p.withT T) m c) x := by
  have hcast : castInt p.Z = .ok n := by
    rw [hp.Z]
    exact castInt_real n (by linarith [hp.pos]) hp.int
  simp only [sezi_eq]
  refine NoJump.sum fun t ht => ?_
  obtain ⟨F, hF⟩ := srim_continuous n t.Z (by have := hp.pos; omega) (hm.Z t ht) (c.low_energy == 1)
  refine ⟨fun T => 100.0 * (F T / t.A) * Avogadro, ?_, ?_⟩
  · filter_upwards [lt_mem_nhds hx] with T hT
    show (do let pZ ← castInt p.Z; let s ← srim_dedx_e pZ t.Z T (c.low_energy == 1); return 100.0 * (s / t.A) * Avogadro) = _
    rw [hcast, bind_ok, (hF T hT).1, bind_ok]
    rfl
  · exact (continuousAt_const.mul ((hF x hx).2.div_const _)).mul continuousAt_const

/-! ## The Bethe formula -/

theorem pair_continuous (p : Projectile ℝ) (t : Target ℝ) (tZ : 1 ≤ t.Z) (x : ℝ) (hx : 0 < x) :
    ContinuousAt (fun T => pair_production (p.withT T) t) x := by
  have hz : (0 : ℝ) < t.Z := by exact_mod_cast (by omega : 0 < t.Z)
  have hu := amu_pos
  have q0 : 0 < 183.0 * power (ofInt t.Z : ℝ) (-1.0 / 3.0) := by
    unfold power
    simp only [exp_real, log_real]
    have := Real.exp_pos (Real.log (ofInt t.Z : ℝ) * (-1.0 / 3.0))
    positivity
  unfold pair_production
  simp only [Projectile.withT, sqrt_real, log_real]
  generalize 183.0 * power (ofInt t.Z : ℝ) (-1.0 / 3.0) = q at q0
  have cg : ContinuousAt (fun T : ℝ => 1.0 + T / atomic_mass_unit) x := by fun_prop
  have g0 : (0 : ℝ) < 1.0 + x / atomic_mass_unit := by positivity
  have key : ∀ G : ℝ → ℝ, ContinuousAt G (1.0 + x / atomic_mass_unit) →
      ContinuousAt (fun T : ℝ => if Scalar.lt (G (1.0 + T / atomic_mass_unit)) 0.0 = true then 0.0 else G (1.0 + T / atomic_mass_unit)) x := by
    intro G hG
    have e : (fun T : ℝ => if Scalar.lt (G (1.0 + T / atomic_mass_unit)) 0.0 = true then 0.0 else G (1.0 + T / atomic_mass_unit)) =
        fun T => max 0 (G (1.0 + T / atomic_mass_unit)) := by
      funext T
      have e0 : (0.0 : ℝ) = 0 := by norm_num
      rw [e0]
      by_cases h : G (1.0 + T / atomic_mass_unit) < 0
      · rw [if_pos ((lt_real _ _).mpr h), max_eq_left h.le]
      · rw [if_neg (by rw [lt_real]; exact h), max_eq_right (not_lt.mp h)]
    rw [e]
    exact continuousAt_const.max (hG.comp (f := fun T : ℝ => 1.0 + T / atomic_mass_unit) cg)
  refine key (fun g => 0.25 * dedx_constant * fine_structure * fine_structure * p.Z * p.Z * ofInt t.Z * ofInt t.Z * g *
    (1.0 + 1.0 / ofInt t.Z) * (19.0 / 9.0 * Real.log (q / (1.0 + 25.018803808 * q / g)) +
      (4178.0 / (81.0 * PI * PI) - 21.0 / 27.0 - 248.0 * Real.log (2.0 * g) / (27.0 * PI * PI) +
        (28.0 * Real.log (2.0 * g) / 9.0 - 446.0 / 27.0) * Real.log (1.0 / √g * (1.0 / √g)) / (PI * PI) +
        14.0 * Real.log (1.0 / √g * (1.0 / √g)) * Real.log (1.0 / √g * (1.0 / √g)) / (9.0 * PI * PI)) * (1.0 / √g)) / t.A) ?_
  generalize (1.0 : ℝ) + x / atomic_mass_unit = g at g0
  have s0 := Real.sqrt_pos.mpr g0
  have c1 : ContinuousAt (fun g : ℝ => 1.0 / √g) g := continuousAt_const.div (by fun_prop) s0.ne'
  have c2 : ContinuousAt (fun g : ℝ => Real.log (1.0 / √g * (1.0 / √g))) g := (c1.mul c1).log (by show (1.0 : ℝ) / √g * (1.0 / √g) ≠ 0; positivity)
  have c3 : ContinuousAt (fun g : ℝ => Real.log (2.0 * g)) g := (continuousAt_const.mul continuousAt_id).log (by show (2.0 : ℝ) * g ≠ 0; positivity)
  have c4 : ContinuousAt (fun g : ℝ => Real.log (q / (1.0 + 25.018803808 * q / g))) g :=
    (continuousAt_const.div (continuousAt_const.add (continuousAt_const.div continuousAt_id g0.ne'))
      (by show (1.0 : ℝ) + 25.018803808 * q / g ≠ 0; positivity)).log (by show q / ((1.0 : ℝ) + 25.018803808 * q / g) ≠ 0; positivity)
  fun_prop

theorem brems_continuous (p : Projectile ℝ) (t : Target ℝ) (hA : 0 < p.A) (tA : 0 < t.A) (x : ℝ) (hx : 0 < x) :
    ContinuousAt (fun T => bremsstrahlung (p.withT T) t) x := by
  have hu := amu_pos
  have hh : (0 : ℝ) < hbar := by norm_num [hbar]
  have hc : (0 : ℝ) < c_light := by norm_num [c_light]
  unfold bremsstrahlung power
  simp only [Projectile.withT, exp_real, log_real, log1p_real]
  have e1 := Real.exp_pos (Real.log p.A * (1.0 / 3.0))
  have e2 := Real.exp_pos (Real.log t.A * (1.0 / 3.0))
  generalize Real.exp (Real.log p.A * (1.0 / 3.0)) = u at *
  generalize Real.exp (Real.log t.A * (1.0 / 3.0)) = v at *
  have cg : ContinuousAt (fun T : ℝ => 1.0 + T / atomic_mass_unit) x := by fun_prop
  have g0 : (0 : ℝ) < 1.0 + x / atomic_mass_unit := by positivity
  have cl : ContinuousAt (fun T : ℝ => Real.log (1 + 2.0 * (1.0 + T / atomic_mass_unit) * 0.1 * hbar * c_light / atomic_mass_unit /
      (1.18 * (u + v)) / p.A)) x := by
    refine ContinuousAt.log (by fun_prop) ?_
    positivity
  fun_prop

/-- The radiative part is switched on at 50 GeV/u. -/
theorem radiative_continuous (p : Projectile ℝ) (t : Target ℝ) (hA : 0 < p.A) (tZ : 1 ≤ t.Z) (tA : 0 < t.A) (c : Config ℝ) (x : ℝ)
    (hx : 0 < x) (h : c.corrections.testBit 3 = false → x ≠ 50000) : ContinuousAt (fun T => radiative (p.withT T) t c) x := by
  unfold radiative
  refine continuousAt_choice ?_ (fun _ => (pair_continuous p t tZ x hx).add (brems_continuous p t hA tA x hx)) (fun _ => continuousAt_const)
  cases hb : c.corrections.testBit 3
  · rcases lt_or_gt_of_ne (h hb) with h | h
    · right
      filter_upwards [gt_mem_nhds h] with T hT hT'
      exact absurd hT'.1 (not_lt.mpr hT.le)
    · left
      filter_upwards [lt_mem_nhds h] with T hT
      exact ⟨hT, rfl⟩
  · right
    exact Eventually.of_forall fun T hT => by simp at hT

theorem barkasF_continuous (v : ℝ) (h0 : 0 < v) (h4 : v ≠ 4) : ContinuousAt barkasF v := by
  unfold barkasF
  refine continuousAt_choice ?_ (fun _ => ?_) (fun _ => ?_)
  · rcases lt_or_gt_of_ne h4 with h | h
    · right
      filter_upwards [gt_mem_nhds h] with y hy
      exact not_le.mpr hy
    · left
      filter_upwards [lt_mem_nhds h] with y hy
      exact hy.le
  · exact continuousAt_const.div (by fun_prop) (Real.sqrt_pos.mpr h0).ne'
  · refine Continuous.continuousAt ?_
    refine Continuous.if_le (by fun_prop) (Continuous.if_le (by fun_prop) (by fun_prop) continuous_id continuous_const ?_)
      continuous_id continuous_const ?_
    · intro y hy
      change y = 3 at hy
      rw [hy]; norm_num
    · intro y hy
      change y = 2 at hy
      rw [hy]; norm_num

theorem densityFormula_continuous (x0 x1 c a m d : ℝ) (hm : 0 < m) (x : ℝ) (h : x ≠ x0) :
    ContinuousAt (densityFormula x0 x1 c a m d) x := by
  unfold densityFormula
  refine continuousAt_choice ?_ (fun _ => ?_) (fun _ => ?_)
  · rcases lt_or_gt_of_ne h with h | h
    · exact .inl (gt_mem_nhds h)
    · right
      filter_upwards [lt_mem_nhds h] with y hy
      exact not_lt.mpr hy.le
  · exact (continuous_const.mul (Continuous.rpow continuous_const (by fun_prop) fun x => Or.inl (by norm_num))).continuousAt
  · refine Continuous.continuousAt (Continuous.if_le ?_ (by fun_prop) continuous_id continuous_const ?_)
    · refine Continuous.add (by fun_prop) (continuous_const.mul ?_)
      exact Continuous.rpow_const (by fun_prop) fun x => Or.inr hm.le
    · intro x hx
      rw [show x = x1 from hx, sub_self, Real.zero_rpow hm.ne', mul_zero, add_zero]

/-- Between two points of its table the Lindhard-Sørensen correction is a line, and beyond the table it is 0. -/
theorem lindhard_no_jump (ci : Bool) {p : Projectile ℝ} {n : Int} (hp : p.Ion n) (hn : n ≤ 108) (x : ℝ) (hx : 1 < x)
    (hoff : ∀ k < 200, x < (ls_energy_table : EnergyTable ℝ).val k - 10 * 2⁻¹ ^ 52 ∨ (ls_energy_table : EnergyTable ℝ).val k < x) :
    NoJump (fun T => precalculated_lindhard ci (p.withT T)) x := by
  have hb := ls_energy_table_bounds
  have ew : (0 : ℝ) < 10 * 2⁻¹ ^ 52 := by norm_num
  have mono := fun i j => EnergyTable.val_le_iff (ls_energy_table : EnergyTable ℝ) hb.1 hb.2.1 i j
  rcases hoff 199 (by norm_num) with h9 | h9
  · obtain ⟨k, hk, k0, k1, -⟩ := (ls_energy_table : EnergyTable ℝ).exists_bracket hb.1 hb.2.1 x (by rw [ls_first]; exact hx.le)
      (by show x < (ls_energy_table : EnergyTable ℝ).val 199; linarith)
    change k + 1 < 200 at hk
    have k0' : (ls_energy_table : EnergyTable ℝ).val k < x := (hoff k (by omega)).resolve_left (by linarith)
    have k1' : x < (ls_energy_table : EnergyTable ℝ).val (k + 1) - 10 * 2⁻¹ ^ 52 := (hoff (k + 1) hk).resolve_right (by linarith)
    obtain ⟨r, hr⟩ := Int.eq_ofNat_of_zero_le (show 0 ≤ n - 1 by linarith [hp.pos])
    have hr' : r < 108 := by omega
    obtain ⟨C, hC⟩ : ∃ C : Nat → ℝ, ∀ j, C j = ((lsField (ls_coefficients_a[r]'(by rw [ls_lengths.1]; exact hr')) j : ℝ)
          + 20 * ((p.A - element_atomic_weight n) / element_atomic_weight n) * ((lsField (ls_coefficients_ahi[r]'(by rw [ls_lengths.2.1]; exact hr')) j : ℝ) -
            lsField (ls_coefficients_a[r]'(by rw [ls_lengths.1]; exact hr')) j)) / 10 ^ 11 := ⟨_, fun _ => rfl⟩
    refine ⟨fun T => C k + (T - (ls_energy_table : EnergyTable ℝ).val k) / ((ls_energy_table : EnergyTable ℝ).val (k + 1) -
      (ls_energy_table : EnergyTable ℝ).val k) * (C (k + 1) - C k), ?_, by fun_prop⟩
    filter_upwards [lt_mem_nhds k0', gt_mem_nhds k1', gt_mem_nhds h9, lt_mem_nhds hx] with T t0 t1 t9 tx
    obtain ⟨i, θ, s, r', hr1, hr2, hi, -, -, hs, i0, i1, hθ, c, hc, hv⟩ := lindhard_affine ci (p := p.withT T) ⟨hp.Z, hp.pos, hp.int, hp.A⟩
      hn tx.le (by show T ≤ _; linarith) (.inl t9)
    change _ ≤ T at i0
    change T ≤ _ at i1
    change T - _ = _ at hθ
    change s = 20 * ((p.A - element_atomic_weight n) / element_atomic_weight n) at hs
    obtain rfl : r' = r := by omega
    obtain rfl : i = k := by
      rcases lt_trichotomy i k with h | h | h
      · have := (mono (i + 1) k).mpr (by omega)
        linarith
      · exact h
      · have := (mono (k + 1) i).mpr (by omega)
        linarith
    have gap : 0 < (ls_energy_table : EnergyTable ℝ).val (i + 1) - (ls_energy_table : EnergyTable ℝ).val i := by
      linarith
    have hθ' : (T - (ls_energy_table : EnergyTable ℝ).val i) / ((ls_energy_table : EnergyTable ℝ).val (i + 1) -
      (ls_energy_table : EnergyTable ℝ).val i) = θ := by
      rw [hθ, mul_div_assoc, div_self gap.ne', mul_one]
    rw [hv, hθ', hC, hC, hc, hc, hs]
  · refine ⟨fun _ => 0, ?_, continuousAt_const⟩
    filter_upwards [lt_mem_nhds h9, lt_mem_nhds hx] with T t9 tx
    obtain ⟨r, hr⟩ := Int.eq_ofNat_of_zero_le (show 0 ≤ n - 1 by linarith [hp.pos])
    have hr' : r < 108 := by omega
    obtain ⟨y1, hy1, -, -⟩ := lsRowAt_get ls_coefficients_a r (by rw [ls_lengths.1]; exact hr')
    obtain ⟨y2, hy2, -, -⟩ := lsRowAt_get ls_coefficients_ahi r (by rw [ls_lengths.2.1]; exact hr')
    unfold precalculated_lindhard
    rw [lsZ_ion (p := p.withT T) ⟨hp.Z, hp.pos, hp.int, hp.A⟩ (by omega), bind_ok]
    dsimp only
    rw [if_neg (by rw [lt_real, ls_first]; show ¬ T < 1; linarith)]
    have z : ∀ y : List ℝ, (ls_energy_table : EnergyTable ℝ).interpolate ci (p.withT T).T y = .ok 0 := by
      intro y
      unfold EnergyTable.interpolate
      rw [if_pos (by rw [Bool.or_eq_true, lt_real, lt_real]; right; exact t9)]
      norm_num
    unfold lsValue lsValueOf
    rw [hr]
    simp only [hy1, hy2, bind_ok, z, pure, Except.pure]
    norm_num

/-- Off the energies at which a formula is exchanged for another one. -/
structure OffSwitches (p : Projectile ℝ) (m : Material ℝ) (c : Config ℝ) (x : ℝ) : Prop where
  /-- calculations.cpp:49, reduced energy 30 -/
  nuclear : ∀ t ∈ m.atoms, reduced_energy_loss_unit (p.withT x) t ≠ 30
  /-- calculations.cpp:131, velocity 4 in units of the target electrons -/
  barkas : 10 ≤ x → c.corrections.testBit 0 = false → ∀ t ∈ m.atoms, √(etaSq x) ≠ 4 * (fine_structure * √(t.Z : ℝ))
  /-- calculations.cpp:161, first knee of the density effect -/
  density : 10 ≤ x → ∀ t ∈ m.atoms, ∀ d, density_effect_x0[(min t.Z 97).toNat - 1]? = some d →
    Real.log (√(etaSq x)) / 2.3025851 ≠ d.rat
  /-- calculations.cpp:588-594, points of the Lindhard-Sørensen table and the 2.2e-15 MeV/u below them -/
  lindhard : 10 ≤ x → c.corrections.testBit 1 = false → ∀ k < 200,
    x < (ls_energy_table : EnergyTable ℝ).val k - 10 * 2⁻¹ ^ 52 ∨ (ls_energy_table : EnergyTable ℝ).val k < x
  /-- calculations.cpp:118, radiation -/
  radiation : c.corrections.testBit 3 = false → x ≠ 50000

/-- The Bethe formula has no jump from 10 MeV/u on, off the switches. -/
theorem bethe_no_jump (env : Env ℝ) {p : Projectile ℝ} {n : Int} {m : Material ℝ} {c : Config ℝ} (h : Computable p n m c)
    (hI : ∀ t ∈ m.atoms, TypicalI m.i_potential t.Z) (x : ℝ) (hx : 10 ≤ x) (ho : OffSwitches p m c x) :
    NoJumpOn (Set.Ici 10) (fun T => bethek_dedx_e env (p.withT T) m c) x := by
  refine NoJumpOn.sum (f := fun T t => bethek_dedx_e_target env (p.withT T) t c m.i_potential) fun t ht => ?_
  have tZ := h.sound.Z t ht
  have tA := h.sound.A t ht
  have x0 : 0 < x := by linarith
  have z1 : (1 : ℝ) ≤ t.Z := by exact_mod_cast tZ
  have z120 : (t.Z : ℝ) ≤ 120 := by exact_mod_cast h.known t ht
  have fs : (0 : ℝ) < fine_structure := by norm_num [fine_structure]
  have w0 : 0 < √(t.Z : ℝ) := Real.sqrt_pos.mpr (by linarith)
  -- the effective charge
  obtain ⟨z, hz, hz0, cz⟩ : ∃ z : ℝ → ℝ, (∀ T, 0 < T → z_effective env.debug (p.withT T) t c = .ok (z T)) ∧
      (∀ T, 0 < T → 0 ≤ z T) ∧ ContinuousAt z x := by
    rcases h.charge with hq | ⟨hq, hq'⟩
    · refine ⟨fun T => z_eff_Pierce_Blann p.Z (beta_from_T T), fun T _ => (z_effective_basic env.debug (p.withT T) t c).2 hq,
        fun T hT => (pierce_blann_bounds p.Z _ h.posZ (gamma_beta_bounds T hT).2.1.le).1, ?_⟩
      exact (pierce_continuous p.Z).continuousAt.comp (f := fun T : ℝ => beta_from_T T)
        (beta_continuousOn.continuousAt (Ioi_mem_nhds x0))
    · exact ⟨fun _ => p.Q, fun T _ => (z_effective_basic env.debug (p.withT T) t c).1 hq, fun _ _ => hq', continuousAt_const⟩
  -- the density effect
  obtain ⟨i, hi, y0, y1, d2, d3, d4, d5, hi', g0, g1, g2, g3, g4, g5, hD⟩ := density_formula t.Z tZ
  have hg := density_rows i hi _ _ _ _ _ _ g0 g1 g2 g3 g4 g5
  have hm : (0 : ℝ) < d4.rat := by exact_mod_cast hg.2.2.2.2.2.1
  have knee := ho.density hx t ht y0 (by rw [← hi']; exact g0)
  -- the Lindhard correction
  obtain ⟨l, hl, cl⟩ : ∃ l : ℝ → ℝ, (∀ᶠ T in 𝓝 x, (if c.corrections.testBit 1 = true then .ok 0
      else precalculated_lindhard env.calcIndex (p.withT T)) = .ok (l T)) ∧ ContinuousAt l x := by
    cases hb : c.corrections.testBit 1
    · exact lindhard_no_jump env.calcIndex h.ion h.small x (by linarith) (ho.lindhard hx hb)
    · exact ⟨fun _ => 0, Eventually.of_forall fun _ => rfl, continuousAt_const⟩
  have ce : Continuous etaSq := by unfold etaSq; fun_prop
  have s0 : 0 < etaSq x := (kinematics x 1.039 hx (by norm_num) (by norm_num)).1
  have r0 := Real.sqrt_pos.mpr s0
  refine ⟨fun T => dedx_constant * z T ^ 2 * t.Z / (etaSq T / (1 + etaSq T) * t.A) *
      (betheLog (shellFactor c (usedI m.i_potential t.Z) t.Z) (usedI m.i_potential t.Z) (etaSq T) *
        (1 + if c.corrections.testBit 0 = true then 0 else 2 * z T * fine_structure ^ 2 * (√(t.Z : ℝ) *
          barkasF (√(etaSq T) / (fine_structure * √(t.Z : ℝ)))) / etaSq T) + l T -
        densityFormula y0.rat y1.rat d2.rat d3.rat d4.rat d5.rat (Real.log (√(etaSq T)) / 2.3025851) / 2) +
        radiative (p.withT T) t c, ?_, ?_⟩
  · filter_upwards [hl] with T hT h10
    change 10 ≤ T at h10
    have T0 : 0 < T := by linarith
    have hs : 0.021586 ≤ etaSq T := by
      unfold etaSq
      have : (0.010735 : ℝ) ≤ T / 931.4940954 := by
        rw [le_div_iff₀ (by norm_num)]; norm_num; linarith
      norm_num at this ⊢
      nlinarith
    rw [bethe_value env (p := p.withT T) ⟨h.ion.Z, h.ion.pos, h.ion.int, h.ion.A⟩ t tZ tA c m.i_potential h10 (z T) (hz T T0) (hz0 T T0)
      (hI t ht) _ hD (l T) hT]
    unfold barkasTerm
    rw [show (p.withT T).T = T from rfl, (barkas_formula (z T) (etaSq T) t.Z hs z1 z120).2.2]
  · have cs : ContinuousAt etaSq x := ce.continuousAt
    have cr : ContinuousAt (fun T => √(etaSq T)) x := cs.sqrt
    have clog : ContinuousAt (fun T => betheLog (shellFactor c (usedI m.i_potential t.Z) t.Z) (usedI m.i_potential t.Z) (etaSq T)) x := by
      unfold betheLog shellPoly
      have c1 : ContinuousAt (fun T => Real.log (etaSq T)) x := cs.log s0.ne'
      have c2 : ContinuousAt (fun T => etaSq T / (1 + etaSq T)) x := cs.div (by fun_prop) (by positivity)
      have c3 : ContinuousAt (fun T => (etaSq T)⁻¹) x := cs.inv₀ s0.ne'
      fun_prop
    have cden : ContinuousAt (fun T => etaSq T / (1 + etaSq T) * t.A) x :=
      (cs.div (by fun_prop) (by positivity)).mul continuousAt_const
    have cbar : ContinuousAt (fun T => if c.corrections.testBit 0 = true then 0 else 2 * z T * fine_structure ^ 2 * (√(t.Z : ℝ) *
          barkasF (√(etaSq T) / (fine_structure * √(t.Z : ℝ)))) / etaSq T) x := by
      cases hb : c.corrections.testBit 0
      · simp only [Bool.false_eq_true, if_false]
        refine ContinuousAt.div ((((continuousAt_const.mul cz).mul continuousAt_const)).mul (continuousAt_const.mul ?_)) cs s0.ne'
        refine (barkasF_continuous _ (by positivity) ?_).comp (f := fun T => √(etaSq T) / (fine_structure * √(t.Z : ℝ))) (cr.div_const _)
        intro h4
        rw [div_eq_iff (by positivity)] at h4
        exact ho.barkas hx hb t ht h4
      · simp only [if_true]
        exact continuousAt_const
    have cdens : ContinuousAt (fun T => densityFormula y0.rat y1.rat d2.rat d3.rat d4.rat d5.rat (Real.log (√(etaSq T)) / 2.3025851)) x :=
      (densityFormula_continuous _ _ _ _ _ _ hm _ knee).comp (f := fun T => Real.log (√(etaSq T)) / 2.3025851) ((cr.log r0.ne').div_const _)
    have crad := radiative_continuous p t h.ion.A tZ tA c x x0 ho.radiation
    refine ContinuousAt.add (ContinuousAt.mul (ContinuousAt.div ?_ cden (by positivity)) ?_) crad
    · exact ((continuousAt_const.mul (cz.pow 2)).mul continuousAt_const)
    · exact ((clog.mul (continuousAt_const.add cbar)).add cl).sub (cdens.div_const _)

/-! ## The stopping power -/

/-- The weight of the Bethe formula between 10 and 30 MeV/u. -/
noncomputable def betheWeight (T : ℝ) : ℝ := max 0 (min 1 (0.05 * (T - 10)))

theorem electronic_weighted (env : Env ℝ) (p : Projectile ℝ) (m : Material ℝ) (c : Config ℝ) (T L B : ℝ)
    (hL : T < 30 → sezi_dedx_e (p.withT T) m c = .ok L) (hB : 10 ≤ T → bethek_dedx_e env (p.withT T) m c = .ok B) :
    electronic env (p.withT T) m c = .ok ((1 - betheWeight T) * L + betheWeight T * B) := by
  unfold electronic betheWeight
  rw [show (p.withT T).T = T from rfl]
  rcases le_or_gt T 10 with h1 | h1
  · have k : Scalar.le T 10.0 = true := by rw [le_real]; norm_num; exact h1
    simp only [k, if_true]
    have : min (1 : ℝ) (0.05 * (T - 10)) ≤ 0 := (min_le_right _ _).trans (by norm_num; linarith)
    rw [hL (by linarith), max_eq_left this]
    simp
  have k : Scalar.le T 10.0 = false := by rw [le_real_false]; norm_num; exact h1
  simp only [k, Bool.false_eq_true, if_false]
  rcases lt_or_ge T 30 with h3 | h3
  · have k3 : (Scalar.gt T 10.0 && Scalar.lt T 30.0) = true := by
      rw [Bool.and_eq_true, lt_real, lt_real]; norm_num; exact ⟨h1, h3⟩
    simp only [k3, if_true]
    rw [hL h3, hB h1.le, bind_ok, bind_ok, min_eq_right (by norm_num; linarith), max_eq_right (by norm_num; linarith)]
    show Except.ok _ = Except.ok _
    norm_num
  · have k3 : (Scalar.gt T 10.0 && Scalar.lt T 30.0) = false := by
      rw [← Bool.not_eq_true, Bool.and_eq_true, lt_real, lt_real]; norm_num; intro; linarith
    simp only [k3, Bool.false_eq_true, if_false]
    rw [hB h1.le, min_eq_left (by norm_num; linarith), max_eq_right (by norm_num)]
    simp

/-- The electronic part has no jump off the switches, if the low-energy model has none up to 30 MeV/u. -/
theorem electronic_no_jump (env : Env ℝ) {p : Projectile ℝ} {n : Int} {m : Material ℝ} {c : Config ℝ} (h : Computable p n m c)
    (hI : ∀ t ∈ m.atoms, TypicalI m.i_potential t.Z) (x : ℝ) (hx : 0 < x) (hn : x ≤ 30 → NoJump (fun T => sezi_dedx_e (p.withT T) m c) x)
    (ho : 10 ≤ x → OffSwitches p m c x) : NoJump (fun T => electronic env (p.withT T) m c) x := by
  have cw : Continuous betheWeight := by unfold betheWeight; fun_prop
  rcases lt_or_ge x 10 with h1 | h1
  · obtain ⟨L, hL, cL⟩ := hn (by linarith)
    refine ⟨L, ?_, cL⟩
    filter_upwards [hL, gt_mem_nhds h1] with T hT h10
    rw [electronic_weighted env p m c T (L T) 0 (fun _ => hT) (fun h => absurd h10 (not_lt.mpr h))]
    have : min (1 : ℝ) (0.05 * (T - 10)) ≤ 0 := (min_le_right _ _).trans (by norm_num; linarith)
    unfold betheWeight
    rw [max_eq_left this]
    simp
  obtain ⟨B, hB, cB⟩ := bethe_no_jump env h hI x h1 (ho h1)
  rcases le_or_gt x 30 with h3 | h3
  · obtain ⟨L, hL, cL⟩ := hn h3
    refine ⟨fun T => (1 - betheWeight T) * L T + betheWeight T * B T, ?_,
      ((continuousAt_const.sub cw.continuousAt).mul cL).add (cw.continuousAt.mul cB)⟩
    filter_upwards [hL, hB] with T hT hT'
    exact electronic_weighted env p m c T (L T) (B T) (fun _ => hT) hT'
  · refine ⟨B, ?_, cB⟩
    filter_upwards [hB, lt_mem_nhds h3] with T hT' h30
    rw [electronic_weighted env p m c T 0 (B T) (fun h => absurd h30 (not_lt.mpr h.le)) hT']
    unfold betheWeight
    rw [min_eq_left (by norm_num; linarith), max_eq_right (by norm_num)]
    simp

end Catima
