import Verif.Props.Switches

/-!
# C126: higher charge states are stopped more strongly
-/

namespace Catima

theorem barkas_linear (z eta zt : ℝ) : bethek_barkas z eta zt = 1 + z * (bethek_barkas 1 eta zt - 1) := by
  unfold bethek_barkas
  simp only [sqrt_real]
  generalize eta / (fine_structure * √zt) = v
  generalize (if Scalar.le 4.0 v = true then 0.45 / √v
      else if (Scalar.le 1.0 v && Scalar.lt v 4.0) = true then barkasTable v else 0.0) = f
  norm_num
  ring

/-- The charge with which the ion is stopped, for the options `none` and Pierce and Blann. -/
noncomputable def stoppedCharge (p : Projectile ℝ) (c : Config ℝ) : ℝ :=
  if c.z_effective = 1 then z_eff_Pierce_Blann p.Z (beta_from_T p.T) else p.Q

theorem stoppedCharge_spec {p : Projectile ℝ} {n : Int} {m : Material ℝ} {c : Config ℝ} (h : Computable p n m c) (h0 : 0 < p.T)
    (debug : Bool) (t : Target ℝ) : z_effective debug p t c = .ok (stoppedCharge p c) ∧ 0 ≤ stoppedCharge p c := by
  unfold stoppedCharge
  rcases h.charge with hc | ⟨hc, hq⟩
  · rw [if_pos hc]
    exact ⟨(z_effective_basic debug p t c).2 hc, (pierce_blann_bounds p.Z _ h.posZ (gamma_beta_bounds p.T h0).2.1.le).1⟩
  · rw [if_neg (by omega)]
    exact ⟨(z_effective_basic debug p t c).1 hc, hq⟩

/-- One component: the Bethe formula increases with the effective charge. -/
theorem bethe_target_charge (env : Env ℝ) {p p' : Projectile ℝ} {n : Int} {m : Material ℝ} {c c' : Config ℝ} (h : Computable p n m c)
    (h' : Computable p' n m c') (hu : Usual p n m) (hu' : Usual p' n m) (hp : p' = { p with Q := p'.Q })
    (hc : c'.corrections = c.corrections) (t : Target ℝ) (ht : t ∈ m.atoms) (hT : 10 ≤ p.T) (hr : LindhardReadable p.T)
    (hz : stoppedCharge p c ≤ stoppedCharge p' c') :
    ∃ v v', bethek_dedx_e_target env p t c m.i_potential = .ok v ∧ bethek_dedx_e_target env p' t c' m.i_potential = .ok v' ∧
      v ≤ v' ∧ (stoppedCharge p c < stoppedCharge p' c' → v < v') := by
  have tZ := h.sound.Z t ht
  have tA := h.sound.A t ht
  have eT : p'.T = p.T := by rw [hp]
  obtain ⟨q, q0⟩ := stoppedCharge_spec h (by linarith) env.debug t
  obtain ⟨q', q0'⟩ := stoppedCharge_spec h' (by rw [eT]; linarith) env.debug t
  obtain ⟨f, hf⟩ := density_function t.Z tZ
  obtain ⟨l, hl⟩ : ∃ l, (if c.corrections.testBit 1 = true then .ok 0 else precalculated_lindhard env.calcIndex p) = .ok l := by
    split
    · exact ⟨0, rfl⟩
    · obtain ⟨l, hl, -⟩ := lindhard_ge env.calcIndex h.ion h.small hu.mass hT hr
      exact ⟨l, hl⟩
  have hl' : (if c'.corrections.testBit 1 = true then .ok 0 else precalculated_lindhard env.calcIndex p') = .ok l := by
    rw [hc, hp]
    exact hl
  have erad : radiative p' t c' = radiative p t c := by
    unfold radiative
    rw [hc, hp]
    rfl
  have hb := bethe_value env h.ion t tZ tA c m.i_potential hT _ q q0 (hu.excitation t ht) f hf l hl
  have hb' := bethe_value env h'.ion t tZ tA c' m.i_potential (by rw [eT]; exact hT) _ q' q0' (hu.excitation t ht) f hf l hl'
  rw [erad, eT] at hb'
  refine ⟨_, _, hb, hb', ?_⟩
  have esh : shellFactor c' (usedI m.i_potential t.Z) t.Z = shellFactor c (usedI m.i_potential t.Z) t.Z := by
    unfold shellFactor
    rw [hc]
  rw [esh]
  obtain ⟨i0, i1, i2⟩ := usedI_bounds m.i_potential t.Z tZ (hu.excitation t ht)
  -- the bracket is positive: without radiation the whole component is
  have hbr : 0 < stoppedCharge p' c' → 0 < betheLog (shellFactor c (usedI m.i_potential t.Z) t.Z) (usedI m.i_potential t.Z) (etaSq p.T) *
      (1 + barkasTerm c' (stoppedCharge p' c') (etaSq p.T) t.Z) + l - f (Real.log (√(etaSq p.T)) / 2.3025851) / 2 := by
    intro z0
    have bits : ∀ j < 3, (c'.corrections ||| 8).testBit j = c'.corrections.testBit j := by
      intro j hj
      rw [Nat.testBit_or]
      rcases j with _ | _ | _ | j
      · rw [show Nat.testBit 8 0 = false by decide, Bool.or_false]
      · rw [show Nat.testBit 8 (0 + 1) = false by decide, Bool.or_false]
      · rw [show Nat.testBit 8 (0 + 1 + 1) = false by decide, Bool.or_false]
      · omega
    obtain ⟨v, hv, -, hv0⟩ := bethe_target_nonneg env h'.ion h'.small hu'.mass t tZ tA { c' with corrections := c'.corrections ||| 8 }
      m.i_potential (by rw [eT]; exact hT) (by rw [eT]; exact hr) _ q' q0' (hu.excitation t ht)
    have hv1 := bethe_value env h'.ion t tZ tA { c' with corrections := c'.corrections ||| 8 } m.i_potential (by rw [eT]; exact hT) _
      q' q0' (hu.excitation t ht) f hf l (by rw [bits 1 (by norm_num)]; exact hl')
    rw [hv, eT] at hv1
    have hpos := hv0 z0
    rw [Except.ok.inj hv1] at hpos
    have er : radiative p' t { c' with corrections := c'.corrections ||| 8 } = 0 := by
      unfold radiative
      rw [if_neg]
      rintro ⟨-, hh⟩
      simp [Nat.testBit_or] at hh
      exact absurd hh.2 (by decide)
    have es : shellFactor { c' with corrections := c'.corrections ||| 8 } (usedI m.i_potential t.Z) t.Z =
        shellFactor c (usedI m.i_potential t.Z) t.Z := by
      unfold shellFactor
      rw [bits 2 (by norm_num), hc]
    have eb : barkasTerm { c' with corrections := c'.corrections ||| 8 } (stoppedCharge p' c') (etaSq p.T) t.Z =
        barkasTerm c' (stoppedCharge p' c') (etaSq p.T) t.Z := by
      unfold barkasTerm
      rw [bits 0 (by norm_num)]
    rw [er, es, eb, add_zero] at hpos
    refine (mul_pos_iff_of_pos_left ?_).mp hpos
    obtain ⟨s0, -⟩ := kinematics p.T 1.039 hT (by norm_num) (by norm_num)
    change 0 < etaSq p.T at s0
    have hc0 : (0 : ℝ) < dedx_constant := by norm_num [dedx_constant]
    have hz1 : (0 : ℝ) < t.Z := by exact_mod_cast (by omega : 0 < t.Z)
    positivity
  obtain ⟨s0, -, -, -, -, -, -, k4, k5, k6⟩ := kinematics p.T 1.039 hT (by norm_num) (by norm_num)
  change 0 < etaSq p.T at s0
  change (etaSq p.T)⁻¹ ≤ 46.6 at k4
  have hlog : 0 < betheLog (shellFactor c (usedI m.i_potential t.Z) t.Z) (usedI m.i_potential t.Z) (etaSq p.T) :=
    betheLog_pos c _ _ tZ i0 i1 i2 p.T hT
  have hbk : barkasTerm c (stoppedCharge p c) (etaSq p.T) t.Z ≤ barkasTerm c' (stoppedCharge p' c') (etaSq p.T) t.Z := by
    unfold barkasTerm
    rw [hc]
    split
    · exact le_rfl
    · rw [barkas_linear (stoppedCharge p c), barkas_linear (stoppedCharge p' c')]
      have := mul_le_mul_of_nonneg_right hz (sub_nonneg.mpr (barkas_ge_one 1 (√(etaSq p.T)) t.Z (by norm_num)))
      linarith
  have hK : 0 < dedx_constant * (t.Z : ℝ) / (etaSq p.T / (1 + etaSq p.T) * t.A) := by
    have hc0 : (0 : ℝ) < dedx_constant := by norm_num [dedx_constant]
    have hz1 : (0 : ℝ) < t.Z := by exact_mod_cast (by omega : 0 < t.Z)
    positivity
  have eK : ∀ z, dedx_constant * z ^ 2 * (t.Z : ℝ) / (etaSq p.T / (1 + etaSq p.T) * t.A) =
      dedx_constant * (t.Z : ℝ) / (etaSq p.T / (1 + etaSq p.T) * t.A) * z ^ 2 := fun z => by ring
  rw [eK, eK]
  generalize dedx_constant * (t.Z : ℝ) / (etaSq p.T / (1 + etaSq p.T) * t.A) = K at hK
  generalize barkasTerm c (stoppedCharge p c) (etaSq p.T) t.Z = b at hbk
  generalize barkasTerm c' (stoppedCharge p' c') (etaSq p.T) t.Z = b' at hbk hbr
  generalize betheLog (shellFactor c (usedI m.i_potential t.Z) t.Z) (usedI m.i_potential t.Z) (etaSq p.T) = L at hlog hbr
  generalize f (Real.log (√(etaSq p.T)) / 2.3025851) = d at hbr
  generalize stoppedCharge p c = z at hz q0
  generalize stoppedCharge p' c' = z' at hz hbr
  generalize radiative p t c = r
  clear hb hb' q q' esh erad hf hl hl' k5 k6
  have m1 : L * (1 + b) + l - d / 2 ≤ L * (1 + b') + l - d / 2 := by
    have := mul_le_mul_of_nonneg_left hbk hlog.le
    linarith
  have m2 : K * z ^ 2 * (L * (1 + b) + l - d / 2) ≤ K * z ^ 2 * (L * (1 + b') + l - d / 2) :=
    mul_le_mul_of_nonneg_left m1 (by positivity)
  rcases q0.lt_or_eq with z0 | z0
  · have hB := hbr (by linarith)
    refine ⟨?_, fun hlt => ?_⟩
    · have : K * z ^ 2 ≤ K * z' ^ 2 := by gcongr
      have := mul_le_mul_of_nonneg_right this hB.le
      linarith
    · have : K * z ^ 2 < K * z' ^ 2 := by gcongr
      have := mul_lt_mul_of_pos_right this hB
      linarith
  · subst z0
    rcases hz.lt_or_eq with z1 | z1
    · have := mul_pos (show 0 < K * z' ^ 2 by positivity) (hbr z1)
      exact ⟨by linarith, fun _ => by linarith⟩
    · subst z1
      exact ⟨by linarith, fun h => absurd h (lt_irrefl _)⟩

theorem bethe_charge (env : Env ℝ) {p p' : Projectile ℝ} {n : Int} {m : Material ℝ} {c c' : Config ℝ} (h : Computable p n m c)
    (h' : Computable p' n m c') (hu : Usual p n m) (hu' : Usual p' n m) (hp : p' = { p with Q := p'.Q })
    (hc : c'.corrections = c.corrections) (hT : 10 ≤ p.T) (hr : LindhardReadable p.T)
    (hz : stoppedCharge p c ≤ stoppedCharge p' c') :
    ∃ v v', bethek_dedx_e env p m c = .ok v ∧ bethek_dedx_e env p' m c' = .ok v' ∧ v ≤ v' ∧
      (stoppedCharge p c < stoppedCharge p' c' → v < v') := by
  have key : ∀ t ∈ m.atoms, _ := fun t ht => bethe_target_charge env h h' hu hu' hp hc t ht hT hr hz
  choose! g g' hg hg' hle hlt using key
  obtain ⟨s1, s2⟩ := weighted_sum_order m.atoms m.wfrac g g' (fun t ht => m.wfrac_pos h.sound t ht) hle
  refine ⟨_, _, componentSum_ok m _ g hg, componentSum_ok m _ g' hg', s1, fun hq => s2 ?_⟩
  obtain ⟨t, ht⟩ := List.exists_mem_of_ne_nil _ h.sound.nonempty
  exact ⟨t, ht, hlt t ht hq⟩

/-- Stopping powers for two effective charges. -/
theorem stopping_charge (env : Env ℝ) {p p' : Projectile ℝ} {n : Int} {m : Material ℝ} {c c' : Config ℝ} (h : Computable p n m c)
    (h' : Computable p' n m c') (hu : Usual p n m) (hp : p' = { p with Q := p'.Q }) (hc : c'.corrections = c.corrections)
    (hlow : c'.low_energy = c.low_energy) (h0 : 0 < p.T) (hr : LindhardReadable p.T) (hz : stoppedCharge p c ≤ stoppedCharge p' c') :
    ∃ v v', dedx env p m c = .ok v ∧ dedx env p' m c' = .ok v' ∧ 0 < v ∧ v ≤ v' ∧ (p.T ≤ 10 → v = v') ∧
      (10 < p.T → stoppedCharge p c < stoppedCharge p' c' → v < v') := by
  have hu' : Usual p' n m := ⟨by rw [hp]; exact hu.mass, hu.excitation⟩
  have eT : p'.T = p.T := by rw [hp]
  obtain ⟨v, hv, hv0⟩ := stopping_positive env p n _ c h hu h0 hr
  have hn : dedx_n env.debug p' m = dedx_n env.debug p m := by rw [hp]; rfl
  have hse : sezi_dedx_e p' m c' = sezi_dedx_e p m c := by
    rw [hp]
    unfold sezi_dedx_e
    rw [hlow]
  obtain ⟨a, ha, -, -⟩ := nuclear_nonneg env.debug p h.posZ h.ion.A _ h.sound
  obtain ⟨b, hb, -⟩ := sezi_pos h.ion h.sound c h0
  rw [dedx_eq env p _ c h0, ha] at hv
  rw [dedx_eq env p _ c h0, dedx_eq env p' _ c' (by rw [eT]; exact h0), hn, ha]
  unfold electronic at hv ⊢
  rw [hse, eT]
  rw [hb] at hv ⊢
  rcases le_or_gt p.T 10 with h1 | h1
  · have k : (Scalar.le p.T 10.0) = true := by rw [le_real]; norm_num; exact h1
    simp only [k, if_true] at hv ⊢
    exact ⟨v, v, hv, hv, hv0, le_rfl, fun _ => rfl, fun h => absurd h1 (not_le.mpr h)⟩
  obtain ⟨e, e', he, he', hle, hlt⟩ := bethe_charge env h h' hu hu' hp hc h1.le hr hz
  have k : (Scalar.le p.T 10.0) = false := by rw [← Bool.not_eq_true, le_real]; norm_num; exact h1
  rw [he] at hv ⊢
  rw [he']
  simp only [k, Bool.false_eq_true, if_false] at hv ⊢
  by_cases h3 : p.T < 30
  · have k3 : (Scalar.gt p.T 10.0 && Scalar.lt p.T 30.0) = true := by
      rw [Bool.and_eq_true, lt_real, lt_real]; norm_num; exact ⟨h1, h3⟩
    simp only [k3, if_true] at hv ⊢
    refine ⟨v, _, hv, rfl, hv0, ?_, fun h => absurd h1 (not_lt.mpr h), fun _ hq => ?_⟩ <;> cases hv
    · have := mul_le_mul_of_nonneg_left hle (show 0 ≤ 5e-2 * (p.T - 10.0) by norm_num; linarith)
      linarith
    · have := mul_lt_mul_of_pos_left (hlt hq) (show 0 < 5e-2 * (p.T - 10.0) by norm_num; linarith)
      linarith
  · have k3 : (Scalar.gt p.T 10.0 && Scalar.lt p.T 30.0) = false := by
      rw [← Bool.not_eq_true, Bool.and_eq_true, lt_real, lt_real]; norm_num; intro; linarith
    simp only [k3, Bool.false_eq_true, if_false] at hv ⊢
    refine ⟨v, _, hv, rfl, hv0, ?_, fun h => absurd h1 (not_lt.mpr h), fun _ hq => ?_⟩ <;> cases hv
    · linarith
    · linarith [hlt hq]

/-- C126: with the option `z_effective = none` an ion of higher charge is stopped more strongly at every energy above 10 MeV/u,
and equally up to 10 MeV/u; with the default option the charge state of the projectile does not matter. -/
theorem charge_directed (env : Env ℝ) (A Z T : ℝ) (n : Int) (m : Material ℝ) (c : Config ℝ) (Q Q' : ℝ)
    (h : Computable ⟨A, Z, Q, T⟩ n m c) (hu : Usual ⟨A, Z, Q, T⟩ n m) (h0 : 0 < T) (hr : LindhardReadable T) (hQ : Q ≤ Q') :
    ∃ v v', dedx env ⟨A, Z, Q, T⟩ m c = .ok v ∧ dedx env ⟨A, Z, Q', T⟩ m c = .ok v' ∧ 0 < v ∧ v ≤ v' ∧
      (T ≤ 10 ∨ c.z_effective = 1 → v = v') ∧ (10 < T → c.z_effective = 0 → Q < Q' → v < v') := by
  have h' : Computable ⟨A, Z, Q', T⟩ n m c := ⟨⟨h.ion.Z, h.ion.pos, h.ion.int, h.ion.A⟩, h.small, h.sound, h.known, by
    rcases h.charge with hc | ⟨hc, hq⟩
    · exact .inl hc
    · exact .inr ⟨hc, hq.trans hQ⟩⟩
  have hz : stoppedCharge ⟨A, Z, Q, T⟩ c ≤ stoppedCharge ⟨A, Z, Q', T⟩ c := by
    unfold stoppedCharge
    split
    · exact le_rfl
    · exact hQ
  obtain ⟨v, v', a, b, v0, hle, heq, hlt⟩ := stopping_charge env h h' hu rfl rfl rfl h0 hr hz
  refine ⟨v, v', a, b, v0, hle, fun hh => ?_, fun h1 hc hq => hlt h1 ?_⟩
  · rcases hh with hh | hh
    · exact heq hh
    · have hu' : Usual ⟨A, Z, Q', T⟩ n m := ⟨hu.mass, hu.excitation⟩
      have hz' : stoppedCharge ⟨A, Z, Q', T⟩ c ≤ stoppedCharge ⟨A, Z, Q, T⟩ c := by
        unfold stoppedCharge
        rw [if_pos hh, if_pos hh]
      obtain ⟨u, u', a', b', -, hle', -⟩ := stopping_charge env h' h hu' rfl rfl rfl h0 hr hz'
      rw [b] at a'
      rw [a] at b'
      cases a'
      cases b'
      exact le_antisymm hle hle'
  · unfold stoppedCharge
    rw [if_neg (by omega), if_neg (by omega)]
    exact hq

/-- C126: an ion is stopped less with the default effective charge than as a bare nucleus, strictly above 10 MeV/u. -/
theorem bare_nucleus_stopped (env : Env ℝ) (A Z T : ℝ) (n : Int) (m : Material ℝ) (c : Config ℝ) (q Q : ℝ) (hc : c.z_effective = 1)
    (h : Computable ⟨A, Z, q, T⟩ n m c) (hu : Usual ⟨A, Z, q, T⟩ n m) (h0 : 0 < T) (hr : LindhardReadable T) (hQ : Z ≤ Q) :
    ∃ v v', dedx env ⟨A, Z, q, T⟩ m c = .ok v ∧ dedx env ⟨A, Z, Q, T⟩ m { c with z_effective := 0 } = .ok v' ∧ 0 < v ∧ v ≤ v' ∧
      (10 < T → v < v') := by
  have h' : Computable ⟨A, Z, Q, T⟩ n m { c with z_effective := 0 } :=
    ⟨⟨h.ion.Z, h.ion.pos, h.ion.int, h.ion.A⟩, h.small, h.sound, h.known, .inr ⟨rfl, h.posZ.le.trans hQ⟩⟩
  have hz : stoppedCharge ⟨A, Z, q, T⟩ c < stoppedCharge ⟨A, Z, Q, T⟩ { c with z_effective := 0 } := by
    unfold stoppedCharge
    rw [if_pos hc, if_neg (by norm_num)]
    exact (pierce_blann_bounds Z _ h.posZ (gamma_beta_bounds T h0).2.1.le).2.trans_le hQ
  obtain ⟨v, v', a, b, v0, hle, -, hlt⟩ := stopping_charge env h h' hu rfl rfl rfl h0 hr hz.le
  exact ⟨v, v', a, b, v0, hle, fun h1 => hlt h1 hz⟩

/-- Range tables for two effective charges. -/
theorem range_table_charge (env : Env ℝ) {p p' : Projectile ℝ} {n : Int} {m : Material ℝ} {c c' : Config ℝ} (h : Computable p n m c)
    (h' : Computable p' n m c') (hu : Usual p n m) (hp : p' = { p with Q := p'.Q }) (hc : c'.corrections = c.corrections)
    (hlow : c'.low_energy = c.low_energy)
    (hz : ∀ x, 0 < x → stoppedCharge (p.withT x) c ≤ stoppedCharge (p'.withT x) c') (d d' : DataPoint ℝ)
    (hd : calculate_DataPoint env p m c = .ok d) (hd' : calculate_DataPoint env p' m c' = .ok d') (i : Nat) (hi : i < 600) :
    ∃ R R', d.range[i]? = some R ∧ d'.range[i]? = some R' ∧ R' ≤ R := by
  have hb := energy_table_bounds
  have ord : ∀ k, (energy_table : EnergyTable ℝ).val k < (energy_table : EnergyTable ℝ).val (k + 1) :=
    fun k => (EnergyTable.val_lt_iff _ hb.1 hb.2.1 k (k + 1)).mpr (by omega)
  have key : ∀ k < 599, ∃ J J', integrator.integrate (fdedx env p' m c') ((energy_table : EnergyTable ℝ).val k)
      ((energy_table : EnergyTable ℝ).val (k + 1)) = .ok J ∧
      integrator.integrate (fdedx env p m c) ((energy_table : EnergyTable ℝ).val k)
      ((energy_table : EnergyTable ℝ).val (k + 1)) = .ok J' ∧ J ≤ J' := fun k hk =>
    integrator_le _ _ _ _ (ord k) fun x hx => by
      obtain ⟨-, -, -, -, h0, hr⟩ := inner_grid k hk x hx
      obtain ⟨v, v', hv, hv', v0, hle, -⟩ := stopping_charge env (h.withT x) (h'.withT x) (hu.withT x)
        (show p'.withT x = { p.withT x with Q := (p'.withT x).Q } by rw [hp]; rfl) hc hlow h0 hr (hz x h0)
      unfold fdedx
      rw [hv, hv']
      refine ⟨_, _, rfl, rfl, ?_⟩
      exact div_le_div_of_nonneg_left (by norm_num) v0 hle
  choose! J J' hJ hJ' hle using key
  obtain ⟨hl, hz0, hs⟩ := table_step p.A _ _ (data_point_parts env p _ c d hd).1 J' hJ'
  obtain ⟨hl', hz0', hs'⟩ := table_step p'.A _ _ (data_point_parts env p' _ c' d' hd').1 J hJ
  have eA : p'.A = p.A := by rw [hp]
  induction i with
  | zero => exact ⟨0, 0, hz0, hz0', le_rfl⟩
  | succ i ih =>
    obtain ⟨R, R', e, e', hR⟩ := ih (by omega)
    obtain ⟨a, b, ha, hb, hab⟩ := hs i (by omega)
    obtain ⟨a', b', ha', hb', hab'⟩ := hs' i (by omega)
    rw [e] at ha
    rw [e'] at ha'
    cases ha
    cases ha'
    refine ⟨b, b', hb, hb', ?_⟩
    have := mul_le_mul_of_nonneg_left (hle i (by omega)) h.ion.A.le
    rw [eA] at hab'
    linarith

/-- C126 for ranges: at the energies of the table the range of a bare nucleus is not longer than the one with the default
effective charge, and with `z_effective = none` the range does not grow with the charge. -/
theorem charge_directed_range (env : Env ℝ) (A Z T : ℝ) (n : Int) (m : Material ℝ) (c c' : Config ℝ) (Q Q' : ℝ)
    (h : Computable ⟨A, Z, Q, T⟩ n m c) (hu : Usual ⟨A, Z, Q, T⟩ n m) (hc' : c' = { c with z_effective := 0 })
    (hQ : c.z_effective = 0 ∧ Q ≤ Q' ∨ c.z_effective = 1 ∧ Z ≤ Q') (hk : NonDefault ⟨A, Z, Q, T⟩ m c)
    (hk' : NonDefault ⟨A, Z, Q', T⟩ m c') (w w' : World ℝ) (hw : ReachableW env w) (hw' : ReachableW env w') (i : Nat) (hi : i < 600)
    (hT : T = (energy_table : EnergyTable ℝ).val i) :
    ∃ R R', (Call.range ⟨A, Z, Q, T⟩ m c).respond env w = .ok (.num R) ∧
      (Call.range ⟨A, Z, Q', T⟩ m c').respond env w' = .ok (.num R') ∧ R' ≤ R := by
  have hp := h.posZ
  have h' : Computable ⟨A, Z, Q', T⟩ n m c' := ⟨⟨h.ion.Z, h.ion.pos, h.ion.int, h.ion.A⟩, h.small, h.sound, h.known, by
    subst hc'
    rcases hQ with ⟨hc, hq⟩ | ⟨hc, hq⟩
    · rcases h.charge with hh | ⟨hh, hq'⟩
      · omega
      · exact .inr ⟨rfl, hq'.trans hq⟩
    · exact .inr ⟨rfl, hp.le.trans hq⟩⟩
  have hz : ∀ x, 0 < x → stoppedCharge ⟨A, Z, Q, x⟩ c ≤ stoppedCharge ⟨A, Z, Q', x⟩ c' := by
    intro x hx
    subst hc'
    unfold stoppedCharge
    rcases hQ with ⟨hc, hq⟩ | ⟨hc, hq⟩
    · rw [if_neg (by omega), if_neg (by norm_num)]
      exact hq
    · rw [if_pos hc, if_neg (by norm_num)]
      exact ((pierce_blann_bounds Z _ hp (gamma_beta_bounds x hx).2.1.le).2.trans_le hq).le
  obtain ⟨d, R, hd, hR, e⟩ := range_at_knot env w hw _ n m c h hk i hi hT
  obtain ⟨d', R', hd', hR', e'⟩ := range_at_knot env w' hw' _ n m c' h' hk' i hi hT
  obtain ⟨P, P', hP, hP', hle⟩ := range_table_charge env h h' hu rfl (by rw [hc']) (by rw [hc']) hz d d' hd hd' i hi
  rw [hR] at hP
  rw [hR'] at hP'
  cases hP
  cases hP'
  exact ⟨R, R', e, e', hle⟩

/-- Carbon at 290 MeV/u in water: helium-like and bare. -/
example (env : Env ℝ) : ∃ v v',
    dedx env ⟨12, 6, 4, 290⟩ (⟨1, 1, 18.015, 0, [⟨1.00794, 1, 2⟩, ⟨15.9994, 8, 1⟩]⟩ : Material ℝ) { Config.default with z_effective := 0 } = .ok v ∧
    dedx env ⟨12, 6, 6, 290⟩ (⟨1, 1, 18.015, 0, [⟨1.00794, 1, 2⟩, ⟨15.9994, 8, 1⟩]⟩ : Material ℝ) { Config.default with z_effective := 0 } = .ok v' ∧
    v < v' := by
  have hc := carbon_water_usual 4 290
  obtain ⟨v, v', a, b, -, -, -, hlt⟩ := charge_directed env 12 6 290 6 (⟨1, 1, 18.015, 0, [⟨1.00794, 1, 2⟩, ⟨15.9994, 8, 1⟩]⟩ : Material ℝ)
    { Config.default with z_effective := 0 } 4 6 ⟨hc.1.ion, hc.1.small, hc.1.sound, hc.1.known, .inr ⟨rfl, by norm_num⟩⟩ hc.2 (by norm_num)
    (Or.inl (below_top 290 (by norm_num))) (by norm_num)
  exact ⟨v, v', a, b, hlt (by norm_num) rfl (by norm_num)⟩

/-- The default effective charge against the bare nucleus, and the ranges. -/
example (env : Env ℝ) (w : World ℝ) (hw : ReachableW env w) (i : Nat) (hi : i < 600) : (∃ v v',
    dedx env ⟨12, 6, 6, 290⟩ (⟨1, 1, 18.015, 0, [⟨1.00794, 1, 2⟩, ⟨15.9994, 8, 1⟩]⟩ : Material ℝ) .default = .ok v ∧
    dedx env ⟨12, 6, 6, 290⟩ (⟨1, 1, 18.015, 0, [⟨1.00794, 1, 2⟩, ⟨15.9994, 8, 1⟩]⟩ : Material ℝ) { Config.default with z_effective := 0 } = .ok v' ∧
    v < v') ∧ ∃ R R',
    (Call.range ⟨12, 6, 6, (energy_table : EnergyTable ℝ).val i⟩ (⟨1, 1, 18.015, 0, [⟨1.00794, 1, 2⟩, ⟨15.9994, 8, 1⟩]⟩ : Material ℝ)
      .default).respond env w = .ok (.num R) ∧
    (Call.range ⟨12, 6, 6, (energy_table : EnergyTable ℝ).val i⟩ (⟨1, 1, 18.015, 0, [⟨1.00794, 1, 2⟩, ⟨15.9994, 8, 1⟩]⟩ : Material ℝ)
      { Config.default with z_effective := 0 }).respond env w = .ok (.num R') ∧ R' ≤ R := by
  constructor
  · have hc := carbon_water_usual 6 290
    obtain ⟨v, v', a, b, -, -, hlt⟩ := bare_nucleus_stopped env 12 6 290 6 (⟨1, 1, 18.015, 0, [⟨1.00794, 1, 2⟩, ⟨15.9994, 8, 1⟩]⟩ : Material ℝ)
      .default 6 6 rfl hc.1 hc.2 (by norm_num) (Or.inl (below_top 290 (by norm_num))) le_rfl
    exact ⟨v, v', a, b, hlt (by norm_num)⟩
  · have hk : ∀ c : Config ℝ, NonDefault ⟨12, 6, 6, (energy_table : EnergyTable ℝ).val i⟩
        (⟨1, 1, 18.015, 0, [⟨1.00794, 1, 2⟩, ⟨15.9994, 8, 1⟩]⟩ : Material ℝ) c := by
      intro c
      simp only [NonDefault, Key.eq, Key.default, Projectile.eq, Projectile.default]
      simp
      intro h
      norm_num at h
    have hc := carbon_water_usual 6 ((energy_table : EnergyTable ℝ).val i)
    exact charge_directed_range env 12 6 _ 6 _ .default _ 6 6 hc.1 hc.2 rfl (.inr ⟨rfl, le_rfl⟩) (hk _) (hk _) w w hw hw i hi rfl

end Catima
