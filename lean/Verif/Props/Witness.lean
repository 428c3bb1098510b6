import Verif.Props.Ranges
import Verif.Props.Transparency
import Verif.Props.Cache

/-!
# C14, C17: refutations for the library's own tables

`Props/Ranges` shows that the tables are computed without a fault, so the scenarios found for the
cache occur in the library.
-/

namespace Catima

/-- Filling a cache slot succeeds and stores the tables of `calculate_DataPoint`. -/
theorem compute_defined (env : Env ℝ) (p : Projectile ℝ) (n : Int) (m : Material ℝ) (c : Config ℝ)
    (h : Computable p n m c) :
    ∃ d d0, Storage.computeDP env p m c = .ok d ∧ calculate_DataPoint env p m c = .ok d0 ∧
      d.range = d0.range ∧ d.range_straggling = d0.range_straggling ∧
      d.angular_variance = d0.angular_variance := by
  obtain ⟨d0, hd, h1, h2, h3⟩ := data_point_defined env p n m c h
  have hs : ∀ y : List ℝ, y.length = 600 → ∃ s, newSpline env y = .ok s := fun y hy => by
    obtain ⟨s, hs, -⟩ := spline_knots env.junk _ _ (library_table_ordered env.calcIndex) y hy
    exact ⟨s, hs⟩
  obtain ⟨s1, e1⟩ := hs _ h1
  obtain ⟨s2, e2⟩ := hs _ h2
  obtain ⟨s3, e3⟩ := hs _ h3
  unfold Storage.computeDP
  rw [hd, bind_ok]
  unfold DataPoint.withSplines
  split
  · simp only [e1, e2, e3, bind_ok]
    exact ⟨_, d0, rfl, rfl, rfl, rfl, rfl⟩
  · exact ⟨_, d0, rfl, rfl, rfl, rfl, rfl⟩

/-- The sample queries of `Props/Cache` are computable. -/
theorem sample_computable (k : Nat) : Computable (sampleKey k).p 1 (sampleKey k).t (sampleKey k).c where
  ion := ⟨by norm_num [sampleKey], by norm_num, by norm_num, by
    show (0 : ℝ) < (k : ℝ) + 1
    positivity⟩
  small := by norm_num
  sound := ⟨by simp [sampleKey], by simp [sampleKey], by simp [sampleKey], by simp [sampleKey],
    by norm_num [sampleKey]⟩
  known := by simp [sampleKey]
  charge := Or.inl rfl

/-- C17, refuted for the library: after 60 queries for different projectiles, a hit on the first of
them refers to a slot that the next new query overwrites. -/
theorem library_reference_lost (env : Env ℝ) :
    ∃ (s s' : Storage ℝ) (e d : DataPoint ℝ), Reachable (Storage.computeDP env) s ∧
      e.key = sampleKey 0 ∧
      s.getWith (Storage.computeDP env) (sampleKey 0).p (sampleKey 0).t (sampleKey 0).c = .ok (e, s) ∧
      s.slots[0]? = some e ∧ Steps (Storage.computeDP env) s 1 s' ∧ s'.slots[0]? = some d ∧
      d.key.eq (sampleKey 0) = false :=
  reference_of_hit_lost _ (computeDP_faithful env) fun k => by
    obtain ⟨d, -, hd, -⟩ := compute_defined env _ 1 _ _ (sample_computable k)
    exact ⟨d, hd⟩

/-- The second entry of the angular table is a positive multiple of the scattering factor. -/
theorem angular_second_entry (env : Env ℝ) (p : Projectile ℝ) (n : Int) (m : Material ℝ) (c : Config ℝ)
    (h : Computable p n m c) :
    ∃ J, 0 < J ∧ ∀ f d, calculate_DataPoint env p m { c with scattering_factor := f } = .ok d →
      d.angular_variance[1]? = some (f * J) := by
  have hb := energy_table_bounds
  have ord : (energy_table : EnergyTable ℝ).val 0 < (energy_table : EnergyTable ℝ).val 1 :=
    (EnergyTable.val_lt_iff _ hb.1 hb.2.1 0 1).mpr (by omega)
  have hlow : (energy_table : EnergyTable ℝ).val 1 ≤ 10 := by
    have hs : (energy_table : EnergyTable ℝ).step = 10 / 599 := by
      rw [EnergyTable.step_eq]; norm_num [energy_table, logEmin, logEmax, max_datapoints]
    rw [EnergyTable.val_eq, hs]
    have h1 : Real.exp 0 = 1 := Real.exp_zero
    refine le_trans (Real.exp_le_exp.mpr (?_ : _ ≤ (0 : ℝ))) (by rw [h1]; norm_num)
    norm_num [energy_table, logEmin, LN10]
  have hd : ∀ x, Inner ((energy_table : EnergyTable ℝ).val 0) ((energy_table : EnergyTable ℝ).val 1) x →
      ∃ v, dedx env (p.withT x) m c = .ok v ∧ 0 < v := fun x hx => by
    obtain ⟨-, h9, -, -, h0, -⟩ := inner_grid 0 (by norm_num) x hx
    norm_num at h9
    exact stopping_positive_low env (p.withT x) n (withT_ion h.ion x) m h.sound c h0 (h9.trans hlow)
  choose! D hD hD0 using hd
  set a := (energy_table : EnergyTable ℝ).val 0
  set b := (energy_table : EnergyTable ℝ).val 1
  set J := (b - a) / 2 * wsum integrator.full fun x =>
    angular_scattering_power (p.withT ((b - a) / 2 * x + (b + a) / 2)) m (Es2_of c) /
      D ((b - a) / 2 * x + (b + a) / 2) with hJ
  have hX := radiation_length_material_pos m h.sound fun t ht => (h.known t ht).trans (by norm_num)
  have hE : 0 < Es2_of c := by
    unfold Es2_of
    dsimp only
    split
    · norm_num [Es_squared, PI, fine_structure_inverted, fine_structure, electron_mass]
    · split <;> norm_num [Es_squared, PI, fine_structure_inverted, fine_structure, electron_mass]
  refine ⟨p.A * J, mul_pos h.ion.A (mul_pos (by linarith) ?_), ?_⟩
  · refine sum_pos_of_forall _ _ (fun e he => mul_pos (integrator_nodes e he).2.2 ?_) integrator_full_ne
    have hin := node_inner a b ord.le e he
    obtain ⟨-, -, -, -, h0, -⟩ := inner_grid 0 (by norm_num) _ hin
    refine div_pos ?_ (hD0 _ hin)
    generalize (b - a) / 2 * e.1 + (b + a) / 2 = x at h0
    unfold angular_scattering_power
    rw [if_neg (by rw [le_real]; norm_num; exact h0)]
    dsimp only
    have hu := amu_pos
    have hZ := h.posZ
    have hp : 0 < p_from_T x p.A := by
      unfold p_from_T
      rw [sqrt_real]
      refine mul_pos (Real.sqrt_pos.mpr ?_) h.ion.A
      norm_num
      positivity
    have sq : ∀ y : ℝ, 0 < y → 0 < ipow y 2 := fun y hy => mul_pos hy hy
    refine div_pos (mul_pos hE (sq _ hZ)) (mul_pos hX (sq _ (mul_pos hp (div_pos hp ?_))))
    exact mul_pos (by show 0 < x + _; linarith) h.ion.A
  · intro f d hdp
    have hI : integrator.integrate (ftheta env p m { c with scattering_factor := f }) a b
        = .ok (f * J) := by
      have hs := GLData.supported_shape _ integrator_supported
      rw [integrator.integrate_eq (integrator.shape hs).1 _
        (fun x => f * (angular_scattering_power (p.withT x) m (Es2_of c) / D x)) a b fun e he => ?_]
      · rw [hJ, wsum_smul]
        refine congrArg Except.ok ?_
        ring
      · have hin := node_inner a b ord.le e he
        have e1 : dedx env (p.withT ((b - a) / 2 * e.1 + (b + a) / 2)) m { c with scattering_factor := f }
            = .ok (D ((b - a) / 2 * e.1 + (b + a) / 2)) := hD _ hin
        unfold ftheta da2de
        rw [e1]
        show Except.ok (f * _ / _) = _
        rw [mul_div_assoc]
        rfl
    obtain ⟨-, hcum, -⟩ := data_point_parts env p m _ d hdp
    have hdef : ∀ k < 599, ∃ I, integrator.integrate (ftheta env p m { c with scattering_factor := f })
        ((energy_table : EnergyTable ℝ).val k) ((energy_table : EnergyTable ℝ).val (k + 1)) = .ok I :=
      fun k hk => integrator_defined _ _ _
        ((EnergyTable.val_le_iff _ hb.1 hb.2.1 k (k + 1)).mpr (by omega)) fun x hx => by
        obtain ⟨-, -, -, -, h0, hr⟩ := inner_grid k hk x hx
        have h' : Computable p n m { c with scattering_factor := f } :=
          ⟨h.ion, h.small, h.sound, h.known, h.charge⟩
        obtain ⟨v, hv⟩ := h'.dedx env x h0 hr
        unfold ftheta da2de
        rw [hv]
        exact ⟨_, rfl⟩
    choose! I hI' using hdef
    obtain ⟨-, hz, hst⟩ := table_step p.A _ _ hcum I hI'
    obtain ⟨u, v, hu, hv, huv⟩ := hst 0 (by norm_num)
    have e0 : I 0 = f * J := by
      have := hI' 0 (by norm_num)
      rw [hI] at this
      exact (Except.ok.inj this).symm
    rw [hz] at hu
    have hu0 := Option.some.inj hu
    rw [e0] at huv
    rw [hv]
    clear_value J
    refine congrArg some ?_
    linarith

/-- C14, refuted: a query with one scattering factor, followed by a query with another one within
the tolerance of `Config ==`, is answered with the angular table of the first, which is not the one
computed for the second. -/
theorem angular_not_transparent (env : Env ℝ) (p : Projectile ℝ) (n : Int) (m : Material ℝ)
    (c : Config ℝ) (h : Computable p n m c) (hnd : NonDefault p m c) (f : ℝ)
    (hf : |c.scattering_factor - f| ≤ 1e-3) (hne : f ≠ c.scattering_factor) :
    ∃ (d d' : DataPoint ℝ) (w : World ℝ),
      get_data env p m c .init = .ok (d, w) ∧
      get_data env p m { c with scattering_factor := f } w = .ok (d, w) ∧
      calculate_DataPoint env p m { c with scattering_factor := f } = .ok d' ∧
      d.angular_variance ≠ d'.angular_variance := by
  obtain ⟨d, d0, hd, hd0, -, -, ha⟩ := compute_defined env p n m c h
  obtain ⟨d', hd', -⟩ := data_point_defined env p n m { c with scattering_factor := f }
    ⟨h.ion, h.small, h.sound, h.known, h.charge⟩
  obtain ⟨J, hJ, hent⟩ := angular_second_entry env p n m c h
  have hmiss : ¬ (Storage.init : Storage ℝ).has ⟨p, m, c⟩ := by
    rintro ⟨e, he, hk⟩
    rw [mem_init he] at hk
    have : Key.default.eq ⟨p, m, c⟩ = true := hk
    rw [hnd] at this
    cases this
  have hget := getWith_miss_ok (k := ⟨p, m, c⟩) shape_init hmiss hd
  have hkey := (computeDP_faithful env p m c d hd).1
  set s1 : Storage ℝ := ⟨(Storage.init : Storage ℝ).slots.set (Storage.init : Storage ℝ).pos d,
    (Storage.init : Storage ℝ).pos + 1⟩ with hs1
  have hfirst : ∃ l, s1.slots = d :: l := by
    refine ⟨List.replicate 59 DataPoint.default, ?_⟩
    rw [hs1]
    have hp : (Storage.init : Storage ℝ).pos = 0 := by simp [Storage.pos, Storage.init]
    rw [hp]
    rfl
  obtain ⟨l, hl⟩ := hfirst
  have hhit : Storage.hit p m { c with scattering_factor := f } d = true := by
    have e1 : d.p = p := congrArg Key.p hkey
    have e2 : d.m = m := congrArg Key.t hkey
    have e3 : d.config = c := congrArg Key.c hkey
    unfold Storage.hit
    rw [e1, e2, e3, Bool.and_eq_true, Bool.and_eq_true, material_eq_iff]
    refine ⟨⟨by simp [Projectile.eq], by norm_num⟩, ?_⟩
    simp only [Config.eq, beq_self_eq_true, Bool.true_and, Bool.not_eq_true']
    rw [lt_real_false, fabs_real]
    norm_num at hf ⊢
    exact hf
  refine ⟨d, d', ⟨s1, .default, 1⟩, ?_, ?_, hd', ?_⟩
  · unfold get_data
    show (do
      let (d, s) ← (Storage.init : Storage ℝ).getWith (Storage.computeDP env) p m c
      return (d, (⟨s, Config.default, 1⟩ : World ℝ))) = _
    rw [hget]
    rfl
  · unfold get_data Storage.getWith
    simp only [hl, List.find?_cons, hhit]
    rfl
  · rw [ha]
    intro heq
    have h1 := hent c.scattering_factor d0 hd0
    have h2 := hent f d' hd'
    rw [heq, h2] at h1
    have := Option.some.inj h1
    exact hne (mul_right_cancel₀ hJ.ne' this)

/-- A carbon projectile in water, factors 1 and 1.0005. -/
example (env : Env ℝ) : ∃ (d d' : DataPoint ℝ) (w : World ℝ) (p : Projectile ℝ) (m : Material ℝ),
      get_data env p m .default .init = .ok (d, w) ∧
      get_data env p m { (Config.default : Config ℝ) with scattering_factor := 1.0005 } w = .ok (d, w) ∧
      calculate_DataPoint env p m { (Config.default : Config ℝ) with scattering_factor := 1.0005 } = .ok d' ∧
      d.angular_variance ≠ d'.angular_variance := by
  obtain ⟨d, d', w, h⟩ := angular_not_transparent env ⟨12, 6, 6, 100⟩ 6
    ⟨1, 1, 18.015, 0, [⟨1.00794, 1, 2⟩, ⟨15.9994, 8, 1⟩]⟩ .default
    ⟨⟨by norm_num, by norm_num, by norm_num, by norm_num⟩, by norm_num,
      ⟨by simp, by simp, by simp; norm_num, by simp, by norm_num⟩, by simp, Or.inl rfl⟩
    (by
      simp only [NonDefault, Key.eq, Key.default, Projectile.eq, Projectile.default]
      simp
      intro h
      norm_num at h)
    1.0005 (by norm_num [Config.default, abs_le]) (by norm_num [Config.default])
  exact ⟨d, d', w, _, _, h⟩

end Catima
