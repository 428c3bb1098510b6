import Verif.Props.ContinuityHeavy
import Verif.Props.StoppingPositive
import Verif.Lemmas.BetheOrder
import Verif.Props.RangeConvex

/-!
# C145: what the option no_highenergy changes; C128: the radiative energy loss sets in with a jump
-/

namespace Catima

/-- The configuration without the radiative energy loss (config.h:29, `no_highenergy = 8`). -/
def Config.noHighEnergy (c : Config ℝ) : Config ℝ := { c with corrections := c.corrections ||| 8 }

theorem noHighEnergy_bits (c : Config ℝ) : c.noHighEnergy.corrections.testBit 0 = c.corrections.testBit 0 ∧
    c.noHighEnergy.corrections.testBit 1 = c.corrections.testBit 1 ∧ c.noHighEnergy.corrections.testBit 2 = c.corrections.testBit 2 ∧
    c.noHighEnergy.corrections.testBit 3 = true := by
  unfold Config.noHighEnergy
  have e0 : Nat.testBit 8 0 = false := by decide
  have e1 : Nat.testBit 8 1 = false := by decide
  have e2 : Nat.testBit 8 2 = false := by decide
  have e3 : Nat.testBit 8 3 = true := by decide
  simp only [Nat.testBit_or, e0, e1, e2, e3, Bool.or_false, Bool.or_true, and_self]

theorem bethe_radiation (env : Env ℝ) (p : Projectile ℝ) (t : Target ℝ) (c : Config ℝ) (I : ℝ) (hT : 0 < p.T) (h3 : c.corrections.testBit 3 = false) :
    bethek_dedx_e_target env p t c I = (do
      let v ← bethek_dedx_e_target env p t c.noHighEnergy I
      return if 50000 < p.T then v + pair_production p t + bremsstrahlung p t else v) := by
  obtain ⟨b0, b1, b2, b3⟩ := noHighEnergy_bits c
  have ez : z_effective env.debug p t c.noHighEnergy = z_effective env.debug p t c := rfl
  have e0 : (p.T =? (0.0 : ℝ)) = false := by
    have : ¬ (p.T =? (0.0 : ℝ)) = true := by rw [beq_real]; norm_num; exact hT.ne'
    simpa using this
  unfold bethek_dedx_e_target
  rw [b0, b1, b2, b3, ez, h3, e0]
  cases c.corrections.testBit 1 <;> by_cases h : 50000 < p.T
  · have e1 : (p.T >? (50000.0 : ℝ)) = true := by rw [show (p.T >? (50000.0 : ℝ)) = Scalar.lt (50000.0 : ℝ) p.T from rfl, lt_real]; norm_num; exact h
    simp only [e1, h, if_true, bind_assoc, Bool.not_false, Bool.not_true, Bool.and_true, Bool.and_false, Bool.false_eq_true, if_false, pure_bind]
  · have e1 : (p.T >? (50000.0 : ℝ)) = false := by
      have : ¬ (p.T >? (50000.0 : ℝ)) = true := by rw [show (p.T >? (50000.0 : ℝ)) = Scalar.lt (50000.0 : ℝ) p.T from rfl, lt_real]; norm_num; exact not_lt.mp h
      simpa using this
    simp only [e1, h, if_true, bind_assoc, Bool.not_false, Bool.not_true, Bool.and_true, Bool.and_false, Bool.false_eq_true, if_false, pure_bind]
  · have e1 : (p.T >? (50000.0 : ℝ)) = true := by rw [show (p.T >? (50000.0 : ℝ)) = Scalar.lt (50000.0 : ℝ) p.T from rfl, lt_real]; norm_num; exact h
    simp only [e1, h, if_true, bind_assoc, Bool.not_false, Bool.not_true, Bool.and_true, Bool.and_false, Bool.false_eq_true, if_false, pure_bind]
  · have e1 : (p.T >? (50000.0 : ℝ)) = false := by
      have : ¬ (p.T >? (50000.0 : ℝ)) = true := by rw [show (p.T >? (50000.0 : ℝ)) = Scalar.lt (50000.0 : ℝ) p.T from rfl, lt_real]; norm_num; exact not_lt.mp h
      simpa using this
    simp only [e1, h, if_true, bind_assoc, Bool.not_false, Bool.not_true, Bool.and_true, Bool.and_false, Bool.false_eq_true, if_false, pure_bind]

/-- What the components lose more the material loses more. -/
theorem componentSum_more (m : Material ℝ) (f g : Target ℝ → M ℝ) (r : Target ℝ → ℝ) (u : ℝ)
    (h : ∀ t ∈ m.atoms, f t = (do let v ← g t; return v + r t)) (hu : componentSum m g = .ok u) :
    componentSum m f = .ok (u + (m.atoms.map fun t => m.wfrac t * r t).sum) := by
  unfold componentSum at hu ⊢
  have key : ∀ (l : List (Target ℝ)), (∀ t ∈ l, f t = (do let v ← g t; return v + r t)) → ∀ a s u,
      l.foldlM (fun sum t => do return sum + m.wfrac t * (← g t)) a = (.ok u : M ℝ) →
      l.foldlM (fun sum t => do return sum + m.wfrac t * (← f t)) (a + s) = (.ok (u + s + (l.map fun t => m.wfrac t * r t).sum) : M ℝ) := by
    intro l
    induction l with
    | nil =>
      intro _ a s u hu
      cases hu
      simp [pure, Except.pure]
    | cons t l ih =>
      intro hl a s u hu
      rw [List.foldlM_cons] at hu ⊢
      rw [hl t (by simp)]
      cases hg : g t with
      | error e => rw [hg] at hu; cases hu
      | ok v =>
        rw [hg] at hu
        have := ih (fun t ht => hl t (by simp [ht])) (a + m.wfrac t * v) (s + m.wfrac t * r t) u hu
        have e : a + s + m.wfrac t * (v + r t) = a + m.wfrac t * v + (s + m.wfrac t * r t) := by ring
        have e' : u + s + (m.wfrac t * r t + (l.map fun t => m.wfrac t * r t).sum) = u + (s + m.wfrac t * r t) +
          (l.map fun t => m.wfrac t * r t).sum := by ring
        rw [List.map_cons, List.sum_cons, e', ← this, ← e]
        rfl
  have := key m.atoms h 0.0 0 u hu
  simpa using this

/-- Specification: the radiative energy loss of a material, pair production and bremsstrahlung of its components by mass. -/
noncomputable def radiationLoss (p : Projectile ℝ) (m : Material ℝ) : ℝ :=
  (m.atoms.map fun t => m.wfrac t * (pair_production p t + bremsstrahlung p t)).sum

/-- C145: up to 50 GeV/u the option no_highenergy changes nothing. -/
theorem high_energy_below (env : Env ℝ) (p : Projectile ℝ) (m : Material ℝ) (c : Config ℝ) (hT : p.T ≤ 50000) :
    dedx env p m c.noHighEnergy = dedx env p m c := by
  rcases le_or_gt p.T 0 with h0 | h0
  · unfold dedx
    rw [if_pos (by rw [le_real]; norm_num; exact h0), if_pos (by rw [le_real]; norm_num; exact h0)]
  have e : ∀ t, bethek_dedx_e_target env p t c.noHighEnergy m.i_potential = bethek_dedx_e_target env p t c m.i_potential := by
    intro t
    cases h3 : c.corrections.testBit 3
    · rw [bethe_radiation env p t c m.i_potential h0 h3]
      simp only [if_neg (not_lt.mpr hT)]
      exact (bind_pure _).symm
    · obtain ⟨b0, b1, b2, b3⟩ := noHighEnergy_bits c
      unfold bethek_dedx_e_target
      rw [b0, b1, b2, b3, h3]
      rfl
  unfold dedx bethek_dedx_e
  simp only [e]
  rfl

/-- C145: above 50 GeV/u the stopping power is the one with the option no_highenergy plus the radiative energy loss. -/
theorem high_energy_above (env : Env ℝ) (p : Projectile ℝ) (m : Material ℝ) (c : Config ℝ) (h3 : c.corrections.testBit 3 = false)
    (hT : 50000 < p.T) (u : ℝ) (hu : dedx env p m c.noHighEnergy = .ok u) : dedx env p m c = .ok (u + radiationLoss p m) := by
  have h0 : 0 < p.T := by linarith
  have ee : ∀ c', electronic env p m c' = bethek_dedx_e env p m c' := fun c' => by
    unfold electronic
    rw [if_neg (by rw [le_real]; norm_num; linarith), if_neg (by
      rw [Bool.and_eq_true, not_and, lt_real]
      intro _
      norm_num
      linarith)]
  rw [dedx_eq env p m _ h0, ee] at hu ⊢
  cases hn : dedx_n env.debug p m with
  | error e => rw [hn] at hu; cases hu
  | ok a =>
    rw [hn] at hu
    cases hb : bethek_dedx_e env p m c.noHighEnergy with
    | error e => rw [hb] at hu; cases hu
    | ok b =>
      rw [hb] at hu
      cases hu
      have := componentSum_more m (fun t => bethek_dedx_e_target env p t c m.i_potential)
        (fun t => bethek_dedx_e_target env p t c.noHighEnergy m.i_potential) (fun t => pair_production p t + bremsstrahlung p t) b
        (fun t _ => by
          rw [bethe_radiation env p t c m.i_potential h0 h3]
          simp only [if_pos hT, add_assoc]) hb
      unfold bethek_dedx_e
      rw [this]
      show Except.ok _ = Except.ok _
      rw [add_assoc]
      rfl

/-- C145: the radiative energy loss is positive. -/
theorem radiationLoss_pos (p : Projectile ℝ) (m : Material ℝ) (hm : m.Sound) (hA : 0 < p.A) (hZ : 0 < p.Z) (hT : 0 ≤ p.T) : 0 < radiationLoss p m := by
  unfold radiationLoss
  refine List.sum_pos _ ?_ ?_
  · intro y hy
    obtain ⟨t, ht, rfl⟩ := List.mem_map.mp hy
    have := (radiative_nonneg p t hT hA (hm.A t ht)).1
    have := bremsstrahlung_pos p t hT hA hZ (hm.A t ht) (hm.Z t ht)
    exact mul_pos (Material.wfrac_pos hm t ht) (by linarith)
  · have := hm.nonempty
    simpa using this

/-- C145: so after any histories the ranges at the energies of the table up to 50 GeV/u are the same with both settings, and beyond they are not
larger with the radiative energy loss. -/
theorem high_energy_range (env : Env ℝ) (p : Projectile ℝ) (n : Int) (m : Material ℝ) (c : Config ℝ) (h : Computable p n m c) (hu : Usual p n m)
    (h3 : c.corrections.testBit 3 = false) (n1 : NonDefault p m c) (n2 : NonDefault p m c.noHighEnergy) (w1 w2 : World ℝ)
    (r1 : ReachableW env w1) (r2 : ReachableW env w2) (i : Nat) (hi : i < 600) :
    ∃ R S, (Call.range (p.withT ((energy_table : EnergyTable ℝ).val i)) m c).respond env w1 = .ok (.num R) ∧
      (Call.range (p.withT ((energy_table : EnergyTable ℝ).val i)) m c.noHighEnergy).respond env w2 = .ok (.num S) ∧ R ≤ S ∧
      ((energy_table : EnergyTable ℝ).val i ≤ 50000 → R = S) := by
  have h' : Computable p n m c.noHighEnergy := ⟨h.ion, h.small, h.sound, h.known, h.charge⟩
  obtain ⟨d1, hd1, v1⟩ := ranges_of_table env p n m c h n1
  obtain ⟨d2, hd2, v2⟩ := ranges_of_table env p n m _ h' n2
  have hb := energy_table_bounds
  have ord : ∀ k, (energy_table : EnergyTable ℝ).val k < (energy_table : EnergyTable ℝ).val (k + 1) :=
    fun k => (EnergyTable.val_lt_iff _ hb.1 hb.2.1 k (k + 1)).mpr (by omega)
  have key : ∀ j < 599, ∃ I J : ℝ,
      integrator.integrate (fdedx env p m c) ((energy_table : EnergyTable ℝ).val j) ((energy_table : EnergyTable ℝ).val (j + 1)) = .ok I ∧
      integrator.integrate (fdedx env p m c.noHighEnergy) ((energy_table : EnergyTable ℝ).val j) ((energy_table : EnergyTable ℝ).val (j + 1)) =
        .ok J ∧ I ≤ J ∧ ((energy_table : EnergyTable ℝ).val (j + 1) ≤ 50000 → I = J) := by
    intro j hj
    have pt : ∀ x, Inner ((energy_table : EnergyTable ℝ).val j) ((energy_table : EnergyTable ℝ).val (j + 1)) x → ∃ u v,
        fdedx env p m c x = .ok u ∧ fdedx env p m c.noHighEnergy x = .ok v ∧ u ≤ v ∧ (x ≤ 50000 → u = v) := fun x hx => by
      obtain ⟨-, -, -, -, x0, hr⟩ := inner_grid j hj x hx
      obtain ⟨v, hv, v0⟩ := stopping_positive_at env p n m _ h' hu x x0 hr
      unfold fdedx
      rw [hv]
      rcases le_or_gt x 50000 with hx | hx
      · rw [← high_energy_below env (p.withT x) m c hx, hv]
        exact ⟨_, _, rfl, rfl, le_rfl, fun _ => rfl⟩
      · rw [high_energy_above env (p.withT x) m c h3 hx v hv]
        have := radiationLoss_pos (p.withT x) m h.sound h.ion.A h.posZ x0.le
        refine ⟨_, _, rfl, rfl, ?_, fun h => absurd h (not_le.mpr hx)⟩
        gcongr
        linarith
    obtain ⟨I, J, hI, hJ, hIJ⟩ := integrator_le_sum [()] (fun _ => 1) (fdedx env p m c) (fun _ => fdedx env p m c.noHighEnergy) _ _ (ord j)
      fun x hx => by
        obtain ⟨u, v, e1, e2, huv, -⟩ := pt x hx
        exact ⟨u, fun _ => v, e1, fun _ _ => e2, by simpa using huv⟩
    obtain ⟨K, L, hK, hL, hKL⟩ := integrator_le_sum [()] (fun _ => 1)
      (fun x => if (energy_table : EnergyTable ℝ).val (j + 1) ≤ 50000 then fdedx env p m c.noHighEnergy x else fdedx env p m c x)
      (fun _ => fdedx env p m c) _ _ (ord j) fun x hx => by
        obtain ⟨u, v, e1, e2, huv, he⟩ := pt x hx
        obtain ⟨-, x1, -⟩ := inner_grid j hj x hx
        split
        · next h5 => exact ⟨v, fun _ => u, e2, fun _ _ => e1, by simpa using (he (by linarith)).ge⟩
        · exact ⟨u, fun _ => u, e1, fun _ _ => e1, by simp⟩
    refine ⟨I, J (), hI, hJ () (by simp), by simpa using hIJ, fun h5 => ?_⟩
    simp only [if_pos h5] at hK
    have hL' := hL () (by simp)
    rw [hI] at hL'
    have hK' : integrator.integrate (fdedx env p m c.noHighEnergy) _ _ = .ok K := hK
    rw [hJ () (by simp)] at hK'
    have a := Except.ok.inj hL'
    have b := Except.ok.inj hK'
    simp at hKL hIJ
    linarith
  choose! I J hI hJ hIJ hE using key
  obtain ⟨l1, z1, t1⟩ := table_step p.A _ _ (data_point_parts env p m _ d1 hd1).1 I hI
  obtain ⟨l2, z2, t2⟩ := table_step p.A _ _ (data_point_parts env p m _ d2 hd2).1 J hJ
  have le : ∀ i < 600, ∃ R S, d1.range[i]? = some R ∧ d2.range[i]? = some S ∧ R ≤ S ∧
      ((energy_table : EnergyTable ℝ).val i ≤ 50000 → R = S) := by
    intro i
    induction i with
    | zero => exact fun _ => ⟨_, _, z1, z2, le_rfl, fun _ => rfl⟩
    | succ i ih =>
      intro hi
      obtain ⟨R, S, hR, hS, hRS, hEq⟩ := ih (by omega)
      obtain ⟨a, b, ha, hb, hab⟩ := t1 i (by omega)
      obtain ⟨a', b', ha', hb', hab'⟩ := t2 i (by omega)
      rw [hR] at ha
      rw [hS] at ha'
      cases ha
      cases ha'
      have := mul_le_mul_of_nonneg_left (hIJ i (by omega)) h.ion.A.le
      refine ⟨b, b', hb, hb', by linarith, fun h5 => ?_⟩
      have e1 := hE i (by omega) h5
      have e2 := hEq ((ord i).le.trans h5)
      rw [e1] at hab
      linarith
  obtain ⟨R, S, hR, hS, hRS, hEq⟩ := le i hi
  exact ⟨R, S, v1 w1 r1 i hi R hR, v2 w2 r2 i hi S hS, hRS, hEq⟩

open Filter Topology

/-- **C128**, refuted: the radiative energy loss sets in with a jump. Wherever the stopping power without it has no jump at 50 GeV/u, the one
with it has one, up by the radiative energy loss at 50 GeV/u. -/
theorem radiation_jumps (env : Env ℝ) (p : Projectile ℝ) (m : Material ℝ) (hm : m.Sound) (hA : 0 < p.A) (hZ : 0 < p.Z) (c : Config ℝ)
    (h3 : c.corrections.testBit 3 = false) (h : NoJump (fun T => dedx env (p.withT T) m c.noHighEnergy) 50000) :
    ¬ NoJump (fun T => dedx env (p.withT T) m c) 50000 ∧
    ∃ D u, dedx env (p.withT 50000) m c = .ok u ∧ (∀ᶠ T in 𝓝[>] 50000, dedx env (p.withT T) m c = .ok (D T)) ∧
      Tendsto D (𝓝[>] 50000) (𝓝 (u + radiationLoss (p.withT 50000) m)) ∧ 0 < radiationLoss (p.withT 50000) m := by
  obtain ⟨E, hE, cE⟩ := h
  have cr : ContinuousAt (fun T => radiationLoss (p.withT T) m) 50000 := by
    unfold radiationLoss
    have : ∀ l : List (Target ℝ), (∀ t ∈ l, t ∈ m.atoms) →
        ContinuousAt (fun T => (l.map fun t => m.wfrac t * (pair_production (p.withT T) t + bremsstrahlung (p.withT T) t)).sum) 50000 := by
      intro l
      induction l with
      | nil => intro _; exact continuousAt_const
      | cons t l ih =>
        intro hl
        have ht := hl t (by simp)
        simp only [List.map_cons, List.sum_cons]
        exact (continuousAt_const.mul ((pair_continuous p t (hm.Z t ht) 50000 (by norm_num)).add
          (brems_continuous p t hA (hm.A t ht) 50000 (by norm_num)))).add (ih fun t ht => hl t (by simp [ht]))
    exact this _ fun _ h => h
  have r0 := radiationLoss_pos (p.withT 50000) m hm hA hZ (show (0 : ℝ) ≤ 50000 by norm_num)
  have e0 : dedx env (p.withT 50000) m c = .ok (E 50000) := by
    rw [← high_energy_below env (p.withT 50000) m c le_rfl]
    exact hE.self_of_nhds
  have e1 : ∀ᶠ T in 𝓝[>] (50000 : ℝ), dedx env (p.withT T) m c = .ok (E T + radiationLoss (p.withT T) m) := by
    filter_upwards [hE.filter_mono nhdsWithin_le_nhds, self_mem_nhdsWithin] with T h1 h2
    exact high_energy_above env (p.withT T) m c h3 h2 _ h1
  have lim : Tendsto (fun T => E T + radiationLoss (p.withT T) m) (𝓝[>] 50000) (𝓝 (E 50000 + radiationLoss (p.withT 50000) m)) :=
    (cE.add cr).tendsto.mono_left nhdsWithin_le_nhds
  refine ⟨?_, _, _, e0, e1, lim, r0⟩
  rintro ⟨D, hD, cD⟩
  have a := hD.self_of_nhds
  change dedx env (p.withT 50000) m c = _ at a
  rw [e0] at a
  have b : (fun T => E T + radiationLoss (p.withT T) m) =ᶠ[𝓝[>] 50000] D := by
    filter_upwards [hD.filter_mono nhdsWithin_le_nhds, e1] with T h1 h2
    rw [h1] at h2
    exact (Except.ok.inj h2).symm
  have l2 := (lim.congr' b)
  have l3 := tendsto_nhds_unique l2 (cD.tendsto.mono_left nhdsWithin_le_nhds)
  have := Except.ok.inj a
  linarith

/-- **C128**, refuted for protons in hydrogen in the default configuration. -/
theorem radiation_jumps_wrong (env : Env ℝ) : ¬ NoJump (fun T => dedx env ((⟨1, 1, 1, 0⟩ : Projectile ℝ).withT T)
    (⟨0.0000838, 1, 1, 0, [⟨1, 1, 1⟩]⟩ : Material ℝ) .default) 50000 := by
  have hm : (⟨0.0000838, 1, 1, 0, [⟨1, 1, 1⟩]⟩ : Material ℝ).Sound := ⟨by simp, by simp, by simp, by simp, by norm_num⟩
  have h : Computable (⟨1, 1, 1, 0⟩ : Projectile ℝ) 1 (⟨0.0000838, 1, 1, 0, [⟨1, 1, 1⟩]⟩ : Material ℝ) (Config.default : Config ℝ).noHighEnergy :=
    ⟨⟨by norm_num, by norm_num, by norm_num, by norm_num⟩, by norm_num, hm, by simp, Or.inl rfl⟩
  have e1 := Real.exp_one_gt_d9
  have e2 := Real.exp_one_lt_d9
  have η : etaSq 50000 = 50000 / 931.4940954 * (2 + 50000 / 931.4940954) := by unfold etaSq; ring
  have lo : 2900 ≤ etaSq 50000 := by rw [η]; norm_num
  have hi : etaSq 50000 ≤ 3025 := by rw [η]; norm_num
  have slo : 50 ≤ √(etaSq 50000) := Real.le_sqrt_of_sq_le (by linarith)
  have shi : √(etaSq 50000) ≤ 55 := Real.sqrt_le_iff.mpr ⟨by norm_num, by linarith⟩
  refine (radiation_jumps env _ _ hm (by norm_num) (by norm_num) .default (by decide) ?_).1
  refine stopping_no_jump_partial env _ 1 _ _ h (by simp [TypicalI]) 50000 (by norm_num) ⟨?_, ?_, ?_, ?_, ?_⟩ (fun h => absurd h (by norm_num))
  · intro t ht
    simp at ht
    subst ht
    unfold reduced_energy_loss_unit
    simp only [Projectile.withT, pow_real, ofInt_real, Int.cast_one, Real.one_rpow]
    norm_num
  · intro _ _ t ht
    simp at ht
    subst ht
    have : (4 : ℝ) * (fine_structure * √((1 : ℤ) : ℝ)) < 1 := by norm_num [fine_structure]
    intro e
    change √(etaSq 50000) = 4 * (fine_structure * √((1 : ℤ) : ℝ)) at e
    linarith
  · intro _ t ht d hd
    simp at ht
    subst ht
    have e0 : density_effect_x0[(min (1 : ℤ) 97).toNat - 1]? = density_effect_x0[0]? := rfl
    have e3 : density_effect_x0[0]? = some ⟨18639, 4⟩ := rfl
    change density_effect_x0[(min (1 : ℤ) 97).toNat - 1]? = some d at hd
    rw [e0, e3] at hd
    cases hd
    have l : Real.log (√(etaSq 50000)) ≤ 4.1 := by
      rw [Real.log_le_iff_le_exp (by linarith)]
      have e : Real.exp (4.1 : ℝ) = Real.exp 1 ^ 4 * Real.exp 0.1 := by
        rw [← Real.exp_nat_mul, ← Real.exp_add]; norm_num
      have h5 := Real.add_one_le_exp (0.1 : ℝ)
      have h6 : (2.718 : ℝ) ^ 4 ≤ Real.exp 1 ^ 4 := by
        gcongr
        norm_num at e1 ⊢
        linarith
      rw [e]
      calc √(etaSq 50000) ≤ 2.718 ^ 4 * (0.1 + 1) := shi.trans (by norm_num)
        _ ≤ Real.exp 1 ^ 4 * Real.exp 0.1 := by gcongr
    have : Real.log (√(etaSq 50000)) / 2.3025851 < 1.8 := by
      rw [div_lt_iff₀ (by norm_num)]
      norm_num at l ⊢
      linarith
    intro e
    rw [e] at this
    norm_num [Dec.rat] at this
  · intro _ _ k hk
    have hs : (ls_energy_table : EnergyTable ℝ).step = 7 / 199 := by
      rw [EnergyTable.step_eq]; norm_num [ls_energy_table]
    have v : ∀ k, (ls_energy_table : EnergyTable ℝ).val k = Real.exp (LN10 * (7 / 199 * k)) := by
      intro k
      rw [EnergyTable.val_eq, hs]
      congr 1
      norm_num [ls_energy_table]
      exact Or.inl (mul_comm _ _)
    rcases le_or_gt k 133 with hk | hk
    · right
      have hk' : (k : ℝ) ≤ 133 := by exact_mod_cast hk
      rw [v]
      have a : LN10 * (7 / 199 * (k : ℝ)) ≤ 10.8 := by
        norm_num [LN10]
        linarith
      refine (Real.exp_le_exp.mpr a).trans_lt ?_
      have e : Real.exp (10.8 : ℝ) ^ 5 = Real.exp 1 ^ 54 := by
        rw [← Real.exp_nat_mul, ← Real.exp_nat_mul]; norm_num
      refine lt_of_pow_lt_pow_left₀ 5 (by norm_num) ?_
      rw [e]
      calc Real.exp 1 ^ 54 ≤ 2.7182818286 ^ 54 := by gcongr
        _ < 50000 ^ 5 := by norm_num
    · left
      have hk' : (134 : ℝ) ≤ k := by exact_mod_cast hk
      rw [v]
      have a : (65 / 6 : ℝ) ≤ LN10 * (7 / 199 * (k : ℝ)) := by
        norm_num [LN10]
        linarith
      have b := Real.exp_le_exp.mpr a
      have e : Real.exp (65 / 6 : ℝ) ^ 6 = Real.exp 1 ^ 65 := by
        rw [← Real.exp_nat_mul, ← Real.exp_nat_mul]; norm_num
      have d : (50001 : ℝ) ≤ Real.exp (65 / 6) := by
        refine le_of_pow_le_pow_left₀ (n := 6) (by norm_num) (Real.exp_pos _).le ?_
        rw [e]
        calc (50001 : ℝ) ^ 6 ≤ 2.7182818283 ^ 65 := by norm_num
          _ ≤ Real.exp 1 ^ 65 := by gcongr
      have : (10 : ℝ) * 2⁻¹ ^ 52 < 1 := by norm_num
      linarith
  · intro hb
    exact absurd hb (by decide)

/-- At 100 GeV/u protons lose more in water with the default configuration than without the radiative energy loss. -/
example (env : Env ℝ) : ∃ u v, dedx env (⟨1.007, 1, 1, 100000⟩ : Projectile ℝ) ⟨1, 1, 18.015, 0, [⟨1.00794, 1, 2⟩, ⟨15.9994, 8, 1⟩]⟩
      (Config.default : Config ℝ).noHighEnergy = .ok u ∧
    dedx env (⟨1.007, 1, 1, 100000⟩ : Projectile ℝ) ⟨1, 1, 18.015, 0, [⟨1.00794, 1, 2⟩, ⟨15.9994, 8, 1⟩]⟩ .default = .ok v ∧ u < v := by
  obtain ⟨hc, hu⟩ := carbon_water_usual 0 100
  have h : Computable (⟨1.007, 1, 1, 0⟩ : Projectile ℝ) 1 ⟨1, 1, 18.015, 0, [⟨1.00794, 1, 2⟩, ⟨15.9994, 8, 1⟩]⟩ (Config.default : Config ℝ).noHighEnergy :=
    ⟨⟨by norm_num, by norm_num, by norm_num, by norm_num⟩, by norm_num, hc.sound, hc.known, Or.inl rfl⟩
  obtain ⟨u, hu⟩ := h.dedx_below env 100000 (by
    have := below_top 100000 (by norm_num)
    exact this)
  refine ⟨u, _, hu, high_energy_above env _ _ .default (by decide) (by norm_num) u hu, ?_⟩
  have := radiationLoss_pos (⟨1.007, 1, 1, 100000⟩ : Projectile ℝ) _ hc.sound (by norm_num) (by norm_num) (by norm_num)
  linarith

/-- Protons in water. -/
example (env : Env ℝ) (w : World ℝ) (hw : ReachableW env w) (i : Nat) (hi : i < 600) :
    ∃ R S, (Call.range (⟨1.007, 1, 1, (energy_table : EnergyTable ℝ).val i⟩ : Projectile ℝ)
        ⟨1, 1, 18.015, 0, [⟨1.00794, 1, 2⟩, ⟨15.9994, 8, 1⟩]⟩ .default).respond env w = .ok (.num R) ∧
      (Call.range (⟨1.007, 1, 1, (energy_table : EnergyTable ℝ).val i⟩ : Projectile ℝ)
        ⟨1, 1, 18.015, 0, [⟨1.00794, 1, 2⟩, ⟨15.9994, 8, 1⟩]⟩ (Config.default : Config ℝ).noHighEnergy).respond env w = .ok (.num S) ∧ R ≤ S := by
  have hk : ∀ c, NonDefault (⟨1.007, 1, 1, 0⟩ : Projectile ℝ) ⟨1, 1, 18.015, 0, [⟨1.00794, 1, 2⟩, ⟨15.9994, 8, 1⟩]⟩ c := by
    intro c
    simp only [NonDefault, Key.eq, Key.default, Projectile.eq, Projectile.default]
    simp
    intro h
    norm_num at h
  obtain ⟨R, S, a, b, hRS, -⟩ := high_energy_range env _ 1 _ .default proton_water_falling.computable proton_water_falling.usual (by decide) (hk _) (hk _)
    w w hw hw i hi
  exact ⟨R, S, a, b, hRS⟩

end Catima
