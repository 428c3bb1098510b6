import Verif.Lemmas.Bethe
import Verif.Props.EffectiveCharge

/-!
# C35-C39, C44, C45: stopping power
-/

namespace Catima

/-! ## C35 -/

/-- C35: no stopping and no scattering at or below zero energy, for every projectile, material,
configuration and build. -/
theorem stopping_zero (env : Env ℝ) (p : Projectile ℝ) (m : Material ℝ) (c : Config ℝ)
    (hT : p.T ≤ 0) : dedx env p m c = .ok 0 ∧ da2dx p m c = 0 := by
  have h0 : Scalar.le p.T (0.0 : ℝ) = true := by rw [le_real]; norm_num; exact hT
  constructor
  · unfold dedx
    rw [if_pos h0]
    norm_num [pure, Except.pure]
  · unfold da2dx angular_scattering_power
    rw [if_pos h0]
    norm_num

/-- C35: nuclear stopping vanishes for non-positive reduced energy. -/
theorem nuclear_zero (debug : Bool) (p : Projectile ℝ) (t : Target ℝ)
    (h : reduced_energy_loss_unit p t ≤ 0) : dedx_n_target debug p t = .ok 0 :=
  nuclear_target_zero debug p t h

/-- Hypotheses met: a proton at rest in water's oxygen. -/
example : reduced_energy_loss_unit (⟨1, 1, 1, 0⟩ : Projectile ℝ) ⟨16, 8, 1⟩ ≤ 0 := by
  norm_num [reduced_energy_loss_unit]

/-! ## C39 -/

/-- C39: nuclear stopping is defined and non-negative at every energy, positive exactly above 0. -/
theorem nuclear_nonneg (debug : Bool) (p : Projectile ℝ) (hZ : 0 < p.Z) (hA : 0 < p.A)
    (m : Material ℝ) (hm : m.Sound) :
    ∃ v, dedx_n debug p m = .ok v ∧ 0 ≤ v ∧ (0 < v ↔ 0 < p.T) := by
  rcases lt_or_ge 0 p.T with hT | hT
  · obtain ⟨g, hg⟩ := exists_values m.atoms (dedx_n_target debug p) (fun v => 0 < v)
      fun t ht => nuclear_target_pos debug p t hZ hA (hm.Z t ht) (hm.A t ht) hT
    have hs := sum_pos_of_forall m.atoms (fun t => m.wfrac t * g t) (fun t ht =>
      mul_pos (m.wfrac_pos hm t ht) (hg t ht).2) hm.nonempty
    refine ⟨_, componentSum_ok m _ g fun t ht => (hg t ht).1, hs.le, ?_⟩
    simp only [hT, hs]
  · refine ⟨_, componentSum_ok m _ (fun _ => 0) fun t ht => nuclear_target_zero debug p t
      (nuclear_eps_nonpos p t hZ hA (hm.Z t ht) (hm.A t ht) hT), ?_⟩
    simp [not_lt.mpr hT]

/-! ## C36 -/

/-- C36: up to 10 MeV/u the stopping power is defined and strictly positive, for every integer
charge, every sound material, every configuration (in particular both low-energy options) and every
build. -/
theorem stopping_positive_low (env : Env ℝ) (p : Projectile ℝ) (n : Int) (hp : p.Ion n)
    (m : Material ℝ) (hm : m.Sound) (c : Config ℝ) (h0 : 0 < p.T) (h1 : p.T ≤ 10) :
    ∃ v, dedx env p m c = .ok v ∧ 0 < v := by
  have hZ : 0 < p.Z := by rw [hp.Z]; exact_mod_cast (by linarith [hp.pos] : 0 < n)
  obtain ⟨a, ha, ha0, -⟩ := nuclear_nonneg env.debug p hZ hp.A m hm
  obtain ⟨b, hb, hb0⟩ := sezi_pos hp hm c h0
  unfold dedx
  rw [if_neg (by rw [le_real]; norm_num; exact h0), ha]
  dsimp only
  rw [bind_ok, if_pos (by rw [le_real]; norm_num; exact h1), hb]
  refine ⟨_, rfl, ?_⟩
  norm_num
  linarith

/-- Water as a sound material. -/
theorem water_sound : Material.Sound ⟨1, 1, 18.015, 0, [⟨1.008, 1, 2⟩, ⟨15.999, 8, 1⟩]⟩ := by
  constructor <;> simp <;> norm_num

/-- ¹²C at 5 MeV/u in water. -/
example (env : Env ℝ) (c : Config ℝ) : ∃ v, dedx env ⟨12, 6, 6, 5⟩
    ⟨1, 1, 18.015, 0, [⟨1.008, 1, 2⟩, ⟨15.999, 8, 1⟩]⟩ c = .ok v ∧ 0 < v :=
  stopping_positive_low env _ 6 ⟨by norm_num, by norm_num, by norm_num, by norm_num⟩ _
    water_sound c (by norm_num) (by norm_num)

/-- Materials built through the API from stoichiometric numbers are sound as soon as they have a
component and their atomic numbers are at least 1. -/
theorem sound_of_stoich {m : Material ℝ} (hm : StoichBuilt m) (hne : m.atoms ≠ [])
    (hZ : ∀ t ∈ m.atoms, 1 ≤ t.Z) : m.Sound := by
  obtain ⟨h1, h2⟩ := stoich_inv hm
  refine ⟨hne, hZ, fun t ht => (h1 t ht).2, fun t ht => lt_of_lt_of_le one_pos (h1 t ht).1, ?_⟩
  rw [h2]
  exact sum_pos_of_forall _ _ (fun t ht => by
    have := (h1 t ht).1
    have := (h1 t ht).2
    positivity) hne

/-! ## All energies: the stopping power is defined -/

/-- With the options none (`Q ≥ 0`) or Pierce-Blann and a charge up to 108 the stopping power is
defined at every positive energy where the Lindhard tables can be read. -/
theorem stopping_defined (env : Env ℝ) (p : Projectile ℝ) (n : Int) (hp : p.Ion n) (hn : n ≤ 108)
    (m : Material ℝ) (hm : m.Sound) (hI : 0 < m.i_potential ∨ ∀ t ∈ m.atoms, t.Z ≤ 120)
    (c : Config ℝ) (hc : c.z_effective = 1 ∨ c.z_effective = 0 ∧ 0 ≤ p.Q)
    (h0 : 0 < p.T) (hr : LindhardReadable p.T) :
    (∃ v, bethek_dedx_e env p m c = .ok v) ∧ ∃ v, dedx env p m c = .ok v := by
  have hZ : 0 < p.Z := by rw [hp.Z]; exact_mod_cast (by linarith [hp.pos] : 0 < n)
  obtain ⟨a, ha, ha0, -⟩ := nuclear_nonneg env.debug p hZ hp.A m hm
  obtain ⟨b, hb, hb0⟩ := sezi_pos hp hm c h0
  have hh : ∃ v, bethek_dedx_e env p m c = .ok v := by
    obtain ⟨g, hg⟩ := exists_values m.atoms
      (fun t => bethek_dedx_e_target env p t c m.i_potential) (fun _ => True) fun t ht => by
        obtain ⟨z, hz, hz0⟩ : ∃ z, z_effective env.debug p t c = .ok z ∧ 0 ≤ z := by
          rcases hc with hc | ⟨hc, hq⟩
          · exact ⟨_, (z_effective_basic env.debug p t c).2 hc,
              (pierce_blann_bounds p.Z _ hZ (gamma_beta_bounds p.T h0).2.1.le).1⟩
          · exact ⟨_, (z_effective_basic env.debug p t c).1 hc, hq⟩
        obtain ⟨v, hv⟩ := bethe_target_defined env hp hn t (hm.Z t ht) (hm.A t ht) c m.i_potential
          h0 hr z hz hz0 (hI.imp_right fun h => h t ht)
        exact ⟨v, hv, trivial⟩
    exact ⟨_, componentSum_ok m _ g fun t ht => (hg t ht).1⟩
  refine ⟨hh, ?_⟩
  obtain ⟨h, hh⟩ := hh
  unfold dedx
  rw [if_neg (by rw [le_real]; norm_num; exact h0), ha]
  dsimp only
  rw [bind_ok]
  split
  · rw [hb]; exact ⟨_, rfl⟩
  split
  · rw [hb, hh]; exact ⟨_, rfl⟩
  · rw [hh]; exact ⟨_, rfl⟩

/-! ## C37 -/

/-- C37: at and below 10 MeV/u the electronic part is the low-energy model, from 30 MeV/u on the
Bethe model. -/
theorem stopping_ends (env : Env ℝ) (p : Projectile ℝ) (m : Material ℝ) (c : Config ℝ) (n e : ℝ)
    (hn : dedx_n env.debug p m = .ok n) (h0 : 0 < p.T) :
    (p.T ≤ 10 → sezi_dedx_e p m c = .ok e → dedx env p m c = .ok (n + e)) ∧
    (30 ≤ p.T → bethek_dedx_e env p m c = .ok e → dedx env p m c = .ok (n + e)) := by
  have key : dedx env p m c = (do
      let se ←
        if Scalar.le p.T 10.0 then sezi_dedx_e p m c
        else if (Scalar.gt p.T 10.0) && (Scalar.lt p.T 30.0) then do
          let factor := 0.05 * (p.T - 10.0)
          let lo ← sezi_dedx_e p m c
          let hi ← bethek_dedx_e env p m c
          pure ((1.0 - factor) * lo + factor * hi)
        else bethek_dedx_e env p m c
      return n + se) := by
    unfold dedx
    rw [if_neg (by rw [le_real]; norm_num; exact h0), hn]
    norm_num
  constructor
  · intro h1 he
    rw [key, if_pos (by rw [le_real]; norm_num; exact h1), he]
    rfl
  · intro h1 he
    rw [key, if_neg (by rw [le_real]; norm_num; linarith),
      if_neg (by rw [Bool.and_eq_true, lt_real, lt_real]; norm_num; intro _; linarith), he]
    rfl

/-- C37: between 10 and 30 MeV/u (ends included) the electronic part is the convex combination of
the low-energy and the Bethe value with weight `(T - 10)/20`, hence between them. -/
theorem stopping_blend (env : Env ℝ) (p : Projectile ℝ) (m : Material ℝ) (c : Config ℝ)
    (n lo hi : ℝ) (hn : dedx_n env.debug p m = .ok n) (hlo : sezi_dedx_e p m c = .ok lo)
    (hhi : bethek_dedx_e env p m c = .ok hi) (h1 : 10 ≤ p.T) (h2 : p.T ≤ 30) :
    ∃ w e, w = (p.T - 10) / 20 ∧ 0 ≤ w ∧ w ≤ 1 ∧ e = (1 - w) * lo + w * hi ∧
      dedx env p m c = .ok (n + e) ∧ min lo hi ≤ e ∧ e ≤ max lo hi := by
  have hw0 : 0 ≤ (p.T - 10) / 20 := by linarith
  have hw1 : (p.T - 10) / 20 ≤ 1 := by linarith
  refine ⟨_, _, rfl, hw0, hw1, rfl, ?_, ?_, ?_⟩
  · rcases h1.eq_or_lt with h | h
    · rw [(stopping_ends env p m c n lo hn (by linarith)).1 h.ge hlo, ← h]
      norm_num
    · rcases h2.eq_or_lt with h' | h'
      · rw [(stopping_ends env p m c n hi hn (by linarith)).2 h'.ge hhi, h']
        norm_num
      · unfold dedx
        rw [if_neg (by rw [le_real]; norm_num; linarith), hn]
        dsimp only
        rw [bind_ok, if_neg (by rw [le_real]; norm_num; exact h),
          if_pos (by rw [Bool.and_eq_true, lt_real, lt_real]; norm_num; exact ⟨h, h'⟩), hlo, hhi]
        simp only [bind_ok, pure_ok]
        congr 1
        norm_num
        ring
  · have a := min_le_left lo hi
    have b := min_le_right lo hi
    nlinarith
  · have a := le_max_left lo hi
    have b := le_max_right lo hi
    nlinarith

/-- C37: switching models causes no jump.  If the three contributions are continuous functions of
the energy around 10 (around 30) then so is the stopping power. -/
theorem stopping_no_jump (env : Env ℝ) (p : Projectile ℝ) (m : Material ℝ) (c : Config ℝ)
    (N L H D : ℝ → ℝ)
    (hN : ∀ T, 0 < T → dedx_n env.debug (p.withT T) m = .ok (N T))
    (hL : ∀ T, 0 < T → sezi_dedx_e (p.withT T) m c = .ok (L T))
    (hH : ∀ T, 0 < T → bethek_dedx_e env (p.withT T) m c = .ok (H T))
    (hD : ∀ T, 0 < T → dedx env (p.withT T) m c = .ok (D T)) (x : ℝ) (hx : x = 10 ∨ x = 30)
    (cN : ContinuousAt N x) (cL : ContinuousAt L x) (cH : ContinuousAt H x) :
    ContinuousAt D x := by
  have hx0 : 0 < x := by rcases hx with h | h <;> rw [h] <;> norm_num
  have hDe : ∀ T, 0 < T → D T = N T + ((1 - min 1 (max 0 ((T - 10) / 20))) * L T +
      min 1 (max 0 ((T - 10) / 20)) * H T) := by
    intro T hT
    have hTT : (p.withT T).T = T := rfl
    rcases le_total T 10 with h1 | h1
    · have := (stopping_ends env (p.withT T) m c _ _ (hN T hT) hT).1 h1 (hL T hT)
      rw [hD T hT] at this
      rw [Except.ok.inj this, max_eq_left (by linarith)]
      norm_num
    · rcases le_total T 30 with h2 | h2
      · obtain ⟨w, e, hw, w0, w1, he, hd, -⟩ := stopping_blend env (p.withT T) m c _ _ _ (hN T hT)
          (hL T hT) (hH T hT) h1 h2
        rw [hD T hT] at hd
        rw [hTT] at hw
        rw [Except.ok.inj hd, he, ← hw, max_eq_right w0, min_eq_right w1]
      · have := (stopping_ends env (p.withT T) m c _ _ (hN T hT) hT).2 h2 (hH T hT)
        rw [hD T hT] at this
        rw [Except.ok.inj this, max_eq_right (by linarith), min_eq_left (by linarith)]
        norm_num
  have hev : D =ᶠ[nhds x] fun T => N T + ((1 - min 1 (max 0 ((T - 10) / 20))) * L T +
      min 1 (max 0 ((T - 10) / 20)) * H T) :=
    Filter.eventually_of_mem (Ioi_mem_nhds hx0) fun T hT => hDe T hT
  refine ContinuousAt.congr ?_ hev.symm
  have cw : ContinuousAt (fun T : ℝ => min 1 (max 0 ((T - 10) / 20))) x := by
    apply Continuous.continuousAt
    fun_prop
  exact cN.add (((continuousAt_const.sub cw).mul cL).add (cw.mul cH))

/-! ## C38 -/

theorem componentSum_only (m : Material ℝ) (t : Target ℝ) (hA : t.A ≠ 0) (f : Target ℝ → M ℝ) :
    componentSum (m.only t) f = f { t with stn := 1 } := by
  rw [componentSum_eq, Material.only_atoms]
  simp only [List.mapM_cons, List.mapM_nil, List.map_cons, List.map_nil, m.only_wfrac t hA]
  cases f { t with stn := 1 } with
  | error e => rfl
  | ok v => simp [Except.map, pure, Except.pure]

/-- The weighted sum of per-component results, with the weight fractions read through the API. -/
theorem additive_of_componentSum (m : Material ℝ) (hA : ∀ t ∈ m.atoms, t.A ≠ 0)
    (f : Target ℝ → M ℝ) (hf : ∀ t : Target ℝ, f { t with stn := 1 } = f t) :
    componentSum m f = (do
      let ws ← weightFractions m
      let vs ← m.atoms.mapM fun t => componentSum (m.only t) f
      return (List.zipWith (· * ·) ws vs).sum) := by
  have hw : weightFractions m = .ok (m.atoms.map m.wfrac) := mapM_rd m.atoms m.wfrac
  have e : (m.atoms.mapM fun t => componentSum (m.only t) f) = m.atoms.mapM f := by
    apply mapM_congr'
    intro t ht
    rw [componentSum_only m t (hA t ht), hf]
  rw [componentSum_eq, hw, e]
  cases m.atoms.mapM f <;> rfl

/-- C38: nuclear stopping of a compound is the weight-fraction-weighted sum of the values of the
single elements (faults included). -/
theorem nuclear_additive (debug : Bool) (p : Projectile ℝ) (m : Material ℝ)
    (hA : ∀ t ∈ m.atoms, t.A ≠ 0) : dedx_n debug p m = (do
      let ws ← weightFractions m
      let vs ← m.atoms.mapM fun t => dedx_n debug p (m.only t)
      return (List.zipWith (· * ·) ws vs).sum) :=
  additive_of_componentSum m hA _ fun _ => rfl

/-- C38: the same for Bethe stopping (components see the mean excitation energy of the material). -/
theorem bethe_additive (env : Env ℝ) (p : Projectile ℝ) (m : Material ℝ) (c : Config ℝ)
    (hA : ∀ t ∈ m.atoms, t.A ≠ 0) : bethek_dedx_e env p m c = (do
      let ws ← weightFractions m
      let vs ← m.atoms.mapM fun t => bethek_dedx_e env p (m.only t) c
      return (List.zipWith (· * ·) ws vs).sum) :=
  additive_of_componentSum m hA (fun t => bethek_dedx_e_target env p t c m.i_potential) fun _ => rfl

/-- C38: the same for energy-loss straggling. -/
theorem straggling_additive (env : Env ℝ) (p : Projectile ℝ) (m : Material ℝ) (c : Config ℝ)
    (hA : ∀ t ∈ m.atoms, t.A ≠ 0) : domega2dx env p m c = (do
      let ws ← weightFractions m
      let vs ← m.atoms.mapM fun t => domega2dx env p (m.only t) c
      return (List.zipWith (· * ·) ws vs).sum) :=
  additive_of_componentSum m hA (fun t => dedx_variance env p t c) fun _ => rfl

theorem sezi_eq (p : Projectile ℝ) (m : Material ℝ) (c : Config ℝ) :
    sezi_dedx_e p m c = componentSum m fun t => do
      let pZ ← castInt p.Z
      let s ← srim_dedx_e pZ t.Z p.T (c.low_energy == 1)
      return 100.0 * (s / t.A) * Avogadro := by
  have h1 : m.atoms.foldlM (fun (sum : ℝ) t => do
      let pZ ← castInt p.Z
      return sum + m.wfrac t * (← srim_dedx_e pZ t.Z p.T (c.low_energy == 1)) / t.A) 0.0 =
      componentSum m fun t => do
        let pZ ← castInt p.Z
        let s ← srim_dedx_e pZ t.Z p.T (c.low_energy == 1)
        return s / t.A := by
    unfold componentSum
    congr 1
    funext sum t
    cases castInt p.Z with
    | error e => rfl
    | ok pZ =>
      simp only [bind_ok]
      cases srim_dedx_e pZ t.Z p.T (c.low_energy == 1) with
      | error e => rfl
      | ok s => simp only [bind_ok, pure_bind, mul_div_assoc]
  unfold sezi_dedx_e
  dsimp only
  rw [h1, componentSum_eq, componentSum_eq]
  have h2 : ∀ l : List (Target ℝ), (l.mapM fun t => (do
        let pZ ← castInt p.Z
        let s ← srim_dedx_e pZ t.Z p.T (c.low_energy == 1)
        return 100.0 * (s / t.A) * Avogadro : M ℝ)) =
      (l.mapM fun t => (do
        let pZ ← castInt p.Z
        let s ← srim_dedx_e pZ t.Z p.T (c.low_energy == 1)
        return s / t.A : M ℝ)).map (List.map fun v => 100.0 * v * Avogadro) := by
    intro l
    induction l with
    | nil => rfl
    | cons t l ih =>
      rw [List.mapM_cons, List.mapM_cons, ih]
      cases castInt p.Z with
      | error e => rfl
      | ok pZ =>
        simp only [bind_ok]
        cases srim_dedx_e pZ t.Z p.T (c.low_energy == 1) with
        | error e => rfl
        | ok s =>
          simp only [bind_ok, pure_bind]
          generalize (l.mapM fun t => (do
            let s ← srim_dedx_e pZ t.Z p.T (c.low_energy == 1)
            pure (s / t.A) : M ℝ)) = r
          cases r <;> rfl
  rw [h2]
  generalize (m.atoms.mapM fun t => (do
    let pZ ← castInt p.Z
    let s ← srim_dedx_e pZ t.Z p.T (c.low_energy == 1)
    return s / t.A : M ℝ)) = r
  cases r with
  | error e => rfl
  | ok vs =>
    show (Except.ok _ : M ℝ) = Except.ok _
    congr 1
    generalize m.atoms.map m.wfrac = ws
    induction ws generalizing vs with
    | nil => simp
    | cons w ws ih =>
      cases vs with
      | nil => simp
      | cons v vs =>
        simp only [List.zipWith_cons_cons, List.map_cons, List.sum_cons]
        have ih := ih vs
        dsimp only at ih
        rw [← ih]
        generalize (100.0 : ℝ) = k
        ring

/-- C38: the same for low-energy stopping. -/
theorem sezi_additive (p : Projectile ℝ) (m : Material ℝ) (c : Config ℝ)
    (hA : ∀ t ∈ m.atoms, t.A ≠ 0) : sezi_dedx_e p m c = (do
      let ws ← weightFractions m
      let vs ← m.atoms.mapM fun t => sezi_dedx_e p (m.only t) c
      return (List.zipWith (· * ·) ws vs).sum) := by
  simp only [sezi_eq]
  exact additive_of_componentSum m hA _ fun _ => rfl

theorem additive_ok (F : Material ℝ → M ℝ) (m : Material ℝ) (hF : F m = (do
      let ws ← weightFractions m
      let vs ← m.atoms.mapM fun t => F (m.only t)
      return (List.zipWith (· * ·) ws vs).sum)) (g : Target ℝ → ℝ)
    (hg : ∀ t ∈ m.atoms, F (m.only t) = .ok (g t)) :
    F m = .ok ((m.atoms.map fun t => m.wfrac t * g t).sum) := by
  have hw : weightFractions m = .ok (m.atoms.map m.wfrac) := mapM_rd m.atoms m.wfrac
  rw [hF, hw, mapM_ok' _ _ g hg, ← zipWith_map_sum]
  rfl

theorem electronic_additive (env : Env ℝ) (p : Projectile ℝ) (m : Material ℝ) (c : Config ℝ)
    (hA : ∀ t ∈ m.atoms, t.A ≠ 0) (g : Target ℝ → ℝ)
    (hg : ∀ t ∈ m.atoms, electronic env p (m.only t) c = .ok (g t)) :
    electronic env p m c = .ok ((m.atoms.map fun t => m.wfrac t * g t).sum) := by
  unfold electronic at hg ⊢
  split
  · rename_i h
    simp only [h, if_true] at hg
    exact additive_ok (fun m => sezi_dedx_e p m c) m (sezi_additive p m c hA) g hg
  rename_i h
  simp only [h] at hg
  split
  · rename_i h'
    simp only [h', if_true] at hg
    have hs : ∀ t, t ∈ m.atoms → ∃ a e, sezi_dedx_e p (m.only t) c = .ok a ∧
        bethek_dedx_e env p (m.only t) c = .ok e ∧
        g t = (1.0 - 0.05 * (p.T - 10.0)) * a + 0.05 * (p.T - 10.0) * e := fun t ht => by
      have := hg t ht
      cases ha : sezi_dedx_e p (m.only t) c with
      | error x => rw [ha] at this; cases this
      | ok a =>
        cases he : bethek_dedx_e env p (m.only t) c with
        | error x => rw [ha, he] at this; cases this
        | ok e =>
          rw [ha, he] at this
          exact ⟨a, e, rfl, rfl, (Except.ok.inj this).symm⟩
    choose! a e ha he hae using hs
    rw [additive_ok (fun m => sezi_dedx_e p m c) m (sezi_additive p m c hA) a ha,
      additive_ok (fun m => bethek_dedx_e env p m c) m (bethe_additive env p m c hA) e he]
    simp only [bind_ok, pure_ok]
    rw [← List.sum_map_mul_left, ← List.sum_map_mul_left, ← List.sum_map_add]
    congr 2
    apply List.map_congr_left
    intro t ht
    rw [hae t ht]
    generalize (1.0 : ℝ) - 0.05 * (p.T - 10.0) = u
    generalize (0.05 : ℝ) * (p.T - 10.0) = v
    ring
  · rename_i h'
    simp only [h'] at hg
    exact additive_ok (fun m => bethek_dedx_e env p m c) m (bethe_additive env p m c hA) g hg

/-- C38: the total stopping power is additive whenever it is defined for the single elements. -/
theorem stopping_additive (env : Env ℝ) (p : Projectile ℝ) (m : Material ℝ) (c : Config ℝ)
    (hA : ∀ t ∈ m.atoms, t.A ≠ 0) (ws vs : List ℝ) (hw : weightFractions m = .ok ws)
    (hv : (m.atoms.mapM fun t => dedx env p (m.only t) c) = .ok vs) :
    dedx env p m c = .ok (List.zipWith (· * ·) ws vs).sum := by
  have hw' : weightFractions m = .ok (m.atoms.map m.wfrac) := mapM_rd m.atoms m.wfrac
  rw [hw'] at hw
  obtain rfl := Except.ok.inj hw
  obtain ⟨g, hg, rfl⟩ := mapM_inv _ _ _ hv
  rw [zipWith_map_sum]
  by_cases h0 : p.T ≤ 0
  · rw [(stopping_zero env p m c h0).1]
    have : ∀ t ∈ m.atoms, m.wfrac t * g t = 0 := fun t ht => by
      have := hg t ht
      rw [(stopping_zero env p (m.only t) c h0).1] at this
      rw [← Except.ok.inj this, mul_zero]
    rw [List.map_congr_left this]
    simp
  · rw [dedx_eq env p m c (not_le.mp h0)]
    have hs : ∀ t, t ∈ m.atoms → ∃ a e, dedx_n env.debug p (m.only t) = .ok a ∧
        electronic env p (m.only t) c = .ok e ∧ g t = a + e := fun t ht => by
      have := hg t ht
      rw [dedx_eq env p (m.only t) c (not_le.mp h0)] at this
      cases ha : dedx_n env.debug p (m.only t) with
      | error x => rw [ha] at this; cases this
      | ok a =>
        cases he : electronic env p (m.only t) c with
        | error x => rw [ha, he] at this; cases this
        | ok e =>
          rw [ha, he] at this
          exact ⟨a, e, rfl, rfl, (Except.ok.inj this).symm⟩
    choose! a e ha he hae using hs
    rw [additive_ok (fun m => dedx_n env.debug p m) m (nuclear_additive env.debug p m hA) a ha,
      electronic_additive env p m c hA e he]
    simp only [bind_ok, pure_ok]
    rw [← List.sum_map_add]
    congr 2
    apply List.map_congr_left
    intro t ht
    rw [hae t ht]
    ring

/-- C38: weighted sums with non-negative weights adding up to 1 lie between the smallest and the
largest component value. -/
theorem weighted_between (ws vs : List ℝ) (hl : ws.length = vs.length) (h0 : ∀ w ∈ ws, 0 ≤ w)
    (h1 : ws.sum = 1) (a b : ℝ) (hv : ∀ v ∈ vs, a ≤ v ∧ v ≤ b) :
    a ≤ (List.zipWith (· * ·) ws vs).sum ∧ (List.zipWith (· * ·) ws vs).sum ≤ b := by
  have key : a * ws.sum ≤ (List.zipWith (· * ·) ws vs).sum ∧
      (List.zipWith (· * ·) ws vs).sum ≤ b * ws.sum := by
    clear h1
    induction ws generalizing vs with
    | nil => simp
    | cons w ws ih =>
      cases vs with
      | nil => simp at hl
      | cons v vs =>
        have i := ih vs (by simpa using hl) (fun w hw => h0 w (by simp [hw]))
          (fun v hv' => hv v (by simp [hv']))
        have hw := h0 w (by simp)
        have hv' := hv v (by simp)
        simp only [List.zipWith_cons_cons, List.sum_cons]
        constructor <;> nlinarith
  rw [h1, mul_one, mul_one] at key
  exact key

/-! ## C44 -/

/-- C44: the Barkas factor is at least 1 for every non-negative effective charge. -/
theorem barkas_ge_one (z eta zt : ℝ) (hz : 0 ≤ z) : 1 ≤ bethek_barkas z eta zt := by
  unfold bethek_barkas
  simp only [sqrt_real]
  generalize eta / (fine_structure * √zt) = v
  have hf : 0 ≤ (if Scalar.le 4.0 v = true then 0.45 / √v
      else if (Scalar.le 1.0 v && Scalar.lt v 4.0) = true then barkasTable v else 0.0) := by
    split
    · positivity
    split
    · rename_i h
      simp only [Bool.and_eq_true, le_real, lt_real] at h
      norm_num at h
      unfold barkasTable
      split
      · rename_i h2
        rw [le_real] at h2
        norm_num at h2 ⊢
        linarith
      split
      · rename_i h2
        rw [le_real] at h2
        norm_num at h2 ⊢
        linarith
      split
      · rename_i h2
        rw [le_real] at h2
        norm_num at h2 ⊢
        linarith
      · norm_num
    · norm_num
  generalize (if Scalar.le 4.0 v = true then 0.45 / √v
      else if (Scalar.le 1.0 v && Scalar.lt v 4.0) = true then barkasTable v else 0.0) = f at hf ⊢
  have h2 := mul_self_nonneg v
  have : 0 ≤ 2.0 * z * f / (v * v * √zt) := by positivity
  norm_num at this ⊢
  linarith

/-- C44: pair production and bremsstrahlung never reduce the stopping power. -/
theorem radiative_nonneg (p : Projectile ℝ) (t : Target ℝ) (hT : 0 ≤ p.T) (hA : 0 < p.A)
    (tA : 0 < t.A) : 0 ≤ pair_production p t ∧ 0 ≤ bremsstrahlung p t := by
  constructor
  · unfold pair_production
    dsimp only
    split
    · norm_num
    · rename_i h
      rw [lt_real, not_lt] at h
      refine le_trans ?_ h
      norm_num
  · unfold bremsstrahlung power
    simp only [exp_real, log_real, log1p_real]
    have hu := amu_pos
    have hg : (0 : ℝ) < 1.0 + p.T / atomic_mass_unit := by positivity
    generalize (1.0 : ℝ) + p.T / atomic_mass_unit = g at hg ⊢
    have e1 := Real.exp_pos (Real.log p.A * (1.0 / 3.0))
    have e2 := Real.exp_pos (Real.log t.A * (1.0 / 3.0))
    have hh : (0 : ℝ) < hbar := by norm_num [hbar]
    have hc : (0 : ℝ) < c_light := by norm_num [c_light]
    have hd : (0 : ℝ) < dedx_constant := by norm_num [dedx_constant]
    have hf : (0 : ℝ) < fine_structure := by norm_num [fine_structure]
    have he : (0 : ℝ) < electron_mass := by norm_num [electron_mass]
    have hpi : (0 : ℝ) < PI := by norm_num [PI]
    have hl : 0 ≤ Real.log (1 + 2.0 * g * 0.1 * hbar * c_light / atomic_mass_unit /
        (1.18 * (Real.exp (Real.log p.A * (1.0 / 3.0)) + Real.exp (Real.log t.A * (1.0 / 3.0)))) /
        p.A) := by
      apply Real.log_nonneg
      have : 0 ≤ 2.0 * g * 0.1 * hbar * c_light / atomic_mass_unit /
        (1.18 * (Real.exp (Real.log p.A * (1.0 / 3.0)) + Real.exp (Real.log t.A * (1.0 / 3.0)))) /
        p.A := by positivity
      linarith
    generalize Real.log (1 + _) = L at hl ⊢
    have h4 : ∀ k : ℝ, k * p.Z * p.Z * p.Z * p.Z * ofInt t.Z * ofInt t.Z =
        k * ((p.Z * p.Z) ^ 2 * (ofInt t.Z) ^ 2) := fun k => by ring
    rw [h4]
    positivity

/-- Hypotheses met: ²³⁸U at 100 GeV/u in lead. -/
example : 1 ≤ bethek_barkas (92 : ℝ) 100 82 ∧
    0 ≤ bremsstrahlung (⟨238, 92, 92, 100000⟩ : Projectile ℝ) ⟨207.2, 82, 1⟩ :=
  ⟨barkas_ge_one 92 100 82 (by norm_num),
    (radiative_nonneg ⟨238, 92, 92, 100000⟩ ⟨207.2, 82, 1⟩ (by norm_num) (by norm_num)
      (by norm_num)).2⟩

/-! ## C45 -/

/-- C45, the part that holds: both Lindhard lookups stay inside their tables for charges 1 to 108
and every energy at which the tables can be read.  Missing: charges from 109 on and below 1, see
`lindhard_high_Z` and `lindhard_low_Z`, and the window of `interpolate_last_window`. -/
theorem lindhard_lookup_partial (ci : Bool) (p : Projectile ℝ) (n : Int) (hp : p.Ion n)
    (hn : n ≤ 108) (hT : LindhardReadable p.T) :
    (∃ v, precalculated_lindhard ci p = .ok v) ∧ ∃ v, precalculated_lindhard_X ci p = .ok v :=
  ⟨lindhard_defined ci hp hn hT, lindhard_X_defined ci hp hn hT⟩

/-- C45 refuted for heavy projectiles: from `Z = 109` on (the clamp is at 110, the tables end at
108) both lookups read past the tables. -/
theorem lindhard_high_Z (ci : Bool) (p : Projectile ℝ) (n : Int) (hp : p.Ion n) (hn : 109 ≤ n) :
    precalculated_lindhard ci p = .error .outOfBounds ∧
    ((ls_energy_table : EnergyTable ℝ).val 0 ≤ p.T →
      precalculated_lindhard_X ci p = .error .outOfBounds) := by
  obtain ⟨k, hk, hz⟩ : ∃ k : Int, 109 ≤ k ∧ lsZ p = .ok k := by
    unfold lsZ
    rw [hp.Z, castInt_real n (by linarith [hp.pos]) hp.int, bind_ok]
    split
    · exact ⟨110, by norm_num, rfl⟩
    · exact ⟨n, hn, rfl⟩
  constructor
  · unfold precalculated_lindhard
    rw [hz, bind_ok]
    unfold lsValue lsValueOf lsRowAt
    rw [rd_ge _ _ (by rw [ls_lengths.1]; push_cast; omega)]
    rfl
  · intro hT
    unfold precalculated_lindhard_X
    rw [hz, bind_ok, if_neg (by rw [lt_real]; exact not_lt.mpr hT)]
    unfold lsValue lsValueOf lsRowAt
    rw [rd_ge _ _ (by rw [ls_lengths.2.2.1]; push_cast; omega)]
    rfl

/-- C45 refuted for charges below 1: the row index is negative. -/
theorem lindhard_low_Z (ci : Bool) (p : Projectile ℝ) (h0 : 0 ≤ p.Z) (h1 : p.Z < 1) :
    precalculated_lindhard ci p = .error .outOfBounds := by
  have hz : lsZ p = .ok 0 := by
    unfold lsZ castInt
    rw [toInt_real, if_pos ⟨by linarith, by linarith⟩, if_pos h0]
    have : ⌊p.Z⌋ = 0 := by rw [Int.floor_eq_zero_iff]; exact ⟨h0, h1⟩
    rw [this]
    rfl
  unfold precalculated_lindhard
  rw [hz, bind_ok]
  unfold lsValue lsValueOf lsRowAt
  rw [rd_neg _ _ (by norm_num)]
  rfl

/-- Hypotheses met: ²⁰⁸Pb at 1 GeV/u can be looked up, ²⁷⁸Mt cannot. -/
example : (∃ v, precalculated_lindhard true (⟨208, 82, 82, 1000⟩ : Projectile ℝ) = .ok v) ∧
    precalculated_lindhard true (⟨278, 109, 109, 1000⟩ : Projectile ℝ) = .error .outOfBounds := by
  refine ⟨(lindhard_lookup_partial true _ 82 ⟨by norm_num, by norm_num, by norm_num, by norm_num⟩
    (by norm_num) ?_).1, (lindhard_high_Z true _ 109 ⟨by norm_num, by norm_num, by norm_num,
    by norm_num⟩ (by norm_num)).1⟩
  left
  rw [ls_top]
  have := (abs_le.mp energy_table_range.2.2).1
  norm_num at this ⊢
  linarith

end Catima
