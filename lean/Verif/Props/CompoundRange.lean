import Verif.Props.StoppingPositive
import Verif.Props.Structures
import Verif.Props.Wrapper

/-!
# C125: the range in a compound and the ranges in its elements
-/

namespace Catima

/-- Cauchy's inequality in the form needed: a harmonic mean of sums. -/
theorem harmonic_point {β : Type} (l : List β) (w r s : β → ℝ) (hw : ∀ t ∈ l, 0 < w t) (hr : ∀ t ∈ l, 0 < r t) (hs : ∀ t ∈ l, 0 < s t)
    (hne : l ≠ []) : 1 / (l.map fun t => w t * s t).sum ≤
      (l.map fun t => w t / (r t * (l.map fun t => w t / r t).sum) ^ 2 * (1 / s t)).sum := by
  have S0 : 0 < (l.map fun t => w t * s t).sum := sum_pos_of_forall _ _ (fun t ht => mul_pos (hw t ht) (hs t ht)) hne
  have H0 : 0 < (l.map fun t => w t / r t).sum := sum_pos_of_forall _ _ (fun t ht => div_pos (hw t ht) (hr t ht)) hne
  have e1 : (l.map fun t => w t / r t).sum = (l.map fun t => w t / r t).sum := rfl
  have e2 : (l.map fun t => w t * s t).sum = (l.map fun t => w t * s t).sum := rfl
  generalize hS : (l.map fun t => w t * s t).sum = S at S0
  generalize hH : (l.map fun t => w t / r t).sum = H at H0
  have key : ∀ t ∈ l, 2 / (H * S) * (w t / r t) + -(1 / S ^ 2) * (w t * s t) ≤ w t / (r t * H) ^ 2 * (1 / s t) := by
    intro t ht
    have w0 := hw t ht
    have r0 := hr t ht
    have s0 := hs t ht
    have : w t / (r t * H) ^ 2 * (1 / s t) - (2 / (H * S) * (w t / r t) + -(1 / S ^ 2) * (w t * s t)) =
        w t * s t * (1 / (r t * H * s t) - 1 / S) ^ 2 := by
      field_simp
      ring
    have : 0 ≤ w t * s t * (1 / (r t * H * s t) - 1 / S) ^ 2 := by positivity
    linarith
  refine le_trans (le_of_eq ?_) (List.sum_le_sum key)
  rw [List.sum_map_add, List.sum_map_mul_left, List.sum_map_mul_left, hS, hH]
  field_simp
  ring

/-- Quadratures are ordered like their integrands, also for sums. -/
theorem integrator_le_sum {β : Type} (l : List β) (k : β → ℝ) (f : ℝ → M ℝ) (g : β → ℝ → M ℝ) (a b : ℝ) (hab : a < b)
    (h : ∀ x, Inner a b x → ∃ (u : ℝ) (v : β → ℝ), f x = .ok u ∧ (∀ t ∈ l, g t x = .ok (v t)) ∧ u ≤ (l.map fun t => k t * v t).sum) :
    ∃ (I : ℝ) (J : β → ℝ), integrator.integrate f a b = .ok I ∧ (∀ t ∈ l, integrator.integrate (g t) a b = .ok (J t)) ∧
      I ≤ (l.map fun t => k t * J t).sum := by
  choose! u v hu hv huv using h
  have hs := GLData.supported_shape _ integrator_supported
  have e1 := integrator.integrate_eq (integrator.shape hs).1 f u a b fun e he => hu _ (node_inner a b hab.le e he)
  have e2 : ∀ t ∈ l, _ := fun t ht => integrator.integrate_eq (integrator.shape hs).1 (g t) (fun x => v x t) a b fun e he =>
    hv _ (node_inner a b hab.le e he) t ht
  refine ⟨_, _, e1, e2, ?_⟩
  have hin := fun e he => huv _ (node_inner a b hab.le e he)
  have h2 : 0 ≤ (b - a) / 2 := by linarith
  have hle : wsum integrator.full (fun x => u ((b - a) / 2 * x + (b + a) / 2)) ≤
      wsum integrator.full (fun x => (l.map fun t => k t * v ((b - a) / 2 * x + (b + a) / 2) t).sum) := by
    unfold wsum
    exact List.sum_le_sum fun e he => mul_le_mul_of_nonneg_left (hin e he) (integrator_nodes e he).2.2.le
  refine (mul_le_mul_of_nonneg_left hle h2).trans (le_of_eq ?_)
  generalize integrator.full = nodes
  clear e1 e2 hin hle hu hv huv
  induction l with
  | nil =>
    simp only [List.map_nil, List.sum_nil]
    have : wsum nodes (fun _ => (0 : ℝ)) = 0 := by
      unfold wsum
      simp
    rw [this, mul_zero]
  | cons t l ih =>
    simp only [List.map_cons, List.sum_cons]
    rw [← ih]
    unfold wsum
    simp only [mul_add]
    rw [List.sum_map_add, mul_add]
    congr 1
    rw [← List.sum_map_mul_left, ← List.sum_map_mul_left, ← List.sum_map_mul_left]
    congr 1
    refine List.map_congr_left fun e _ => ?_
    ring

theorem Computable.only {p : Projectile ℝ} {n : Int} {m : Material ℝ} {c : Config ℝ} (h : Computable p n m c) (t : Target ℝ)
    (ht : t ∈ m.atoms) : Computable p n (m.only t) c :=
  ⟨h.ion, h.small, ⟨by simp [Material.only], by simpa [Material.only] using h.sound.Z t ht,
    by simpa [Material.only] using h.sound.A t ht, by simp [Material.only], by simpa [Material.only] using h.sound.A t ht⟩,
    by simpa [Material.only] using h.known t ht, h.charge⟩

theorem Usual.only {p : Projectile ℝ} {n : Int} {m : Material ℝ} (h : Usual p n m) (t : Target ℝ)
    (ht : t ∈ m.atoms) : Usual p n (m.only t) :=
  ⟨h.mass, by simpa [Material.only] using h.excitation t ht⟩

set_option maxRecDepth 8000 in
/-- C125 for the tables: at every point the range in a compound is at most the harmonic mean of the ranges in its elements. -/
theorem compound_range_table (env : Env ℝ) (p : Projectile ℝ) (n : Int) (m : Material ℝ) (c : Config ℝ)
    (h : Computable p n m c) (hu : Usual p n m) (d : DataPoint ℝ) (hd : calculate_DataPoint env p m c = .ok d)
    (e : Target ℝ → DataPoint ℝ) (he : ∀ t ∈ m.atoms, calculate_DataPoint env p (m.only t) c = .ok (e t)) (i : Nat) (h0 : 0 < i)
    (hi : i < 600) :
    ∃ (R : ℝ) (r : Target ℝ → ℝ), d.range[i]? = some R ∧ (∀ t ∈ m.atoms, (e t).range[i]? = some (r t) ∧ 0 < r t) ∧
      R * (m.atoms.map fun t => m.wfrac t / r t).sum ≤ 1 := by
  have hb := energy_table_bounds
  have ord : ∀ k, (energy_table : EnergyTable ℝ).val k < (energy_table : EnergyTable ℝ).val (k + 1) :=
    fun k => (EnergyTable.val_lt_iff _ hb.1 hb.2.1 k (k + 1)).mpr (by omega)
  have hr : ∀ t ∈ m.atoms, ∃ r, (e t).range[i]? = some r ∧ 0 < r := by
    intro t ht
    obtain ⟨d', hd', hl, hz, hp⟩ := range_table_strict env p n (m.only t) c (h.only t ht) (hu.only t ht)
    rw [he t ht] at hd'
    cases hd'
    refine ⟨(e t).range[i]'(by omega), List.getElem?_eq_getElem (by omega), ?_⟩
    have := List.pairwise_iff_getElem.mp hp 0 i (by omega) (by omega) h0
    rw [List.getElem?_eq_getElem (by omega)] at hz
    rwa [Option.some.inj hz] at this
  choose! r hr r0 using hr
  have hw : ∀ t ∈ m.atoms, 0 < m.wfrac t := fun t ht => m.wfrac_pos h.sound t ht
  have H0 : 0 < (m.atoms.map fun t => m.wfrac t / r t).sum :=
    sum_pos_of_forall _ _ (fun t ht => div_pos (hw t ht) (r0 t ht)) h.sound.nonempty
  obtain ⟨κ, hκ⟩ : ∃ κ : Target ℝ → ℝ, ∀ t, κ t = m.wfrac t / (r t * (m.atoms.map fun t => m.wfrac t / r t).sum) ^ 2 :=
    ⟨_, fun _ => rfl⟩
  have key : ∀ k < 599, ∃ (I : ℝ) (J : Target ℝ → ℝ),
      integrator.integrate (fdedx env p m c) ((energy_table : EnergyTable ℝ).val k) ((energy_table : EnergyTable ℝ).val (k + 1)) = .ok I ∧
      (∀ t ∈ m.atoms, integrator.integrate (fdedx env p (m.only t) c) ((energy_table : EnergyTable ℝ).val k)
        ((energy_table : EnergyTable ℝ).val (k + 1)) = .ok (J t)) ∧ I ≤ (m.atoms.map fun t => κ t * J t).sum := fun k hk =>
    integrator_le_sum _ _ _ _ _ _ (ord k) fun x hx => by
      obtain ⟨-, -, -, -, x0, hr⟩ := inner_grid k hk x hx
      have hs : ∀ t ∈ m.atoms, ∃ v, dedx env (p.withT x) (m.only t) c = .ok v ∧ 0 < v := fun t ht =>
        stopping_positive_at env p n _ c (h.only t ht) (hu.only t ht) x x0 hr
      choose! s hs s0 using hs
      have hv := stopping_additive env (p.withT x) m c (fun t ht => (h.sound.A t ht).ne') _ _ (mapM_rd m.atoms m.wfrac)
        (mapM_ok' _ _ s hs)
      rw [zipWith_map_sum] at hv
      refine ⟨1 / (m.atoms.map fun t => m.wfrac t * s t).sum, fun t => 1 / s t, ?_, fun t ht => ?_, ?_⟩
      · unfold fdedx
        rw [hv]
        norm_num [pure, Except.pure]
      · unfold fdedx
        rw [hs t ht]
        norm_num [pure, Except.pure]
      · simp only [hκ]
        exact harmonic_point m.atoms m.wfrac r s hw r0 s0 h.sound.nonempty
  choose! I J hI hJ hle using key
  obtain ⟨hl, hz, hstep⟩ := table_step p.A _ _ (data_point_parts env p m c d hd).1 I hI
  have hsteps := fun t ht => table_step p.A _ _ (data_point_parts env p (m.only t) c (e t) (he t ht)).1 (fun k => J k t)
    fun k hk => hJ k hk t ht
  have main : ∀ k, k < 600 → ∃ (R : ℝ) (q : Target ℝ → ℝ), d.range[k]? = some R ∧ (∀ t ∈ m.atoms, (e t).range[k]? = some (q t)) ∧
      R ≤ (m.atoms.map fun t => κ t * q t).sum := by
    intro k
    induction k with
    | zero => exact fun _ => ⟨0, fun _ => 0, hz, fun t ht => (hsteps t ht).2.1, by simp⟩
    | succ k ih =>
      intro hk
      obtain ⟨R, q, hR, hq, hRq⟩ := ih (by omega)
      obtain ⟨a, b, ha, hb, hab⟩ := hstep k (by omega)
      rw [hR] at ha
      cases ha
      have hq' : ∀ t ∈ m.atoms, (e t).range[k + 1]? = some (q t + p.A * J k t) := by
        intro t ht
        obtain ⟨a, b, ha, hb, hab⟩ := (hsteps t ht).2.2 k (by omega)
        rw [hq t ht] at ha
        cases ha
        rw [hb]
        congr 1
        linarith
      refine ⟨b, fun t => q t + p.A * J k t, hb, hq', ?_⟩
      have e1 : (m.atoms.map fun t => κ t * (q t + p.A * J k t)).sum = (m.atoms.map fun t => κ t * q t).sum +
          p.A * (m.atoms.map fun t => κ t * J k t).sum := by
        rw [← List.sum_map_mul_left, ← List.sum_map_add]
        congr 1
        refine List.map_congr_left fun t _ => ?_
        ring
      have := mul_le_mul_of_nonneg_left (hle k (by omega)) h.ion.A.le
      rw [e1]
      linarith
  obtain ⟨R, q, hR, hq, hRq⟩ := main i hi
  refine ⟨R, r, hR, fun t ht => ⟨hr t ht, r0 t ht⟩, ?_⟩
  have e2 : (m.atoms.map fun t => κ t * q t).sum = 1 / (m.atoms.map fun t => m.wfrac t / r t).sum := by
    have : ∀ t ∈ m.atoms, κ t * q t = 1 / (m.atoms.map fun t => m.wfrac t / r t).sum ^ 2 * (m.wfrac t / r t) := by
      intro t ht
      have := r0 t ht
      rw [hκ, ← Option.some.inj ((hr t ht).symm.trans (hq t ht))]
      field_simp
    rw [List.map_congr_left this, List.sum_map_mul_left]
    field_simp
  rw [e2, le_div_iff₀ H0] at hRq
  exact hRq

/-- C125: at the energies of the table the range in a compound is at most the range given by Bragg's rule for ranges,
`1/R = Σ w_i/R_i`, with the weight fractions and the ranges in the single elements as the library reports them, after any
histories. -/
theorem compound_range (env : Env ℝ) (p : Projectile ℝ) (n : Int) (m : Material ℝ) (c : Config ℝ)
    (h : Computable p n m c) (hu : Usual p n m) (hk : NonDefault p m c) (hk' : ∀ t ∈ m.atoms, NonDefault p (m.only t) c)
    (i : Nat) (h0 : 0 < i) (hi : i < 600) (hT : p.T = (energy_table : EnergyTable ℝ).val i) (w : World ℝ) (hw : ReachableW env w)
    (w' : Target ℝ → World ℝ) (hw' : ∀ t ∈ m.atoms, ReachableW env (w' t)) :
    ∃ (R : ℝ) (ws rs : List ℝ), (Call.range p m c).respond env w = .ok (.num R) ∧ weightFractions m = .ok ws ∧
      m.atoms.map (fun t => (Call.range p (m.only t) c).respond env (w' t)) = rs.map (fun r => .ok (.num r)) ∧
      (∀ r ∈ rs, 0 < r) ∧ R * (List.zipWith (· / ·) ws rs).sum ≤ 1 := by
  obtain ⟨d, R, hd, hR, e⟩ := range_at_knot env w hw p n m c h hk i hi hT
  have hall : ∀ t ∈ m.atoms, _ := fun t ht => range_at_knot env (w' t) (hw' t ht) p n (m.only t) c (h.only t ht) (hk' t ht) i hi hT
  haveI : Nonempty (DataPoint ℝ) := ⟨d⟩
  choose! f q hf hq hresp using hall
  obtain ⟨R', r, hR', hr, hle⟩ := compound_range_table env p n m c h hu d hd f hf i h0 hi
  rw [hR] at hR'
  cases hR'
  refine ⟨R, m.atoms.map m.wfrac, m.atoms.map r, e, mapM_rd m.atoms m.wfrac, ?_, ?_, ?_⟩
  · rw [List.map_map]
    refine List.map_congr_left fun t ht => ?_
    rw [hresp t ht, Function.comp_apply, Option.some.inj ((hq t ht).symm.trans (hr t ht).1)]
  · intro x hx
    obtain ⟨t, ht, rfl⟩ := List.mem_map.mp hx
    exact (hr t ht).2
  · convert hle using 3
    induction m.atoms with
    | nil => rfl
    | cons t l ih => rw [List.map_cons, List.map_cons, List.map_cons, List.zipWith_cons_cons, ih]

/-- C125: the range in a compound given by stoichiometric numbers exceeds no bound of the ranges in its elements. -/
theorem compound_range_max (env : Env ℝ) (p : Projectile ℝ) (n : Int) {m : Material ℝ} (hm : StoichBuilt m) (c : Config ℝ)
    (h : Computable p n m c) (hu : Usual p n m) (hk : NonDefault p m c) (hk' : ∀ t ∈ m.atoms, NonDefault p (m.only t) c)
    (i : Nat) (h0 : 0 < i) (hi : i < 600) (hT : p.T = (energy_table : EnergyTable ℝ).val i) (w : World ℝ) (hw : ReachableW env w)
    (b : ℝ) (hb : ∀ t ∈ m.atoms, ∀ r, (Call.range p (m.only t) c).respond env w = .ok (.num r) → r ≤ b) :
    ∃ R, (Call.range p m c).respond env w = .ok (.num R) ∧ R ≤ b := by
  obtain ⟨R, ws, rs, hR, hws, hrs, r0, hle⟩ := compound_range env p n m c h hu hk hk' i h0 hi hT w hw (fun _ => w) fun _ _ => hw
  obtain ⟨ws', h1, h2, h3⟩ := weight_fractions_sum_to_one hm (by simpa [Material.ncomponents] using h.sound.nonempty)
  rw [hws] at h1
  cases h1
  have hl : ws.length = rs.length := by
    have e1 : weightFractions m = .ok (m.atoms.map m.wfrac) := mapM_rd m.atoms m.wfrac
    rw [hws] at e1
    cases e1
    have := congrArg List.length hrs
    simpa using this
  have hrb : ∀ r ∈ rs, r ≤ b := by
    intro r hr
    have : (.ok (.num r) : M (Response ℝ)) ∈ rs.map (fun r => .ok (.num r)) := List.mem_map.mpr ⟨r, hr, rfl⟩
    rw [← hrs] at this
    obtain ⟨t, ht, e⟩ := List.mem_map.mp this
    exact hb t ht r e
  refine ⟨R, hR, ?_⟩
  have b0 : 0 < b := by
    obtain ⟨t, ht⟩ := List.exists_mem_of_ne_nil _ h.sound.nonempty
    have hne : rs ≠ [] := by
      intro e
      rw [e] at hrs
      rw [List.map_nil, List.map_eq_nil_iff] at hrs
      exact h.sound.nonempty hrs
    obtain ⟨r, hr⟩ := List.exists_mem_of_ne_nil _ hne
    exact (r0 r hr).trans_le (hrb r hr)
  have key : ws.sum / b ≤ (List.zipWith (· / ·) ws rs).sum := by
    clear hle hR hws hrs h3 hb
    induction ws generalizing rs with
    | nil => simp
    | cons x ws ih =>
      cases rs with
      | nil => simp at hl
      | cons r rs =>
        rw [List.sum_cons, List.zipWith_cons_cons, List.sum_cons, add_div]
        refine add_le_add ?_ (ih rs (fun r hr => r0 r (by simp [hr])) (fun w hw => h2 w (by simp [hw])) (by simpa using hl)
          fun r hr => hrb r (by simp [hr]))
        exact div_le_div_of_nonneg_left (h2 x (by simp)).le (r0 r (by simp)) (hrb r (by simp))
  rw [h3] at key
  by_contra hc
  have hc := not_le.mp hc
  have : 1 < R * (1 / b) := by rw [mul_one_div, one_lt_div b0]; exact hc
  have := mul_le_mul_of_nonneg_left key (b0.trans hc).le
  linarith

/-- Carbon in water at any energy of the table but the first. -/
example (env : Env ℝ) (w : World ℝ) (hw : ReachableW env w) (i : Nat) (h0 : 0 < i) (hi : i < 600) : ∃ (R : ℝ) (ws rs : List ℝ),
    (Call.range ⟨12, 6, 6, (energy_table : EnergyTable ℝ).val i⟩ (⟨1, 1, 18.015, 0, [⟨1.00794, 1, 2⟩, ⟨15.9994, 8, 1⟩]⟩ : Material ℝ)
      .default).respond env w = .ok (.num R) ∧
    weightFractions (⟨1, 1, 18.015, 0, [⟨1.00794, 1, 2⟩, ⟨15.9994, 8, 1⟩]⟩ : Material ℝ) = .ok ws ∧ ws.length = 2 ∧
    R * (List.zipWith (· / ·) ws rs).sum ≤ 1 := by
  have hk : ∀ m : Material ℝ, NonDefault ⟨12, 6, 6, (energy_table : EnergyTable ℝ).val i⟩ m .default := by
    intro m
    simp only [NonDefault, Key.eq, Key.default, Projectile.eq, Projectile.default]
    simp
    intro h
    norm_num at h
  have hc := carbon_water_usual 6 ((energy_table : EnergyTable ℝ).val i)
  obtain ⟨R, ws, rs, a, b, -, -, d⟩ := compound_range env _ 6 _ _ hc.1 hc.2 (hk _) (fun _ _ => hk _) i h0 hi rfl w hw (fun _ => w)
    fun _ _ => hw
  refine ⟨R, ws, rs, a, b, ?_, d⟩
  have e1 := mapM_rd (⟨1, 1, 18.015, 0, [⟨1.00794, 1, 2⟩, ⟨15.9994, 8, 1⟩]⟩ : Material ℝ).atoms
    (⟨1, 1, 18.015, 0, [⟨1.00794, 1, 2⟩, ⟨15.9994, 8, 1⟩]⟩ : Material ℝ).wfrac
  have := b.symm.trans e1
  cases this
  rfl

end Catima
