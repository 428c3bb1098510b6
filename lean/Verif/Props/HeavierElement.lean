import Verif.Lemmas.HeavierElement
import Verif.Props.RangeConvex

/-!
# C135: between 30 and 1000 MeV/u ions of higher nuclear charge are stopped more strongly
-/

namespace Catima

/-- The correction of Lindhard and Sørensen of ions of neighbouring elements, at most three times as heavy as the atomic weight. -/
theorem lindhard_pair (ci : Bool) {p p' : Projectile ℝ} {n : Int} (hp : p.Ion n) (hp' : p'.Ion (n + 1)) (hn : n ≤ 91)
    (hA : p.A ≤ 3 * element_atomic_weight n) (hA' : p'.A ≤ 3 * element_atomic_weight (n + 1)) (hT : p'.T = p.T) (h0 : 30 ≤ p.T)
    (h3 : p.T ≤ 1000) : ∃ v v', precalculated_lindhard ci p = .ok v ∧ precalculated_lindhard ci p' = .ok v' ∧ -1.49 ≤ v ∧
      3 * ((n : ℝ) + 1) * (v - v') ≤ 3.2 := by
  have hw := atomic_weight_pos n hp.pos (by omega)
  have hw' := atomic_weight_pos (n + 1) hp'.pos (by omega)
  have hb := ls_energy_table_bounds
  have hvle := (EnergyTable.val_le_iff (ls_energy_table : EnergyTable ℝ) hb.1 hb.2.1)
  have h86 := ls_val_86
  have h40 := ls_val_40
  have top := (hvle 86 199).mpr (by omega)
  obtain ⟨i, θ, hi, ht0, ht1, hb0, hb1, key⟩ := lindhard_affine_all ci p.T (by linarith) (by linarith) (Or.inl (below_top p.T (by linarith)))
  obtain ⟨s, r, hr, hrn, hs, c, hc, e⟩ := key p n hp (by omega) rfl
  obtain ⟨s', r', hr', hrn', hs', c', hc', e'⟩ := key p' (n + 1) hp' (by omega) hT
  have er : r' = r + 1 := by omega
  subst er
  refine ⟨_, _, e, e', ?_⟩
  have range : ∀ A w : ℝ, 0 < w → 0 < A → A ≤ 3 * w → -20 ≤ 20 * ((A - w) / w) ∧ 20 * ((A - w) / w) ≤ 40 := by
    intro A w hw hA hA3
    have h2 : -1 ≤ (A - w) / w := by rw [le_div_iff₀ hw]; linarith
    have h3 : (A - w) / w ≤ 2 := by rw [div_le_iff₀ hw]; linarith
    constructor <;> linarith
  have hs0 := range p.A _ hw hp.A hA
  have hs0' := range p'.A _ hw' hp'.A hA'
  rw [← hs] at hs0
  rw [← hs'] at hs0'
  norm_num at hb0
  have i40 : 40 ≤ i := by
    by_contra hlt
    have := (hvle (i + 1) 40).mpr (by omega)
    linarith
  have i85 : i ≤ 85 := by
    by_contra hlt
    have := (hvle 86 i).mpr (by omega)
    linarith
  have tab : ∀ j, 40 ≤ j → j ≤ 86 → 3 * ((r : ℝ) + 2) * (c j - c' j) ≤ 3.1 ∧ -1.485 ≤ c j := by
    intro j j1 j2
    rw [hc, hc']
    exact lsRow_drop (lsTables_drop r (by omega)) j j1 j2 s s' hs0.1 hs0.2 hs0'.1 hs0'.2
  have absb : ∀ (k : Nat) (hk : k < 108) (s : ℝ) (c : Nat → ℝ), -20 ≤ s → s ≤ 40 → (∀ j, c j = ((lsField (ls_coefficients_a[k]'(by rw [ls_lengths.1]; exact hk)) j : ℝ)
          + s * ((lsField (ls_coefficients_ahi[k]'(by rw [ls_lengths.2.1]; exact hk)) j : ℝ) -
            lsField (ls_coefficients_a[k]'(by rw [ls_lengths.1]; exact hk)) j)) / 10 ^ 11) → |c (i + 1) - c i| ≤ 2 := by
    intro k hk s c s0 s1 hc
    obtain ⟨hg1, -⟩ := lsTables_steady k hk
    obtain ⟨B, hB, g1, g2, g3, g4⟩ := lsRow_steady hg1 i (by omega) (by omega)
    rw [if_neg (by omega), if_pos (by omega)] at hB
    subst hB
    rw [hc i, hc (i + 1)]
    generalize lsField (ls_coefficients_a[k]'(by rw [ls_lengths.1]; exact hk)) i = a at *
    generalize lsField (ls_coefficients_ahi[k]'(by rw [ls_lengths.2.1]; exact hk)) i = h at *
    generalize lsField (ls_coefficients_a[k]'(by rw [ls_lengths.1]; exact hk)) (i + 1) = a' at *
    generalize lsField (ls_coefficients_ahi[k]'(by rw [ls_lengths.2.1]; exact hk)) (i + 1) = h' at *
    have ed : ((a' : ℝ) + s * ((h' : ℝ) - a')) / 10 ^ 11 - ((a : ℝ) + s * ((h : ℝ) - a)) / 10 ^ 11 =
        (((a' : ℝ) - a) + s * ((h' : ℝ) - a' - ((h : ℝ) - a))) / 10 ^ 11 := by ring
    have := affine_mid ((a' : ℝ) - a) ((h' : ℝ) - a' - ((h : ℝ) - a)) (-9700000000) 9700000000 s (by exact_mod_cast g1)
      (by exact_mod_cast g3) (by exact_mod_cast g2) (by exact_mod_cast g4) s0 s1
    rw [ed, abs_le, le_div_iff₀ (by norm_num), div_le_iff₀ (by norm_num)]
    norm_num
    constructor <;> linarith [this.1, this.2]
  have A1 := absb r hr s c hs0.1 hs0.2 hc
  have A2 := absb (r + 1) hr' s' c' hs0'.1 hs0'.2 hc'
  have en : (n : ℝ) + 1 = (r : ℝ) + 2 := by
    have : n = (r : Int) + 1 := by omega
    rw [this]; push_cast; ring
  obtain ⟨t1, t2⟩ := tab i i40 (by omega)
  obtain ⟨t3, t4⟩ := tab (i + 1) (by omega) (by omega)
  constructor
  · have := abs_le.mp A1
    norm_num at t2 t4 ht0 ⊢
    rcases le_total 0 θ with h | h <;> nlinarith
  · rw [en]
    refine mix_drop _ θ _ _ _ _ ht0 ht1 (by positivity) ?_ t1 t3 A1 A2
    have : (r : ℝ) ≤ 90 := by exact_mod_cast (by omega : r ≤ 90)
    linarith

/-- The charge of Pierce and Blann grows at least as the cube root of the charge number. -/
theorem pierce_element (z b : ℝ) (hz : 1 ≤ z) (hb : 0 < b) : 0 < z_eff_Pierce_Blann z b ∧
    z_eff_Pierce_Blann z b ≤ z_eff_Pierce_Blann (z + 1) b ∧
    z_eff_Pierce_Blann z b ^ 2 * (1 + 2 / (3 * z + 1)) ≤ z_eff_Pierce_Blann (z + 1) b ^ 2 := by
  have z0 : 0 < z := by linarith
  obtain ⟨p0, -⟩ := pierce_step z b b z0 hb le_rfl
  refine ⟨p0, ?_⟩
  rw [pierce_blann_eq] at p0
  rw [pierce_blann_eq, pierce_blann_eq]
  have hf : (0 : ℝ) < 0.95 * fine_structure_inverted * b := by
    have := fsi_pos
    positivity
  have q0 : 0 < z ^ ((1 : ℝ) / 3) := Real.rpow_pos_of_pos z0 _
  have r0 : 0 < (z + 1) ^ ((1 : ℝ) / 3) := Real.rpow_pos_of_pos (by linarith) _
  have cube : ∀ y : ℝ, 0 < y → (y ^ ((1 : ℝ) / 3)) ^ 3 = y := by
    intro y hy
    rw [← Real.rpow_natCast, ← Real.rpow_mul hy.le]; norm_num
  have square : ∀ y : ℝ, 0 < y → y ^ ((2 : ℝ) / 3) = (y ^ ((1 : ℝ) / 3)) ^ 2 := by
    intro y hy
    rw [← Real.rpow_natCast, ← Real.rpow_mul hy.le]; norm_num
  have hqr : z ^ ((1 : ℝ) / 3) ≤ (z + 1) ^ ((1 : ℝ) / 3) := Real.rpow_le_rpow z0.le (by linarith) (by norm_num)
  have e1 : ∀ y, 0.95 * fine_structure_inverted / y ^ ((2 : ℝ) / 3) * b = 0.95 * fine_structure_inverted * b / y ^ ((2 : ℝ) / 3) :=
    fun y => by ring
  rw [e1, e1] at *
  rw [square z z0, square (z + 1) (by linarith)] at *
  have c1 := cube z z0
  have c2 := cube (z + 1) (by linarith)
  generalize z ^ ((1 : ℝ) / 3) = q at *
  generalize (z + 1) ^ ((1 : ℝ) / 3) = r at *
  generalize 0.95 * fine_structure_inverted * b = k at *
  -- concavity of `1 - exp(-x)`
  have h := one_sub_exp_ratio (k / r ^ 2) (k / q ^ 2) (by positivity) (by gcongr)
  have g0 : 0 < 1 - Real.exp (-(k / q ^ 2)) := by
    rw [sub_pos, Real.exp_lt_one_iff, neg_lt_zero]; positivity
  generalize 1 - Real.exp (-(k / q ^ 2)) = g at *
  generalize 1 - Real.exp (-(k / r ^ 2)) = g' at *
  have h5 : g * q ^ 2 ≤ g' * r ^ 2 := by
    rw [mul_div_assoc', mul_div_assoc', div_le_div_iff₀ (by positivity) (by positivity)] at h
    have : k * (g * q ^ 2) ≤ k * (g' * r ^ 2) := by linarith
    exact le_of_mul_le_mul_left this hf
  -- so the charges are at least as the cube roots
  have h6 : z * g * r ≤ (z + 1) * g' * q := by
    have e3 : z * g * r = q * r * (g * q ^ 2) := by rw [← c1]; ring
    have e4 : (z + 1) * g' * q = q * r * (g' * r ^ 2) := by
      rw [show z + 1 = r ^ 3 from c2.symm]; ring
    rw [e3, e4]
    exact mul_le_mul_of_nonneg_left h5 (by positivity)
  have h7 : z * g ≤ (z + 1) * g' := by
    have : z * g * q ≤ (z + 1) * g' * q := le_trans (mul_le_mul_of_nonneg_left hqr (by positivity)) h6
    exact le_of_mul_le_mul_right this q0
  refine ⟨h7, ?_⟩
  -- `(1 + 1/z)^(2/3) ≥ 1 + 2/(3z+1)`
  have h8 : (3 * z + 3) * q ^ 2 ≤ (3 * z + 1) * r ^ 2 := by
    apply le_of_pow_le_pow_left₀ (n := 3) (by norm_num) (by positivity)
    rw [mul_pow, mul_pow, ← pow_mul, ← pow_mul, mul_comm 2 3, pow_mul, pow_mul, c1, c2]
    have : (3 * z + 1) ^ 3 * (z + 1) ^ 2 - (3 * z + 3) ^ 3 * z ^ 2 = (z + 1) ^ 2 * (9 * z + 1) := by ring
    nlinarith [mul_nonneg (sq_nonneg (z + 1)) (show 0 ≤ 9 * z + 1 by linarith)]
  have h9 : (z * g) ^ 2 * r ^ 2 ≤ ((z + 1) * g') ^ 2 * q ^ 2 := by
    rw [← mul_pow, ← mul_pow]
    exact pow_le_pow_left₀ (by positivity) h6 2
  have w0 : 0 < 3 * z + 1 := by linarith
  have e5 : (z * g) ^ 2 * (1 + 2 / (3 * z + 1)) = (z * g) ^ 2 * (3 * z + 3) / (3 * z + 1) := by field_simp; ring
  rw [e5, div_le_iff₀ w0]
  have h10 : (z * g) ^ 2 * ((3 * z + 3) * q ^ 2) ≤ (z * g) ^ 2 * ((3 * z + 1) * r ^ 2) := mul_le_mul_of_nonneg_left h8 (sq_nonneg _)
  have h11 : (3 * z + 1) * ((z * g) ^ 2 * r ^ 2) ≤ (3 * z + 1) * (((z + 1) * g') ^ 2 * q ^ 2) := mul_le_mul_of_nonneg_left h9 w0.le
  have h12 : (z * g) ^ 2 * (3 * z + 3) * q ^ 2 ≤ ((z + 1) * g') ^ 2 * (3 * z + 1) * q ^ 2 := by linarith
  exact le_of_mul_le_mul_right h12 (by positivity)

/-- A larger charge outweighs a smaller bracket of the Bethe formula. -/
theorem bracket_step (n y y' B B' l l' : ℝ) (hn : 1 ≤ n) (hy : 0 ≤ y) (hyy : y * (1 + 2 / (3 * n + 1)) ≤ y') (hB : 1.72 ≤ B)
    (hl : 3 * (n + 1) * (l - l') ≤ 3.2) (hBB : B - (l - l') ≤ B') : y * B ≤ y' * B' ∧ (0 < y → y * B < y' * B') := by
  have w0 : 0 < 3 * n + 1 := by linarith
  have d : B < (1 + 2 / (3 * n + 1)) * (B - (l - l')) := by
    have e : (1 + 2 / (3 * n + 1)) * (B - (l - l')) = (3 * n + 3) * (B - (l - l')) / (3 * n + 1) := by field_simp; ring
    rw [e, lt_div_iff₀ w0]
    norm_num at hB hl
    linarith
  have B0 : 0 < B - (l - l') := by
    have : 0 < 1 + 2 / (3 * n + 1) := by positivity
    have hB0 : 0 < B := by norm_num at hB; linarith
    exact (mul_pos_iff_of_pos_left this).mp (hB0.trans d)
  have m : y * ((1 + 2 / (3 * n + 1)) * (B - (l - l'))) ≤ y' * B' := by
    calc _ = y * (1 + 2 / (3 * n + 1)) * (B - (l - l')) := by ring
      _ ≤ y' * (B - (l - l')) := mul_le_mul_of_nonneg_right hyy B0.le
      _ ≤ y' * B' := mul_le_mul_of_nonneg_left hBB (le_trans (by positivity) hyy)
  refine ⟨(mul_le_mul_of_nonneg_left d.le hy).trans m, fun h => (mul_lt_mul_of_pos_left d h).trans_le m⟩

/-- The nuclear stopping of one component above a reduced energy of 30. -/
theorem nuclear_log (k N z b B a s T : ℝ) (z0 : 0 < z) (b0 : 0 < b) (B0 : 0 < B) (a0 : 0 < a) (s0 : 0 < s) (T0 : 0 < T)
    (g : 30 * (z * b * (a + B) * s) < 32530 * B * a * T) :
    30 < 32530 * B * a / (z * b * (a + B) * s) * T ∧
    k * z * b * a * N / ((a + B) * s * B) * reducedNuclear (32530 * B * a / (z * b * (a + B) * s) * T) =
      k * N * b ^ 2 / (65060 * B ^ 2 * T) * (z ^ 2 * Real.log (32530 * B * a / (z * b * (a + B) * s) * T)) := by
  have g' : 30 < 32530 * B * a / (z * b * (a + B) * s) * T := by
    rw [div_mul_eq_mul_div, lt_div_iff₀ (by positivity)]
    exact g
  refine ⟨g', ?_⟩
  unfold reducedNuclear
  rw [if_neg (by linarith)]
  generalize hL : Real.log (32530 * B * a / (z * b * (a + B) * s) * T) = L
  have : 0 < a + B := by linarith
  field_simp
  ring

theorem nuclear_numbers (k N z b B a a' s s' T : ℝ) (k0 : 0 < k) (N0 : 0 < N) (z1 : 1 ≤ z) (b0 : 0 < b) (B0 : 0 < B) (a0 : 0 < a) (a0' : 0 < a')
    (ha : a ≤ a') (s0 : 0 < s) (s0' : 0 < s') (T0 : 0 < T) (hs : z * s' ≤ (z + 1) * s)
    (g1 : 30 * (z * b * (a + B) * s) < 32530 * B * a * T) (g2 : 30 * ((z + 1) * b * (a' + B) * s') < 32530 * B * a' * T) :
    k * z * b * a * N / ((a + B) * s * B) * reducedNuclear (32530 * B * a / (z * b * (a + B) * s) * T) ≤
    k * (z + 1) * b * a' * N / ((a' + B) * s' * B) * reducedNuclear (32530 * B * a' / ((z + 1) * b * (a' + B) * s') * T) := by
  have z0 : 0 < z := by linarith
  obtain ⟨l1, r1⟩ := nuclear_log k N z b B a s T z0 b0 B0 a0 s0 T0 g1
  obtain ⟨l2, r2⟩ := nuclear_log k N (z + 1) b B a' s' T (by linarith) b0 B0 a0' s0' T0 g2
  rw [r1, r2]
  clear r1 r2 g1 g2
  refine mul_le_mul_of_nonneg_left ?_ (by positivity)
  have h : 32530 * B * a / (z * b * (a + B) * s) * T ≤ ((z + 1) / z) ^ 2 * (32530 * B * a' / ((z + 1) * b * (a' + B) * s') * T) := by
    have e1 : ((z + 1) / z) ^ 2 * (32530 * B * a' / ((z + 1) * b * (a' + B) * s') * T) =
        (32530 * B * T / (z * b)) * (a' / (a' + B)) * ((z + 1) / (z * s')) := by field_simp
    have e2 : 32530 * B * a / (z * b * (a + B) * s) * T = (32530 * B * T / (z * b)) * (a / (a + B)) * (1 / s) := by field_simp
    rw [e1, e2]
    gcongr ?_ * ?_ * ?_
    · rw [div_le_div_iff₀ (by positivity) (by positivity)]; nlinarith
    · rw [div_le_div_iff₀ (by positivity) (by positivity)]; linarith
  have l3 := log_ge_3_4 _ l1.le
  have hlog := Real.log_le_log (by linarith) h
  generalize 32530 * B * a / (z * b * (a + B) * s) * T = e at *
  generalize 32530 * B * a' / ((z + 1) * b * (a' + B) * s') * T = e' at *
  rw [Real.log_mul (by positivity) (by linarith), Real.log_pow] at hlog
  have hq : Real.log ((z + 1) / z) ≤ 1 / z := by
    have := Real.log_le_sub_one_of_pos (show 0 < (z + 1) / z by positivity)
    have e : (z + 1) / z - 1 = 1 / z := by field_simp; ring
    rwa [e] at this
  generalize Real.log e = L at *
  generalize Real.log e' = L' at *
  generalize Real.log ((z + 1) / z) = q at *
  have hL : L - 2 / z ≤ L' := by
    have : (2 : ℝ) / z = 2 * (1 / z) := by ring
    push_cast at hlog
    rw [this]; linarith
  have e3 : (z + 1) ^ 2 * (L - 2 / z) ≤ (z + 1) ^ 2 * L' := mul_le_mul_of_nonneg_left hL (sq_nonneg _)
  have e4 : (z + 1) ^ 2 * (2 / z) ≤ (2 * z + 1) * 3.4 := by
    rw [mul_div_assoc', div_le_iff₀ z0]; norm_num; nlinarith
  have e5 : (2 * z + 1) * 3.4 ≤ (2 * z + 1) * L := mul_le_mul_of_nonneg_left l3 (by linarith)
  nlinarith

/-- The Bethe logarithm without half of the density effect, between 30 and 1000 MeV/u. -/
theorem logarithm_window (x : ℝ) (h0 : 30 ≤ x) (h3 : x ≤ 1000) (c I : ℝ) (hc : 0 ≤ c) (hc' : c ≤ 0.0115) (hI : 0 < I) (hI' : I ≤ 1170)
    (zt : Int) (hz : 1 ≤ zt) : ∃ f : ℝ → ℝ,
      (∀ b, bethek_density_effect b zt = .ok (f (Real.log (b * (1 / √(1 - b * b))) / 2.3025851))) ∧
      0 < etaSq x ∧ 0 ≤ betheLog c I (etaSq x) ∧ 3.23 ≤ betheLog c I (etaSq x) - f (Real.log (√(etaSq x)) / 2.3025851) / 2 := by
  obtain ⟨f, hf1, hf2⟩ := density_low zt hz
  refine ⟨f, hf1, ?_⟩
  have e : etaSq x = x / 931.4940954 * (2 + x / 931.4940954) := by unfold etaSq; ring
  have a0 : 0.032206 ≤ x / 931.4940954 := by rw [le_div_iff₀ (by norm_num)]; norm_num; linarith
  have a3 : x / 931.4940954 ≤ 1.0736 := by rw [div_le_iff₀ (by norm_num)]; norm_num; linarith
  have k : 0.0654 ≤ etaSq x ∧ etaSq x ≤ 3.31 := by
    rw [e]
    generalize x / 931.4940954 = u at *
    norm_num at a0 a3 ⊢
    constructor <;> nlinarith
  obtain ⟨q0, q1⟩ := k
  have s0 : 0 < etaSq x := by norm_num at q0; linarith
  generalize etaSq x = s at *
  clear e a0 a3
  refine ⟨s0, ?_⟩
  rcases le_total s 0.75 with hs | hs
  · obtain ⟨b1, -, -⟩ := betheLog_large c I s hc hc' hI hI' q0 (by norm_num at hs ⊢; linarith)
    have hlx : Real.log (√s) / 2.3025851 < -0.06 := by
      rw [div_lt_iff₀ (by norm_num), Real.log_sqrt s0.le, div_lt_iff₀ (by norm_num)]
      have : Real.log s ≤ Real.log 0.75 := Real.log_le_log s0 hs
      have e : Real.log 0.75 = -Real.log (4 / 3) := by rw [← Real.log_inv]; norm_num
      have h43 : 0.28 ≤ Real.log (4 / 3) := by
        rw [Real.le_log_iff_exp_le (by norm_num)]
        have h5 := Real.exp_bound' (x := 0.28) (by norm_num) (by norm_num) (n := 4) (by norm_num)
        simp only [Finset.sum_range_succ, Finset.sum_range_zero, Nat.factorial] at h5
        norm_num at h5 ⊢
        linarith
      rw [e] at this
      norm_num at this h43 ⊢
      linarith
    obtain ⟨-, -, d4⟩ := hf2 _ _ le_rfl hlx
    norm_num at b1 d4 ⊢
    constructor <;> linarith
  · -- the density effect grows at most as half of the logarithm
    obtain ⟨d, hd, hdd⟩ := density_le (√(s / (1 + s))) zt hz
    rw [hf1] at hd
    have ex : √(s / (1 + s)) * (1 / √(1 - √(s / (1 + s)) * √(s / (1 + s)))) = √s := by
      rw [Real.mul_self_sqrt (by positivity)]
      have : 1 - s / (1 + s) = 1 / (1 + s) := by field_simp; ring
      rw [this, Real.sqrt_div s0.le, Real.sqrt_div zero_le_one, Real.sqrt_one]
      have : 0 < √(1 + s) := Real.sqrt_pos.mpr (by linarith)
      field_simp
    rw [ex] at hd hdd
    rw [Except.ok.inj hd]
    have hlogI : Real.log 873.5 ≤ Real.log (1021997.856 / I) := by
      apply Real.log_le_log (by norm_num)
      rw [le_div_iff₀ hI]; norm_num; linarith
    have l1 : 6.7 ≤ Real.log 873.5 := by
      rw [Real.le_log_iff_exp_le (by norm_num)]
      have e : Real.exp (6.7 : ℝ) = Real.exp 1 ^ 7 * Real.exp (-0.3) := by
        rw [← Real.exp_nat_mul, ← Real.exp_add]; norm_num
      have h27 := Real.exp_one_lt_d9
      have h5 : Real.exp (-0.3) ≤ 1 / 1.3 := by
        rw [Real.exp_neg, ← one_div]
        apply one_div_le_one_div_of_le (by norm_num)
        have := Real.add_one_le_exp (0.3 : ℝ)
        norm_num at this ⊢; linarith
      rw [e]
      calc Real.exp 1 ^ 7 * Real.exp (-0.3) ≤ 2.7182818286 ^ 7 * (1 / 1.3) := by gcongr
        _ ≤ _ := by norm_num
    have hls : -0.4 ≤ Real.log s := by
      have h1 : Real.log 0.75 ≤ Real.log s := Real.log_le_log (by norm_num) hs
      have h2 := Real.one_sub_inv_le_log_of_pos (show (0 : ℝ) < 0.75 by norm_num)
      norm_num at h1 h2 ⊢
      linarith
    have hls' : Real.log s ≤ 1.4 := by
      have h1 : Real.log s ≤ Real.log (4 : ℝ) := Real.log_le_log s0 (by norm_num at q1; linarith)
      have h2 : Real.log 4 = 2 * Real.log 2 := by rw [show (4 : ℝ) = 2 ^ 2 by norm_num, Real.log_pow]; norm_num
      have := Real.log_two_lt_d9
      norm_num at this ⊢
      linarith
    have hb : s / (1 + s) ≤ 1 := by rw [div_le_one (by linarith)]; linarith
    have hsh : c * shellPoly (I / 1000) s⁻¹ ≤ 0.2 := by
      have hu : 0 < I / 1000 := by positivity
      have hu' : I / 1000 ≤ 1.17 := by norm_num; linarith
      have hy : s⁻¹ ≤ 1.34 := by rw [inv_le_comm₀ s0 (by norm_num)]; refine le_trans ?_ hs; norm_num
      have hy0 : 0 < s⁻¹ := by positivity
      generalize I / 1000 = u at *
      generalize s⁻¹ = y at *
      have : shellPoly u y ≤ 10 := by
        unfold shellPoly
        norm_num at hy hu' ⊢
        have y3 := pow_pos hy0 3
        have y2 : y ^ 2 ≤ 1.8 := by norm_num; nlinarith
        have y3' : y ^ 3 ≤ 2.5 := by norm_num; nlinarith
        norm_num at y2 y3'
        have t2 : 3858019 / 1000000 * y - 1667989 / 10000000 * y ^ 2 + 31591 / 20000000 * y ^ 3 ≤ 5.3 := by
          norm_num; nlinarith
        norm_num at t2
        nlinarith
      norm_num at hc' ⊢
      nlinarith
    unfold betheLog
    have hx : Real.log (√s) / 2.3025851 = Real.log s / 4.6051702 := by
      rw [Real.log_sqrt s0.le, div_div]; norm_num
    rw [hx] at hdd
    have dd : d / 2 ≤ 1.2 := by
      rcases hdd with ⟨-, h⟩ | ⟨-, h⟩
      · norm_num at h ⊢; linarith
      · have : 4.6052 * (Real.log s / 4.6051702) ≤ 4.6052 * (1.4 / 4.6051702) := by gcongr
        norm_num at h this ⊢
        linarith
    norm_num at hlogI l1 hls hsh dd ⊢
    constructor <;> linarith

set_option maxHeartbeats 400000 in
/-- The electronic stopping of ions of neighbouring elements by one component. -/
theorem bethe_element (env : Env ℝ) {p p' : Projectile ℝ} {n : Int} (hp : p.Ion n) (hp' : p'.Ion (n + 1)) (hn : n ≤ 91)
    (hA : p.A ≤ 3 * element_atomic_weight n) (hA' : p'.A ≤ 3 * element_atomic_weight (n + 1)) (hT : p'.T = p.T) (h0 : 30 ≤ p.T)
    (h3 : p.T ≤ 1000) (t : Target ℝ) (tZ : 1 ≤ t.Z) (tA : 0 < t.A) (c : Config ℝ) (hc : c.z_effective = 1) (I : ℝ) (hI : TypicalI I t.Z) :
    ∃ v v', bethek_dedx_e_target env p t c I = .ok v ∧ bethek_dedx_e_target env p' t c I = .ok v' ∧ v < v' := by
  obtain ⟨I0, I1, I2⟩ := usedI_bounds I t.Z tZ hI
  have htz : (1 : ℝ) ≤ (t.Z : ℝ) := by exact_mod_cast tZ
  have sf : 0 ≤ shellFactor c (usedI I t.Z) t.Z ∧ shellFactor c (usedI I t.Z) t.Z ≤ 0.0115 := by
    unfold shellFactor
    split
    · norm_num
    · refine ⟨by positivity, ?_⟩
      rw [div_div, div_le_iff₀ (by positivity)]
      norm_num
      linarith
  obtain ⟨f, hf1, s0, b1, d4⟩ := logarithm_window p.T h0 h3 _ _ sf.1 sf.2 I0 I1 t.Z tZ
  have hZ : (1 : ℝ) ≤ n := by exact_mod_cast hp.pos
  have val : ∀ q : Projectile ℝ, q.T = p.T → z_effective env.debug q t c = .ok (z_eff_Pierce_Blann q.Z (beta_from_T p.T)) := by
    intro q hq
    rw [← hq]
    exact (z_effective_basic env.debug q t c).2 hc
  obtain ⟨z0, zz, zq⟩ := pierce_element n (beta_from_T p.T) hZ (gamma_beta_bounds p.T (by linarith)).2.1
  have v1 := val p rfl
  have v2 := val p' hT
  rw [hp.Z] at v1
  rw [hp'.Z, Int.cast_add, Int.cast_one] at v2
  obtain ⟨l, l', el, el', lb, ll⟩ : ∃ l l',
      (if c.corrections.testBit 1 = true then .ok 0 else precalculated_lindhard env.calcIndex p) = .ok l ∧
      (if c.corrections.testBit 1 = true then .ok 0 else precalculated_lindhard env.calcIndex p') = .ok l' ∧
      -1.49 ≤ l ∧ 3 * ((n : ℝ) + 1) * (l - l') ≤ 3.2 := by
    by_cases hb : c.corrections.testBit 1 = true
    · rw [if_pos hb, if_pos hb]
      exact ⟨0, 0, rfl, rfl, by norm_num, by norm_num⟩
    · rw [if_neg hb, if_neg hb]
      exact lindhard_pair env.calcIndex hp hp' hn hA hA' hT h0 h3
  have e1 := bethe_value env hp t tZ tA c I (by linarith) _ v1 z0.le hI f hf1 l el
  have e2 := bethe_value env hp' t tZ tA c I (by linarith) _ v2 (by linarith) hI f hf1 l' el'
  refine ⟨_, _, e1, e2, ?_⟩
  have rad : ∀ q : Projectile ℝ, q.T = p.T → radiative q t c = 0 := by
    intro q hq
    unfold radiative
    rw [if_neg]
    rintro ⟨h, -⟩
    rw [hq] at h
    linarith
  rw [rad p rfl, rad p' hT, add_zero, add_zero, hT]
  clear e1 e2 v1 v2 val rad el el'
  have hK : 0 ≤ barkasTerm c (z_eff_Pierce_Blann (n : ℝ) (beta_from_T p.T)) (etaSq p.T) t.Z ∧
      barkasTerm c (z_eff_Pierce_Blann (n : ℝ) (beta_from_T p.T)) (etaSq p.T) t.Z ≤
        barkasTerm c (z_eff_Pierce_Blann ((n : ℝ) + 1) (beta_from_T p.T)) (etaSq p.T) t.Z := by
    unfold barkasTerm
    split
    · norm_num
    · have := barkas_ge_one _ (√(etaSq p.T)) t.Z z0.le
      refine ⟨by linarith, ?_⟩
      rw [barkas_linear (z_eff_Pierce_Blann n _), barkas_linear (z_eff_Pierce_Blann (n + 1) _)]
      have := mul_le_mul_of_nonneg_right zz (sub_nonneg.mpr (barkas_ge_one 1 (√(etaSq p.T)) t.Z (by norm_num)))
      linarith
  generalize f (Real.log (√(etaSq p.T)) / 2.3025851) = d at *
  generalize betheLog (shellFactor c (usedI I t.Z) t.Z) (usedI I t.Z) (etaSq p.T) = L at *
  generalize barkasTerm c (z_eff_Pierce_Blann (n : ℝ) (beta_from_T p.T)) (etaSq p.T) t.Z = K at *
  generalize barkasTerm c (z_eff_Pierce_Blann ((n : ℝ) + 1) (beta_from_T p.T)) (etaSq p.T) t.Z = K' at *
  generalize z_eff_Pierce_Blann (n : ℝ) (beta_from_T p.T) = z at *
  generalize z_eff_Pierce_Blann ((n : ℝ) + 1) (beta_from_T p.T) = z' at *
  have B1 : 1.72 ≤ L * (1 + K) + l - d / 2 := by
    have : L * 1 ≤ L * (1 + K) := mul_le_mul_of_nonneg_left (by linarith) b1
    norm_num at lb d4 ⊢
    linarith
  have B2 : L * (1 + K) + l - d / 2 - (l - l') ≤ L * (1 + K') + l' - d / 2 := by
    have : L * (1 + K) ≤ L * (1 + K') := mul_le_mul_of_nonneg_left (by linarith) b1
    linarith
  have key := (bracket_step n (z ^ 2) (z' ^ 2) _ _ l l' hZ (sq_nonneg z) zq B1 ll B2).2 (by positivity)
  have hC : 0 < dedx_constant * (t.Z : ℝ) / (etaSq p.T / (1 + etaSq p.T) * t.A) := by
    have hc0 : (0 : ℝ) < dedx_constant := by norm_num [dedx_constant]
    have hz1 : (0 : ℝ) < t.Z := by linarith
    positivity
  have := mul_lt_mul_of_pos_left key hC
  calc _ = dedx_constant * (t.Z : ℝ) / (etaSq p.T / (1 + etaSq p.T) * t.A) * (z ^ 2 * (L * (1 + K) + l - d / 2)) := by ring
    _ < _ := this
    _ = _ := by ring

/-- The nuclear stopping of ions of neighbouring elements by one component. -/
theorem nuclear_element (debug : Bool) {p p' : Projectile ℝ} {n : Int} (hp : p.Ion n) (hp' : p'.Ion (n + 1)) (hn : n ≤ 107)
    (hA : (n : ℝ) ≤ p.A) (hA' : ((n : ℝ) + 1) ≤ p'.A) (hAA : p.A ≤ p'.A) (hT : p'.T = p.T) (h0 : 2 ≤ p.T)
    (t : Target ℝ) (tZ : 1 ≤ t.Z) (tZ' : t.Z ≤ 120) (tA : (t.Z : ℝ) ≤ t.A) :
    ∃ v v', dedx_n_target debug p t = .ok v ∧ dedx_n_target debug p' t = .ok v' ∧ v ≤ v' := by
  have htz : (1 : ℝ) ≤ t.Z := by exact_mod_cast tZ
  have htz' : (t.Z : ℝ) ≤ 120 := by exact_mod_cast tZ'
  have hZ : (1 : ℝ) ≤ n := by exact_mod_cast hp.pos
  have hZ' : (n : ℝ) ≤ 107 := by exact_mod_cast hn
  have B0 : 0 < t.A := by linarith
  have hT0 : 0 < p.T := by linarith
  have g1 := reduced_energy_large n t.Z p.A t.A p.T hZ (by linarith) htz htz' hA tA h0
  have g2 := reduced_energy_large (n + 1) t.Z p'.A t.A p.T (by linarith) (by linarith) htz htz' hA' tA h0
  have e1 := nuclear_target_value debug p t (by rw [hp.Z]; linarith) hp.A tZ B0 p.T hT0
  have e2 := nuclear_target_value debug p' t (by rw [hp'.Z]; push_cast; linarith) hp'.A tZ B0 p'.T (by linarith)
  refine ⟨_, _, e1, e2, ?_⟩
  rw [hT, hp.Z, hp'.Z, Int.cast_add, Int.cast_one]
  have n1 : (32.53 : ℝ) * t.A * 1000.0 = 32530 * t.A := by norm_num; ring
  have n2 : (0 : ℝ) < 100.0 * 8.4621 := by norm_num
  have hAv : (0 : ℝ) < Avogadro := by norm_num [Avogadro]
  rw [n1]
  clear e1 e2
  have z0 : (0 : ℝ) < n := by linarith
  have w1 := Real.rpow_pos_of_pos z0 0.23
  have w2 := Real.rpow_pos_of_pos (show (0 : ℝ) < t.Z by linarith) 0.23
  -- the screening grows at most as the charge number
  have hs : (n : ℝ) * (((n : ℝ) + 1) ^ (0.23 : ℝ) + (t.Z : ℝ) ^ (0.23 : ℝ)) ≤ (n + 1) * ((n : ℝ) ^ (0.23 : ℝ) + (t.Z : ℝ) ^ (0.23 : ℝ)) := by
    have e3 : ((n : ℝ) + 1) ^ (0.23 : ℝ) = (n : ℝ) ^ (0.23 : ℝ) * ((n + 1) / n) ^ (0.23 : ℝ) := by
      rw [← Real.mul_rpow z0.le (by positivity)]; congr 1; field_simp
    have e4 : (((n : ℝ) + 1) / n) ^ (0.23 : ℝ) ≤ (n + 1) / n := by
      calc _ ≤ (((n : ℝ) + 1) / n) ^ (1 : ℝ) := Real.rpow_le_rpow_of_exponent_le (by rw [one_le_div z0]; linarith) (by norm_num)
        _ = _ := Real.rpow_one _
    rw [e3]
    have e5 : (n : ℝ) * ((n : ℝ) ^ (0.23 : ℝ) * ((n + 1) / n) ^ (0.23 : ℝ)) ≤ (n + 1) * (n : ℝ) ^ (0.23 : ℝ) := by
      calc _ ≤ (n : ℝ) * ((n : ℝ) ^ (0.23 : ℝ) * ((n + 1) / n)) := by gcongr
        _ = _ := by field_simp
    have e6 : (n : ℝ) * (t.Z : ℝ) ^ (0.23 : ℝ) ≤ (n + 1) * (t.Z : ℝ) ^ (0.23 : ℝ) := mul_le_mul_of_nonneg_right (by linarith) w2.le
    linarith
  have s0 : 0 < (n : ℝ) ^ (0.23 : ℝ) + (t.Z : ℝ) ^ (0.23 : ℝ) := by linarith
  have s0' : 0 < ((n : ℝ) + 1) ^ (0.23 : ℝ) + (t.Z : ℝ) ^ (0.23 : ℝ) :=
    add_pos (Real.rpow_pos_of_pos (by linarith) _) w2
  have A0 := hp.A
  have A0' := hp'.A
  generalize (n : ℝ) ^ (0.23 : ℝ) + (t.Z : ℝ) ^ (0.23 : ℝ) = s at *
  generalize ((n : ℝ) + 1) ^ (0.23 : ℝ) + (t.Z : ℝ) ^ (0.23 : ℝ) = s' at *
  generalize (100.0 * 8.4621 : ℝ) = k at *
  generalize (Avogadro : ℝ) = N at *
  generalize (t.Z : ℝ) = b at *
  generalize (n : ℝ) = z at *
  generalize t.A = B at *
  generalize p.A = a at *
  generalize p'.A = a' at *
  generalize p.T = T at *
  exact nuclear_numbers k N z b B a a' s s' T n2 hAv hZ (by linarith) B0 A0 A0' hAA s0 s0' hT0 hs g1 g2

/-- A chain of neighbouring elements. -/
theorem element_chain (f : Projectile ℝ → M ℝ) (P : Int → Projectile ℝ → Prop) (R : Projectile ℝ → Projectile ℝ → Prop) (lt : ℝ → ℝ → Prop)
    (tr : ∀ x y z, lt x y → lt y z → lt x z) (top : Int)
    (mid : ∀ n n' p p', 1 ≤ n → n + 1 < n' → n' ≤ top → P n p → P n' p' → R p p' → ∃ q, P (n + 1) q ∧ R p q ∧ R q p')
    (step : ∀ n p p', 1 ≤ n → n + 1 ≤ top → P n p → P (n + 1) p' → R p p' → ∃ v v', f p = .ok v ∧ f p' = .ok v' ∧ lt v v')
    (d : Nat) : ∀ n p p', 1 ≤ n → n + 1 + d ≤ top → P n p → P (n + 1 + d) p' → R p p' → ∃ v v', f p = .ok v ∧ f p' = .ok v' ∧ lt v v' := by
  induction d with
  | zero =>
    intro n p p' h1 h2 h3 h4 h5
    exact step n p p' h1 (by simpa using h2) h3 (by simpa using h4) h5
  | succ d ih =>
    intro n p p' h1 h2 h3 h4 h5
    have e : n + 1 + ((d + 1 : Nat) : Int) = n + 1 + 1 + (d : Int) := by push_cast; ring
    rw [e] at h2 h4
    obtain ⟨q, hq, r1, r2⟩ := mid n _ p p' h1 (by omega) h2 h3 h4 h5
    obtain ⟨v, v1, g, g1, l⟩ := step n p q h1 (by omega) h3 hq r1
    obtain ⟨v1', v', g1', g', l'⟩ := ih (n + 1) q p' (by omega) h2 hq h4 r2
    rw [g1] at g1'
    rw [← Except.ok.inj g1'] at l'
    exact ⟨v, v', g, g', tr _ _ _ l l'⟩

/-- Two ions of different elements up to uranium, the second of the heavier element: each has at least as many nucleons as protons
and is at most three times as heavy as its element, and the second is not the lighter one. -/
structure HeavierElement (p p' : Projectile ℝ) (n n' : Int) : Prop where
  ion : p.Ion n
  ion' : p'.Ion n'
  order : n < n'
  uranium : n' ≤ 92
  nucleons : (n : ℝ) ≤ p.A
  nucleons' : (n' : ℝ) ≤ p'.A
  heavy : p.A ≤ 3 * element_atomic_weight n
  heavy' : p'.A ≤ 3 * element_atomic_weight n'
  mass : p.A ≤ p'.A

/-- **C135.** Between 30 and 1000 MeV/u, with the effective charge of Pierce and Blann, the ion of the heavier element is stopped
more strongly than the ion of the lighter element with the same velocity, in every material and with any corrections. -/
theorem heavier_element_stopping (env : Env ℝ) {p p' : Projectile ℝ} {n n' : Int} (h : HeavierElement p p' n n') {m : Material ℝ}
    (hm : m.Sound) (known : ∀ t ∈ m.atoms, t.Z ≤ 120) (nucl : m.Weighty) (hI : ∀ t ∈ m.atoms, TypicalI m.i_potential t.Z) (c : Config ℝ)
    (hc : c.z_effective = 1) (hT : p'.T = p.T) (h0 : 30 ≤ p.T) (h3 : p.T ≤ 1000) :
    ∃ v v', dedx env p m c = .ok v ∧ dedx env p' m c = .ok v' ∧ v < v' := by
  obtain ⟨d, hd⟩ : ∃ d : Nat, n' = n + 1 + d := ⟨(n' - n - 1).toNat, by have := h.order; omega⟩
  have hn' := h.uranium
  have h1 := h.ion.pos
  have B : ∀ t ∈ m.atoms, ∃ v v', bethek_dedx_e_target env p t c m.i_potential = .ok v ∧
      bethek_dedx_e_target env p' t c m.i_potential = .ok v' ∧ v < v' := by
    intro t ht
    refine element_chain (fun q => bethek_dedx_e_target env q t c m.i_potential)
      (fun k q => q.Ion k ∧ q.A ≤ 3 * element_atomic_weight k ∧ q.T = p.T) (fun _ _ => True) (· < ·) (fun _ _ _ => lt_trans) 92 ?_ ?_ d n p p'
      h1 (by omega) ⟨h.ion, h.heavy, rfl⟩ (by rw [← hd]; exact ⟨h.ion', h.heavy', hT⟩) trivial
    · intro k k' q q' k1 kk kt _ _ _
      have w := atomic_weight_pos (k + 1) (by omega) (by omega)
      exact ⟨⟨element_atomic_weight (k + 1), ((k + 1 : Int) : ℝ), 0, p.T⟩, ⟨⟨rfl, by omega, by push_cast; linarith, w⟩, by
        show element_atomic_weight (k + 1) ≤ 3 * element_atomic_weight (k + 1); linarith, rfl⟩, trivial, trivial⟩
    · rintro k q q' k1 kt ⟨i1, a1, t1⟩ ⟨i2, a2, t2⟩ -
      exact bethe_element env i1 i2 (by omega) a1 a2 (by rw [t1, t2]) (by rw [t1]; exact h0) (by rw [t1]; exact h3) t (hm.Z t ht) (hm.A t ht)
        c hc m.i_potential (hI t ht)
  have N : ∀ t ∈ m.atoms, ∃ v v', dedx_n_target env.debug p t = .ok v ∧ dedx_n_target env.debug p' t = .ok v' ∧ v ≤ v' := by
    intro t ht
    refine element_chain (fun q => dedx_n_target env.debug q t) (fun k q => q.Ion k ∧ (k : ℝ) ≤ q.A ∧ q.T = p.T) (fun q q' => q.A ≤ q'.A)
      (· ≤ ·) (fun _ _ _ => le_trans) 92 ?_ ?_ d n p p' h1 (by omega) ⟨h.ion, h.nucleons, rfl⟩
      (by rw [← hd]; exact ⟨h.ion', h.nucleons', hT⟩) h.mass
    · rintro k k' q q' k1 kk kt ⟨i1, a1, t1⟩ ⟨i2, a2, t2⟩ hqq
      have kk' : ((k + 1 : Int) : ℝ) ≤ k' := by exact_mod_cast kk.le
      have kp : (0 : ℝ) < ((k + 1 : Int) : ℝ) := by exact_mod_cast (by omega : 0 < k + 1)
      refine ⟨⟨max q.A ((k + 1 : Int) : ℝ), ((k + 1 : Int) : ℝ), 0, p.T⟩, ⟨⟨rfl, by omega, ?_, lt_max_of_lt_right kp⟩, le_max_right _ _, rfl⟩,
        le_max_left _ _, max_le hqq (kk'.trans a2)⟩
      push_cast; linarith
    · rintro k q q' k1 kt ⟨i1, a1, t1⟩ ⟨i2, a2, t2⟩ hqq
      exact nuclear_element env.debug i1 i2 (by omega) a1 (by push_cast at a2; exact a2) hqq (by rw [t1, t2]) (by rw [t1]; linarith) t
        (hm.Z t ht) (known t ht) (nucl t ht)
  choose! g g' e e' he using B
  choose! k k' u u' hu using N
  rw [dedx_high env p m c h0, dedx_high env p' m c (by linarith)]
  unfold dedx_n bethek_dedx_e
  rw [componentSum_ok m _ k u, componentSum_ok m _ k' u', componentSum_ok m _ g e, componentSum_ok m _ g' e']
  refine ⟨_, _, rfl, rfl, ?_⟩
  have a1 := map_sum_lt hm (fun t => g' t) (fun t => g t) he
  have a2 : (m.atoms.map fun t => m.wfrac t * k t).sum ≤ (m.atoms.map fun t => m.wfrac t * k' t).sum :=
    List.sum_le_sum fun t ht => mul_le_mul_of_nonneg_left (hu t ht) (m.wfrac_pos hm t ht).le
  linarith

theorem HeavierElement.withT {p p' : Projectile ℝ} {n n' : Int} (h : HeavierElement p p' n n') (x : ℝ) :
    HeavierElement (p.withT x) (p'.withT x) n n' :=
  ⟨⟨h.ion.Z, h.ion.pos, h.ion.int, h.ion.A⟩, ⟨h.ion'.Z, h.ion'.pos, h.ion'.int, h.ion'.A⟩, h.order, h.uranium, h.nucleons, h.nucleons',
    h.heavy, h.heavy', h.mass⟩

/-- C135 for the tables. -/
theorem heavier_element_table (env : Env ℝ) {p p' : Projectile ℝ} {n n' : Int} (h : HeavierElement p p' n n') {m : Material ℝ}
    (hm : m.Sound) (known : ∀ t ∈ m.atoms, t.Z ≤ 120) (nucl : m.Weighty) (hI : ∀ t ∈ m.atoms, TypicalI m.i_potential t.Z) (c : Config ℝ)
    (hc : c.z_effective = 1) (hC : Computable p n m c) (hC' : Computable p' n' m c) (hu : Usual p n m) (hu' : Usual p' n' m)
    (d d' : DataPoint ℝ) (hd : calculate_DataPoint env p m c = .ok d) (hd' : calculate_DataPoint env p' m c = .ok d') (i : Nat)
    (h0 : 30 ≤ (energy_table : EnergyTable ℝ).val i) (k : Nat) (hk : i + k < 600) (h3 : (energy_table : EnergyTable ℝ).val (i + k) ≤ 1000) :
    ∃ R R' S S', d.range[i]? = some R ∧ d.range[i + k]? = some R' ∧ d'.range[i]? = some S ∧ d'.range[i + k]? = some S' ∧
      (S' - S) / p'.A ≤ (R' - R) / p.A := by
  have A0 := h.ion.A
  have A0' := h.ion'.A
  have hb := energy_table_bounds
  have ord : ∀ k, (energy_table : EnergyTable ℝ).val k < (energy_table : EnergyTable ℝ).val (k + 1) :=
    fun k => (EnergyTable.val_lt_iff _ hb.1 hb.2.1 k (k + 1)).mpr (by omega)
  have key : ∀ k < 599, ∃ I J : ℝ,
      integrator.integrate (fdedx env p m c) ((energy_table : EnergyTable ℝ).val k) ((energy_table : EnergyTable ℝ).val (k + 1)) = .ok I ∧
      integrator.integrate (fdedx env p' m c) ((energy_table : EnergyTable ℝ).val k) ((energy_table : EnergyTable ℝ).val (k + 1)) = .ok J ∧
      (i ≤ k → (energy_table : EnergyTable ℝ).val (k + 1) ≤ 1000 → J ≤ I) := by
    intro k hk
    by_cases hik : i ≤ k ∧ (energy_table : EnergyTable ℝ).val (k + 1) ≤ 1000
    · have lo := (EnergyTable.val_le_iff (energy_table : EnergyTable ℝ) hb.1 hb.2.1 i k).mpr hik.1
      obtain ⟨J, I, hJ, hI', hIJ⟩ := integrator_le (fdedx env p' m c) (fdedx env p m c) _ _ (ord k) fun x hx => by
        obtain ⟨xk, xk', -, -, x0, hr⟩ := inner_grid k hk x hx
        obtain ⟨v, v', e1, e2, hvv⟩ := heavier_element_stopping env (h.withT x) hm known nucl hI c hc rfl (by show 30 ≤ x; linarith)
          (by show x ≤ 1000; linarith [hik.2])
        obtain ⟨u, e3, u0⟩ := stopping_positive_at env p n m c hC hu x x0 hr
        rw [e3] at e1
        cases e1
        refine ⟨1.0 / v', 1.0 / v, by unfold fdedx; rw [e2]; rfl, by unfold fdedx; rw [e3]; rfl, ?_⟩
        norm_num
        exact inv_anti₀ u0 hvv.le
      exact ⟨I, J, hI', hJ, fun _ _ => hIJ⟩
    · obtain ⟨I, hI'⟩ := integrator_defined (fdedx env p m c) _ _ (ord k).le fun x hx => by
        obtain ⟨-, -, -, -, x0, hr⟩ := inner_grid k hk x hx
        obtain ⟨v, e1, -⟩ := stopping_positive_at env p n m c hC hu x x0 hr
        exact ⟨1.0 / v, by unfold fdedx; rw [e1]; rfl⟩
      obtain ⟨J, hJ⟩ := integrator_defined (fdedx env p' m c) _ _ (ord k).le fun x hx => by
        obtain ⟨-, -, -, -, x0, hr⟩ := inner_grid k hk x hx
        obtain ⟨v, e1, -⟩ := stopping_positive_at env p' n' m c hC' hu' x x0 hr
        exact ⟨1.0 / v, by unfold fdedx; rw [e1]; rfl⟩
      exact ⟨I, J, hI', hJ, fun a b => absurd ⟨a, b⟩ hik⟩
  choose! I J hI' hJ hle using key
  obtain ⟨hl, -, hst⟩ := table_step p.A _ _ (data_point_parts env p m c d hd).1 I hI'
  obtain ⟨hl', -, hst'⟩ := table_step p'.A _ _ (data_point_parts env p' m c d' hd').1 J hJ
  refine ⟨d.range[i]'(by omega), d.range[i + k]'(by omega), d'.range[i]'(by omega), d'.range[i + k]'(by omega),
    List.getElem?_eq_getElem _, List.getElem?_eq_getElem _, List.getElem?_eq_getElem _, List.getElem?_eq_getElem _, ?_⟩
  induction k with
  | zero => simp
  | succ k ih =>
    have up := (ord (i + k)).le
    have ih := ih (by omega) (le_trans up h3)
    obtain ⟨a, b, ha, hb, e⟩ := hst (i + k) (by omega)
    obtain ⟨a', b', ha', hb', e'⟩ := hst' (i + k) (by omega)
    rw [List.getElem?_eq_getElem (by omega)] at ha hb ha' hb'
    have l := hle (i + k) (by omega) (by omega) h3
    have q1 : d.range[i + (k + 1)]'(by omega) = b := Option.some.inj hb
    have q2 : d'.range[i + (k + 1)]'(by omega) = b' := Option.some.inj hb'
    rw [Option.some.inj ha, Option.some.inj ha'] at ih
    rw [q1, q2]
    have f1 : ∀ x y z A : ℝ, 0 < A → y = x + A * z → ∀ w, (y - w) / A = (x - w) / A + z := by
      intro x y z A hA he w
      rw [he]; field_simp; ring
    rw [f1 a b (I (i + k)) p.A A0 (by linarith), f1 a' b' (J (i + k)) p'.A A0' (by linarith)]
    exact add_le_add ih l

/-- C135 for the ranges: slowed down between two energies of the table from 30 to 1000 MeV/u the ion of the heavier element comes less
far in relation to its mass. For isobars (equal masses) it comes less far. -/
theorem heavier_element_range (env : Env ℝ) {p p' : Projectile ℝ} {n n' : Int} (h : HeavierElement p p' n n') {m : Material ℝ}
    (hm : m.Sound) (known : ∀ t ∈ m.atoms, t.Z ≤ 120) (nucl : m.Weighty) (hI : ∀ t ∈ m.atoms, TypicalI m.i_potential t.Z) (c : Config ℝ)
    (hc : c.z_effective = 1) (hk : NonDefault p m c) (hk' : NonDefault p' m c)
    (i j : Nat) (hij : i < j) (hj : j < 600) (h0 : 30 ≤ (energy_table : EnergyTable ℝ).val i) (h3 : (energy_table : EnergyTable ℝ).val j ≤ 1000)
    (w1 w2 w3 w4 : World ℝ) (hw1 : ReachableW env w1) (hw2 : ReachableW env w2) (hw3 : ReachableW env w3) (hw4 : ReachableW env w4) :
    ∃ R1 R2 S1 S2, (Call.range (p.withT ((energy_table : EnergyTable ℝ).val i)) m c).respond env w1 = .ok (.num R1) ∧
      (Call.range (p.withT ((energy_table : EnergyTable ℝ).val j)) m c).respond env w2 = .ok (.num R2) ∧
      (Call.range (p'.withT ((energy_table : EnergyTable ℝ).val i)) m c).respond env w3 = .ok (.num S1) ∧
      (Call.range (p'.withT ((energy_table : EnergyTable ℝ).val j)) m c).respond env w4 = .ok (.num S2) ∧
      S1 < S2 ∧ (S2 - S1) / p'.A ≤ (R2 - R1) / p.A := by
  have w : ∀ k, 1 ≤ k → k ≤ 92 → (0 : ℝ) < element_atomic_weight k := fun k a b => atomic_weight_pos k a (by omega)
  have ho := h.order
  have hur := h.uranium
  have hC : Computable p n m c := ⟨h.ion, by omega, hm, known, Or.inl hc⟩
  have hC' : Computable p' n' m c := ⟨h.ion', by omega, hm, known, Or.inl hc⟩
  have hu : Usual p n m := ⟨by have := w n h.ion.pos (by omega); have := h.heavy; linarith, hI⟩
  have hu' : Usual p' n' m := ⟨by have := w n' h.ion'.pos (by omega); have := h.heavy'; linarith, hI⟩
  obtain ⟨d, hd, hres⟩ := ranges_of_table env p n m c hC hk
  obtain ⟨d', hd', hres'⟩ := ranges_of_table env p' n' m c hC' hk'
  obtain ⟨k, rfl⟩ : ∃ k, j = i + k := ⟨j - i, by omega⟩
  obtain ⟨R1, R2, S1, S2, f1, f2, f3, f4, hle⟩ := heavier_element_table env h hm known nucl hI c hc hC hC' hu hu' d d' hd hd' i h0 k hj h3
  refine ⟨R1, R2, S1, S2, hres w1 hw1 _ (by omega) _ f1, hres w2 hw2 _ hj _ f2, hres' w3 hw3 _ (by omega) _ f3, hres' w4 hw4 _ hj _ f4, ?_, hle⟩
  obtain ⟨d1, hd1, hlen, -, hpw⟩ := range_table_strict env p' n' m c hC' hu'
  rw [hd'] at hd1
  cases hd1
  rw [List.getElem?_eq_getElem (by omega)] at f3 f4
  have := List.pairwise_iff_getElem.mp hpw i (i + k) (by omega) (by omega) hij
  rwa [Option.some.inj f3, Option.some.inj f4] at this

/-- Carbon and oxygen ions in water. -/
theorem carbon_oxygen : HeavierElement (⟨12, 6, 6, 0⟩ : Projectile ℝ) ⟨16, 8, 8, 0⟩ 6 8 := by
  have w6 : (element_atomic_weight 6 : ℝ) = (Dec.toScalar ⟨120107, 4⟩ : ℝ) := rfl
  have w8 : (element_atomic_weight 8 : ℝ) = (Dec.toScalar ⟨159994, 4⟩ : ℝ) := rfl
  rw [Dec.toScalar_real] at w6 w8
  refine ⟨⟨by norm_num, by norm_num, by norm_num, by norm_num⟩, ⟨by norm_num, by norm_num, by norm_num, by norm_num⟩, by norm_num,
    by norm_num, by norm_num, by norm_num, ?_, ?_, by norm_num⟩
  · rw [w6]; norm_num
  · rw [w8]; norm_num

example (env : Env ℝ) (T : ℝ) (h0 : 30 ≤ T) (h3 : T ≤ 1000) : ∃ v v',
    dedx env ⟨12, 6, 6, T⟩ (⟨1, 1, 18.015, 0, [⟨1.00794, 1, 2⟩, ⟨15.9994, 8, 1⟩]⟩ : Material ℝ) .default = .ok v ∧
    dedx env ⟨16, 8, 8, T⟩ (⟨1, 1, 18.015, 0, [⟨1.00794, 1, 2⟩, ⟨15.9994, 8, 1⟩]⟩ : Material ℝ) .default = .ok v' ∧ v < v' := by
  obtain ⟨hc, hu⟩ := carbon_water_usual 0 100
  refine heavier_element_stopping env (carbon_oxygen.withT T) hc.sound hc.known ?_ hu.excitation .default rfl rfl h0 h3
  simp [Material.Weighty]
  norm_num

example (env : Env ℝ) (w : World ℝ) (hw : ReachableW env w) (i j : Nat) (hij : i < j) (hj : j < 600)
    (h0 : 30 ≤ (energy_table : EnergyTable ℝ).val i) (h3 : (energy_table : EnergyTable ℝ).val j ≤ 1000) : ∃ R1 R2 S1 S2,
      (Call.range (⟨12, 6, 6, (energy_table : EnergyTable ℝ).val i⟩ : Projectile ℝ) ⟨1, 1, 18.015, 0, [⟨1.00794, 1, 2⟩, ⟨15.9994, 8, 1⟩]⟩
        .default).respond env w = .ok (.num R1) ∧
      (Call.range (⟨12, 6, 6, (energy_table : EnergyTable ℝ).val j⟩ : Projectile ℝ) ⟨1, 1, 18.015, 0, [⟨1.00794, 1, 2⟩, ⟨15.9994, 8, 1⟩]⟩
        .default).respond env w = .ok (.num R2) ∧
      (Call.range (⟨16, 8, 8, (energy_table : EnergyTable ℝ).val i⟩ : Projectile ℝ) ⟨1, 1, 18.015, 0, [⟨1.00794, 1, 2⟩, ⟨15.9994, 8, 1⟩]⟩
        .default).respond env w = .ok (.num S1) ∧
      (Call.range (⟨16, 8, 8, (energy_table : EnergyTable ℝ).val j⟩ : Projectile ℝ) ⟨1, 1, 18.015, 0, [⟨1.00794, 1, 2⟩, ⟨15.9994, 8, 1⟩]⟩
        .default).respond env w = .ok (.num S2) ∧ S1 < S2 ∧ (S2 - S1) / 16 ≤ (R2 - R1) / 12 := by
  have hk : ∀ (A Z : ℝ) (m : Material ℝ), 2 < A → NonDefault ⟨A, Z, Z, 0⟩ m .default := by
    intro A Z m hA
    simp only [NonDefault, Key.eq, Key.default, Projectile.eq, Projectile.default]
    simp
    intro h
    linarith
  obtain ⟨hc, hu⟩ := carbon_water_usual 0 100
  refine heavier_element_range env carbon_oxygen hc.sound hc.known ?_ hu.excitation .default rfl (hk _ _ _ (by norm_num)) (hk _ _ _ (by norm_num))
    i j hij hj h0 h3 w w w w hw hw hw hw
  simp [Material.Weighty]
  norm_num

end Catima
