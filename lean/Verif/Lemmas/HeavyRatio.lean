import Verif.Lemmas.HeavyCharge
import Verif.Lemmas.IonRatio

/-!
# Helper lemmas: the two models of the stopping power for ions from nickel to uranium between 10 and 32.5 MeV/u
-/

namespace Catima

def lsHeavyRows : Bool :=
  (List.range 92).all fun r => Nat.ble 27 r == false || match ls_coefficients_a[r]?, ls_coefficients_ahi[r]? with
    | some a, some h => lsRowIn 205500000000 28 17 a h && lsRowIn 177600000000 34 11 a h &&
        (Nat.ble 60 r || lsRowIn 163300000000 28 17 a h && lsRowIn 136200000000 34 11 a h)
    | _, _ => false

theorem ls_heavy_rows : lsHeavyRows = true := by decide +kernel

/-- The correction of Lindhard and Sørensen for the ions from nickel to uranium. -/
theorem lindhard_heavy (ci : Bool) {p : Projectile ℝ} {n : Int} (hp : p.Ion n) (h28 : 28 ≤ n) (hn : n ≤ 92)
    (hA : p.A ≤ 3 * element_atomic_weight n) (h0 : 10 ≤ p.T) (h1 : p.T ≤ 32.5) (hT : LindhardReadable p.T) :
    ∃ v, precalculated_lindhard ci p = .ok v ∧ -2.056 ≤ v ∧ (16 ≤ p.T → -1.777 ≤ v) ∧ (n ≤ 60 → -1.634 ≤ v) ∧
      (n ≤ 60 → 16 ≤ p.T → -1.363 ≤ v) ∧ v ≤ 0.004 := by
  have rows : ∀ r : Nat, (r : Int) = n - 1 → (hr : r < 108) →
      (lsRowIn 205500000000 28 17 (ls_coefficients_a[r]'(by rw [ls_lengths.1]; exact hr)) (ls_coefficients_ahi[r]'(by rw [ls_lengths.2.1]; exact hr)) = true ∧
      lsRowIn 177600000000 34 11 (ls_coefficients_a[r]'(by rw [ls_lengths.1]; exact hr)) (ls_coefficients_ahi[r]'(by rw [ls_lengths.2.1]; exact hr)) = true) ∧
      (n ≤ 60 → lsRowIn 163300000000 28 17 (ls_coefficients_a[r]'(by rw [ls_lengths.1]; exact hr)) (ls_coefficients_ahi[r]'(by rw [ls_lengths.2.1]; exact hr)) = true ∧
      lsRowIn 136200000000 34 11 (ls_coefficients_a[r]'(by rw [ls_lengths.1]; exact hr)) (ls_coefficients_ahi[r]'(by rw [ls_lengths.2.1]; exact hr)) = true) := by
    intro r hr hr'
    have h := ls_heavy_rows
    unfold lsHeavyRows at h
    rw [List.all_eq_true] at h
    have h := h r (List.mem_range.mpr (by omega))
    rw [List.getElem?_eq_getElem (by rw [ls_lengths.1]; exact hr'), List.getElem?_eq_getElem (by rw [ls_lengths.2.1]; exact hr')] at h
    simp only [Bool.or_eq_true, beq_iff_eq, Bool.and_eq_true] at h
    rcases h with h | ⟨h, h'⟩
    · rw [Nat.ble_eq_true_of_le (by omega)] at h; cases h
    · refine ⟨h, fun h60 => ?_⟩
      rcases h' with h' | h'
      · have := Nat.le_of_ble_eq_true h'
        omega
      · exact h'
  obtain ⟨v, hv, v0, v1⟩ := lindhard_range ci hp (by omega) hA 205500000000 28 17 (Or.inl ⟨rfl, rfl⟩) (fun r hr hr' => (rows r hr hr').1.1) h0 h1 hT
  refine ⟨v, hv, by norm_num at v0 ⊢; linarith, fun h16 => ?_, fun h60 => ?_, fun h60 h16 => ?_, v1⟩
  · obtain ⟨w, hw, w0, -⟩ := lindhard_range ci hp (by omega) hA 177600000000 34 11 (Or.inr ⟨rfl, rfl, h16⟩) (fun r hr hr' => (rows r hr hr').1.2) h0 h1 hT
    rw [hv] at hw
    injection hw with hw
    rw [hw]
    norm_num at w0 ⊢; linarith
  · obtain ⟨w, hw, w0, -⟩ := lindhard_range ci hp (by omega) hA 163300000000 28 17 (Or.inl ⟨rfl, rfl⟩) (fun r hr hr' => ((rows r hr hr').2 h60).1) h0 h1 hT
    rw [hv] at hw
    injection hw with hw
    rw [hw]
    norm_num at w0 ⊢; linarith
  · obtain ⟨w, hw, w0, -⟩ := lindhard_range ci hp (by omega) hA 136200000000 34 11 (Or.inr ⟨rfl, rfl, h16⟩) (fun r hr hr' => ((rows r hr hr').2 h60).2) h0 h1 hT
    rw [hv] at hw
    injection hw with hw
    rw [hw]
    norm_num at w0 ⊢; linarith

/-- The Barkas correction as a formula. -/
theorem barkas_formula (z s zt : ℝ) (h0 : 0.021586 ≤ s) (hzt : 1 ≤ zt) (hzt' : zt ≤ 120) :
    1 ≤ √s / (fine_structure * √zt) ∧ 0 < √zt ∧
    bethek_barkas z (√s) zt - 1 = 2 * z * fine_structure ^ 2 * (√zt * barkasF (√s / (fine_structure * √zt))) / s := by
  have ha : (0 : ℝ) < fine_structure := by norm_num [fine_structure]
  have sp : 0 < s := lt_of_lt_of_le (by norm_num) h0
  have w0 : 0 < √zt := Real.sqrt_pos.mpr (by linarith)
  have g0 : 0 < √s := Real.sqrt_pos.mpr sp
  have g2 : √s * √s = s := Real.mul_self_sqrt sp.le
  have w11 : √zt ≤ 10.9545 := by
    rw [Real.sqrt_le_left (by norm_num)]; norm_num; linarith
  have hv1 : 1 ≤ √s / (fine_structure * √zt) := by
    rw [le_div_iff₀ (by positivity)]
    have : (0.1463 : ℝ) ≤ √s := by apply Real.le_sqrt_of_sq_le; norm_num at h0 ⊢; linarith
    calc 1 * (fine_structure * √zt) ≤ 1 * (fine_structure * 10.9545) := by gcongr
      _ ≤ 0.1463 := by norm_num [fine_structure]
      _ ≤ _ := this
  have den : √s / (fine_structure * √zt) * (√s / (fine_structure * √zt)) * √zt = s / (fine_structure ^ 2 * √zt) := by
    field_simp
    rw [sq, g2]
  refine ⟨hv1, w0, ?_⟩
  rw [barkas_eq z _ zt hv1, den, add_sub_cancel_left]
  generalize barkasF (√s / (fine_structure * √zt)) = B
  field_simp

theorem barkas_low (z z0 s s1 zt r V f : ℝ) (h0 : 0.021586 ≤ s) (h1 : s ≤ s1) (hzt : 1 ≤ zt) (hzt' : zt ≤ 120) (hr0 : 0 < r) (hr : r ^ 2 ≤ zt)
    (hV0 : 0 ≤ V) (hV : s1 ≤ (V * fine_structure) ^ 2) (f0 : 0 ≤ f) (hf : f ≤ barkasF (V / r)) (z00 : 0 ≤ z0) (hz : z0 ≤ z) :
    2 * z0 * fine_structure ^ 2 / s1 * (r * f) ≤ bethek_barkas z (√s) zt - 1 := by
  obtain ⟨v1, w0, e⟩ := barkas_formula z s zt h0 hzt hzt'
  rw [e]
  have ha : (0 : ℝ) < fine_structure := by norm_num [fine_structure]
  have sp : 0 < s := lt_of_lt_of_le (by norm_num) h0
  have rw' : r ≤ √zt := Real.le_sqrt_of_sq_le hr
  have sV : √s ≤ V * fine_structure := by
    rw [Real.sqrt_le_left (by positivity)]
    exact h1.trans hV
  have le : √s / (fine_structure * √zt) ≤ V / r := by
    rw [div_le_div_iff₀ (by positivity) hr0]
    calc √s * r ≤ V * fine_structure * √zt := mul_le_mul sV rw' hr0.le (by positivity)
      _ = _ := by ring
  have fb := hf.trans (barkasF_step _ _ v1 le).2.1
  have k1 : r * f ≤ √zt * barkasF (√s / (fine_structure * √zt)) := mul_le_mul rw' fb f0 w0.le
  have k2 : 2 * z0 * fine_structure ^ 2 ≤ 2 * z * fine_structure ^ 2 := by gcongr
  have k3 : 0 ≤ 2 * z0 * fine_structure ^ 2 := by positivity
  have rf : 0 ≤ r * f := by positivity
  calc 2 * z0 * fine_structure ^ 2 / s1 * (r * f) = 2 * z0 * fine_structure ^ 2 * (r * f) / s1 := by ring
    _ ≤ 2 * z0 * fine_structure ^ 2 * (r * f) / s := by gcongr
    _ ≤ _ := div_le_div_of_nonneg_right (mul_le_mul k2 k1 rf (k3.trans k2)) sp.le

theorem barkas_high (z s s0 zt R V f : ℝ) (h0 : 0.021586 ≤ s0) (h1 : s0 ≤ s) (hzt : 1 ≤ zt) (hzt' : zt ≤ 120) (hR0 : 0 ≤ R) (hR : zt ≤ R ^ 2)
    (hV1 : 1 ≤ V) (hV : (V * (fine_structure * R)) ^ 2 ≤ s0) (hf : barkasF V ≤ f) (z0 : 0 ≤ z) :
    0 ≤ bethek_barkas z (√s) zt - 1 ∧ bethek_barkas z (√s) zt - 1 ≤ 2 * fine_structure ^ 2 * (R * f) / s0 * z := by
  obtain ⟨v1, w0, e⟩ := barkas_formula z s zt (h0.trans h1) hzt hzt'
  rw [e]
  have ha : (0 : ℝ) < fine_structure := by norm_num [fine_structure]
  have s0p : 0 < s0 := lt_of_lt_of_le (by norm_num) h0
  have sp : 0 < s := s0p.trans_le h1
  have wR : √zt ≤ R := by rw [Real.sqrt_le_left hR0]; exact hR
  have sV : V * (fine_structure * R) ≤ √s := Real.le_sqrt_of_sq_le (hV.trans h1)
  have le : V ≤ √s / (fine_structure * √zt) := by
    rw [le_div_iff₀ (by positivity)]
    refine le_trans ?_ sV
    gcongr
  obtain ⟨b0, b1, -⟩ := barkasF_step _ _ hV1 le
  have fb := b1.trans hf
  have k1 : √zt * barkasF (√s / (fine_structure * √zt)) ≤ R * f := mul_le_mul wR fb b0.le hR0
  have k0 : 0 ≤ √zt * barkasF (√s / (fine_structure * √zt)) := by positivity
  refine ⟨by positivity, ?_⟩
  calc 2 * z * fine_structure ^ 2 * (√zt * barkasF (√s / (fine_structure * √zt))) / s
      ≤ 2 * z * fine_structure ^ 2 * (R * f) / s := by gcongr
    _ ≤ 2 * z * fine_structure ^ 2 * (R * f) / s0 := by
        have : 0 ≤ R * f := k0.trans k1
        gcongr
    _ = _ := by ring

/-- A lower bound of the tabulated function of the Barkas correction, in rational numbers. -/
def bfLow (v f : ℚ) : Bool :=
  if v ≤ 2 then decide (f ≤ 36 / 100 - 3 / 100 * v) else if v ≤ 3 then decide (f ≤ 38 / 100 - 4 / 100 * v)
  else if v < 4 then decide (f ≤ 35 / 100 - 3 / 100 * v) else decide (0 ≤ f ∧ f ^ 2 * v ≤ 2025 / 10000)

theorem bfLow_le (v f : ℚ) (h : bfLow v f = true) : (f : ℝ) ≤ barkasF v := by
  unfold bfLow at h
  unfold barkasF
  split at h
  · rename_i h2
    have h2' : (v : ℝ) ≤ 2 := by exact_mod_cast h2
    rw [if_neg (by linarith), if_pos h2']
    have := (Rat.cast_le (K := ℝ)).mpr (of_decide_eq_true h)
    push_cast at this
    norm_num at this ⊢
    linarith
  · rename_i h2
    have h2' : ¬ (v : ℝ) ≤ 2 := by exact_mod_cast h2
    split at h
    · rename_i h3
      have h3' : (v : ℝ) ≤ 3 := by exact_mod_cast h3
      rw [if_neg (by linarith), if_neg h2', if_pos h3']
      have := (Rat.cast_le (K := ℝ)).mpr (of_decide_eq_true h)
      push_cast at this
      norm_num at this ⊢
      linarith
    · rename_i h3
      have h3' : ¬ (v : ℝ) ≤ 3 := by exact_mod_cast h3
      split at h
      · rename_i h4
        have h4' : (v : ℝ) < 4 := by exact_mod_cast h4
        rw [if_neg (by linarith), if_neg h2', if_neg h3']
        have := (Rat.cast_le (K := ℝ)).mpr (of_decide_eq_true h)
        push_cast at this
        norm_num at this ⊢
        linarith
      · rename_i h4
        have h4' : (4 : ℝ) ≤ v := by exact_mod_cast not_lt.mp h4
        rw [if_pos h4']
        obtain ⟨f0, hf⟩ := of_decide_eq_true h
        have f0' : (0 : ℝ) ≤ f := by exact_mod_cast f0
        have := (Rat.cast_le (K := ℝ)).mpr hf
        push_cast at this
        have rv : 0 < √(v : ℝ) := Real.sqrt_pos.mpr (by linarith)
        rw [le_div_iff₀ rv]
        have sq : ((f : ℝ) * √(v : ℝ)) ^ 2 ≤ 0.45 ^ 2 := by
          rw [mul_pow, Real.sq_sqrt (by linarith)]
          norm_num at this ⊢
          linarith
        exact le_of_pow_le_pow_left₀ (by norm_num) (by norm_num) sq

/-- The polynomial of the shell correction up to 16 MeV/u. -/
theorem shellPoly_low (t y : ℝ) (ht : 0 ≤ t) (ht' : t ≤ 0.892) (hy : 28.86 ≤ y) (hy' : y ≤ 46.6) :
    shellPoly t y ≤ 47.3 - 10 * t ∧ (t ≤ 0.55 → shellPoly t y ≤ 47.3 - 22 * t) := by
  have e0 : 0.422377 * y + 0.0304043 * y ^ 2 - 0.00038106 * y ^ 3 ≤ 47.3 := by
    norm_num at *
    nlinarith [mul_nonneg (sub_nonneg.mpr hy) (sub_nonneg.mpr hy'), mul_nonneg (mul_nonneg (sub_nonneg.mpr hy) (sub_nonneg.mpr hy)) (sub_nonneg.mpr hy')]
  have e1 : 0.422377 * y + 0.0304043 * y ^ 2 - 0.00038106 * y ^ 3 + 0.892 * (3.858019 * y - 0.1667989 * y ^ 2 + 0.00157955 * y ^ 3) ≤ 47.3 - 10 * 0.892 := by
    norm_num at *
    nlinarith [mul_nonneg (sub_nonneg.mpr hy) (sub_nonneg.mpr hy'), mul_nonneg (mul_nonneg (sub_nonneg.mpr hy) (sub_nonneg.mpr hy)) (sub_nonneg.mpr hy'),
      mul_nonneg (mul_nonneg (sub_nonneg.mpr hy) (sub_nonneg.mpr hy')) (sub_nonneg.mpr hy')]
  have e2 : 0.422377 * y + 0.0304043 * y ^ 2 - 0.00038106 * y ^ 3 + 0.55 * (3.858019 * y - 0.1667989 * y ^ 2 + 0.00157955 * y ^ 3) ≤ 47.3 - 22 * 0.55 := by
    norm_num at *
    nlinarith [mul_nonneg (sub_nonneg.mpr hy) (sub_nonneg.mpr hy'), mul_nonneg (sub_nonneg.mpr hy') (sq_nonneg (y - 36)),
      mul_nonneg (sub_nonneg.mpr hy') (sq_nonneg (y - 38)), mul_nonneg (sub_nonneg.mpr hy') (sq_nonneg (y - 37))]
  unfold shellPoly
  generalize 0.422377 * y + 0.0304043 * y ^ 2 - 0.00038106 * y ^ 3 = a at *
  generalize 3.858019 * y - 0.1667989 * y ^ 2 + 0.00157955 * y ^ 3 = b at *
  constructor
  · norm_num at *
    nlinarith
  · intro h
    norm_num at *
    nlinarith

/-- The polynomial of the shell correction above 16 MeV/u. -/
theorem shellPoly_high (t y : ℝ) (ht : 0 ≤ t) (ht' : t ≤ 0.892) (hy : 0 ≤ y) (hy' : y ≤ 28.87) : shellPoly t y ≤ 28.6 + 12.5 * t := by
  have e0 : 0.422377 * y + 0.0304043 * y ^ 2 - 0.00038106 * y ^ 3 ≤ 28.6 := by
    norm_num at *
    nlinarith [mul_nonneg hy (sub_nonneg.mpr hy'), mul_nonneg (mul_nonneg hy hy) (sub_nonneg.mpr hy')]
  have e1 : 0.422377 * y + 0.0304043 * y ^ 2 - 0.00038106 * y ^ 3 + 0.892 * (3.858019 * y - 0.1667989 * y ^ 2 + 0.00157955 * y ^ 3) ≤ 28.6 + 12.5 * 0.892 := by
    norm_num at *
    nlinarith [sq_nonneg (y - 23.5), mul_nonneg hy (sq_nonneg (y - 23.5)), mul_nonneg (sub_nonneg.mpr hy') (sq_nonneg (y - 23.5))]
  unfold shellPoly
  generalize 0.422377 * y + 0.0304043 * y ^ 2 - 0.00038106 * y ^ 3 = a at *
  generalize 3.858019 * y - 0.1667989 * y ^ 2 + 0.00157955 * y ^ 3 = b at *
  norm_num at *
  nlinarith

/-- The largest shell correction of a target, in terms of a bound of its mean excitation energy in keV. -/
def shellTop {K : Type} [Field K] (low : Bool) (τ Z : K) : K := τ ^ 2 * (473 / 10 - (if low then 22 else 10) * τ) / Z
def shellTop' {K : Type} [Field K] (τ Z : K) : K := τ ^ 2 * (286 / 10 + 125 / 10 * τ) / Z

theorem shell_top (c t τ Z y : ℝ) (hZ : 0 < Z) (hc : c ≤ t ^ 2 / Z) (t0 : 0 ≤ t) (ht : t ≤ τ) (hτ : τ ≤ 0.892) (y0 : 0 < y) (hy' : y ≤ 46.6) :
    (28.86 ≤ y → c * shellPoly t y ≤ shellTop false τ Z) ∧ (28.86 ≤ y → τ ≤ 0.55 → c * shellPoly t y ≤ shellTop true τ Z) ∧
      (y ≤ 28.87 → c * shellPoly t y ≤ shellTop' τ Z) := by
  have t1 : t ≤ 0.892 := ht.trans hτ
  have p0 := shellPoly_nonneg t y t0 (t1.trans (by norm_num)) y0.le hy'
  have tp : 0 ≤ t ^ 2 / Z := by positivity
  have fin : ∀ {g G : ℝ}, shellPoly t y ≤ g → t ^ 2 * g ≤ G → c * shellPoly t y ≤ G / Z := by
    intro g G hg hG
    calc c * shellPoly t y ≤ t ^ 2 / Z * g := mul_le_mul hc hg p0 tp
      _ = t ^ 2 * g / Z := by ring
      _ ≤ _ := div_le_div_of_nonneg_right hG hZ.le
  have τ0 : 0 ≤ τ := t0.trans ht
  unfold shellTop shellTop'
  refine ⟨fun hy => ?_, fun hy h55 => ?_, fun hy => ?_⟩
  · refine fin (shellPoly_low t y t0 t1 hy hy').1 ?_
    norm_num at *
    nlinarith [mul_nonneg t0 τ0, mul_nonneg (mul_nonneg t0 τ0) (sub_nonneg.mpr ht), mul_nonneg (sub_nonneg.mpr ht) t0, mul_nonneg (sub_nonneg.mpr ht) τ0,
      mul_nonneg (mul_nonneg (sub_nonneg.mpr ht) t0) (sub_nonneg.mpr hτ), mul_nonneg (mul_nonneg (sub_nonneg.mpr ht) τ0) (sub_nonneg.mpr hτ),
      mul_nonneg (mul_nonneg (sub_nonneg.mpr ht) t0) t0]
  · refine fin ((shellPoly_low t y t0 t1 hy hy').2 (ht.trans h55)) ?_
    norm_num at *
    nlinarith [mul_nonneg t0 τ0, mul_nonneg (mul_nonneg t0 τ0) (sub_nonneg.mpr ht), mul_nonneg (sub_nonneg.mpr ht) t0, mul_nonneg (sub_nonneg.mpr ht) τ0,
      mul_nonneg (mul_nonneg (sub_nonneg.mpr ht) t0) (sub_nonneg.mpr h55), mul_nonneg (mul_nonneg (sub_nonneg.mpr ht) τ0) (sub_nonneg.mpr h55),
      mul_nonneg (mul_nonneg (sub_nonneg.mpr ht) t0) (sub_nonneg.mpr ht), mul_nonneg (mul_nonneg (sub_nonneg.mpr ht) t0) t0]
  · refine fin (shellPoly_high t y t0 t1 y0.le hy) ?_
    have := pow_le_pow_left₀ t0 ht 2
    have := pow_le_pow_left₀ t0 ht 3
    norm_num at *
    nlinarith

theorem log_const_heavy : 18.612 ≤ Real.log (1021997.856 ^ 2 / 8620) := by
  rw [Real.le_log_iff_exp_le (by norm_num)]
  have h := exp_at' 930 119653800 (by decide +kernel)
  have e : (((930 : Int) : ℝ)) / 50 = 18.6 := by norm_num
  rw [e] at h
  have q := exp_le_quartic' 0.012 (by norm_num) (by norm_num)
  rw [show (18.612 : ℝ) = 18.6 + 0.012 by norm_num, Real.exp_add]
  refine (mul_le_mul h q (Real.exp_pos _).le (by norm_num)).trans ?_
  norm_num

theorem log_band_low (s : ℝ) (h : 0.021586 ≤ s) : -3.836 ≤ Real.log s := by
  have sp : 0 < s := lt_of_lt_of_le (by norm_num) h
  rw [Real.le_log_iff_exp_le sp]
  refine le_trans ?_ h
  have h1 := exp_at 191 45.604 (by decide +kernel)
  have e : (((191 : Int) : ℝ)) / 50 = 3.82 := by norm_num
  rw [e] at h1
  have h4 := Real.quadratic_le_exp_of_nonneg (show (0 : ℝ) ≤ 0.016 by norm_num)
  have e5 : (46.33 : ℝ) ≤ Real.exp 3.836 := by
    rw [show (3.836 : ℝ) = 3.82 + 0.016 by norm_num, Real.exp_add]
    refine le_trans ?_ (mul_le_mul h1 h4 (by norm_num) (Real.exp_pos _).le)
    norm_num
  rw [Real.exp_neg, inv_eq_one_div]
  exact (one_div_le_one_div_of_le (by norm_num) e5).trans (by norm_num)

theorem log_band_high (s : ℝ) (h : 0.034648 ≤ s) : -3.363 ≤ Real.log s := by
  have sp : 0 < s := lt_of_lt_of_le (by norm_num) h
  rw [Real.le_log_iff_exp_le sp]
  refine le_trans ?_ h
  have h1 := exp_at 168 28.789 (by decide +kernel)
  have e : (((168 : Int) : ℝ)) / 50 = 3.36 := by norm_num
  rw [e] at h1
  have h4 := Real.add_one_le_exp (0.003 : ℝ)
  have e5 : (28.87 : ℝ) ≤ Real.exp 3.363 := by
    rw [show (3.363 : ℝ) = 3.36 + 0.003 by norm_num, Real.exp_add]
    refine le_trans ?_ (mul_le_mul h1 h4 (by norm_num) (Real.exp_pos _).le)
    norm_num
  rw [Real.exp_neg, inv_eq_one_div]
  exact (one_div_le_one_div_of_le (by norm_num) e5).trans (by norm_num)

/-- Lower bounds of the Bethe logarithm for a mean excitation energy with `I² ≤ 8620 Z`. -/
theorem betheLog_heavy (c I x Z τ u : ℝ) (hZ : 1 ≤ Z) (hc : c ≤ I ^ 2 / Z / 1000000) (hI : 10 ≤ I) (hIZ : I ^ 2 ≤ 8620 * Z)
    (hτ : I ≤ 1000 * τ) (hτ' : τ ≤ 0.892) (hu : Real.log Z ≤ u) (h0 : 10 ≤ x) (h1 : x ≤ 32.5) :
    (x ≤ 16 → 5.436 - u / 2 - shellTop false τ Z ≤ betheLog c I (etaSq x)) ∧
    (x ≤ 16 → τ ≤ 0.55 → 5.436 - u / 2 - shellTop true τ Z ≤ betheLog c I (etaSq x)) ∧
    (16 ≤ x → 5.876 - u / 2 - shellTop' τ Z ≤ betheLog c I (etaSq x)) := by
  obtain ⟨s0, s1, s2, s3⟩ := etaSq_bands x h0 h1
  have sp : 0 < etaSq x := lt_of_lt_of_le (by norm_num) s0
  have I0 : 0 < I := by linarith
  have y46 : (etaSq x)⁻¹ ≤ 46.6 := by
    rw [inv_eq_one_div]
    exact (one_div_le_one_div_of_le (by norm_num) s0).trans (by norm_num)
  obtain ⟨S1, S2, S3⟩ := shell_top c (I / 1000) τ Z (etaSq x)⁻¹ (by linarith) (by rw [div_pow]; refine hc.trans (le_of_eq ?_); norm_num; ring)
    (by positivity) (by linarith) hτ' (by positivity) y46
  have a1 : 9.306 - u / 2 ≤ Real.log (1021997.856 / I) := by
    have l1 : Real.log (1021997.856 / I) = Real.log 1021997.856 - Real.log I := Real.log_div (by norm_num) I0.ne'
    have l2 : 2 * Real.log I ≤ Real.log 8620 + Real.log Z := by
      rw [← Real.log_mul (by norm_num) (by linarith)]
      have : 2 * Real.log I = Real.log (I ^ 2) := by rw [Real.log_pow]; norm_num
      rw [this]
      exact Real.log_le_log (by positivity) hIZ
    have e2 : 2 * Real.log 1021997.856 = Real.log (1021997.856 ^ 2 / 8620) + Real.log 8620 := by
      rw [← Real.log_mul (by norm_num) (by norm_num), div_mul_cancel₀ _ (by norm_num), Real.log_pow]; norm_num
    have e3 := log_const_heavy
    rw [l1]
    generalize Real.log (1021997.856 ^ 2 / 8620) = A at *
    norm_num at e3 e2 ⊢
    linarith
  unfold betheLog
  have low : x ≤ 16 → etaSq x / (1 + etaSq x) ≤ 0.0335 ∧ 28.86 ≤ (etaSq x)⁻¹ := by
    intro h
    have := s2 h
    constructor
    · rw [div_le_iff₀ (by positivity)]
      norm_num at *; linarith
    · rw [inv_eq_one_div]
      exact le_trans (by norm_num) (one_div_le_one_div_of_le sp this)
  have l1 := log_band_low _ s0
  refine ⟨fun h => ?_, fun h h' => ?_, fun h => ?_⟩
  · obtain ⟨b1, b2⟩ := low h
    have := S1 b2
    norm_num at *; linarith
  · obtain ⟨b1, b2⟩ := low h
    have := S2 b2 h'
    norm_num at *; linarith
  · have b1 := s3 h
    have l2 := log_band_high _ b1
    have b2 : (etaSq x)⁻¹ ≤ 28.87 := by
      rw [inv_eq_one_div]
      exact (one_div_le_one_div_of_le (by norm_num) b1).trans (by norm_num)
    have b3 : etaSq x / (1 + etaSq x) ≤ 0.0663 := by
      rw [div_le_iff₀ (by positivity)]
      norm_num at *; linarith
    have := S3 b2
    norm_num at *; linarith

/-- Upper bound of the Bethe logarithm up to 16 MeV/u for a mean excitation energy of 120 eV or more. -/
theorem betheLog_above16 (c I x : ℝ) (hc : 0 ≤ c) (hI : 120 ≤ I) (hI' : I ≤ 1170) (h0 : 10 ≤ x) (h1 : x ≤ 16) :
    betheLog c I (etaSq x) ≤ 5.7 := by
  have h1' : x ≤ 32.5 := h1.trans (by norm_num)
  obtain ⟨s0, y1, s1, -⟩ := etaSq_mid x h0 h1'
  have s16 := (etaSq_bands x h0 h1').2.2.1 h1
  have I0 : 0 < I := by linarith
  have y0 : 0 < (etaSq x)⁻¹ := by positivity
  have t1 : I / 1000 ≤ 1.17 := by norm_num; linarith
  have p0 := shellPoly_nonneg (I / 1000) _ (by positivity) t1 y0.le y1
  have a3 := mul_nonneg hc p0
  have hb0 : 0 ≤ etaSq x / (1 + etaSq x) := by positivity
  have a1 : Real.log (1021997.856 / I) ≤ 9.06 := by
    rw [Real.log_le_iff_le_exp (by positivity)]
    have e1 := exp_at 453 8590 (by decide +kernel)
    have e : (((453 : Int) : ℝ)) / 50 = 9.06 := by norm_num
    rw [e] at e1
    refine le_trans ?_ e1
    calc 1021997.856 / I ≤ 1021997.856 / 120 := by gcongr
      _ ≤ _ := by norm_num
  have a2 : Real.log (etaSq x) ≤ -3.36 := by
    rw [Real.log_le_iff_le_exp s0]
    refine s16.trans ?_
    have e1 := exp_at' 168 28.79 (by decide +kernel)
    have e : (((168 : Int) : ℝ)) / 50 = 3.36 := by norm_num
    rw [e] at e1
    rw [Real.exp_neg, inv_eq_one_div]
    refine le_trans ?_ (one_div_le_one_div_of_le (Real.exp_pos _) e1)
    norm_num
  unfold betheLog
  norm_num at a1 a2 ⊢
  linarith

/-- For every target: a bound of the mean excitation energy in eV, of the root of the atomic number, and of the function of the
Barkas correction in the two bands. -/
def heavyHints : List (Nat × Nat × Nat × Nat) :=
  [(93, 100, 890, 744), (132, 141, 1057, 884), (161, 173, 1171, 979), (186, 200, 1260, 1053), (208, 223, 1330, 1111), (228, 244, 1391, 1163),
   (246, 264, 1447, 1209), (263, 282, 1496, 1250), (279, 300, 1543, 1289), (294, 316, 1583, 1323), (308, 331, 1620, 1354), (322, 346, 1657, 1385),
   (335, 360, 1690, 1412), (348, 374, 1723, 1440), (360, 387, 1752, 1464), (372, 400, 1781, 1489), (383, 412, 1808, 1511), (394, 424, 1834, 1533),
   (405, 435, 1858, 1553), (416, 447, 1883, 1574), (426, 458, 1906, 1593), (436, 469, 1929, 1612), (446, 479, 1949, 1629), (455, 489, 1970, 1646),
   (465, 500, 1992, 1665), (474, 509, 2010, 1679), (483, 519, 2029, 1696), (492, 529, 2049, 1712), (500, 538, 2066, 1727), (509, 547, 2083, 1741),
   (517, 556, 2100, 1755), (526, 565, 2117, 1769), (534, 574, 2134, 1784), (542, 583, 2151, 1797), (550, 591, 2165, 1810), (558, 600, 2182, 1823),
   (565, 608, 2196, 1836), (573, 616, 2211, 1848), (580, 624, 2225, 1860), (588, 632, 2239, 1871), (595, 640, 2304, 1883), (602, 648, 2318, 1895),
   (609, 655, 2331, 1905), (616, 663, 2345, 1917), (623, 670, 2357, 1927), (630, 678, 2371, 1938), (637, 685, 2382, 1948), (644, 692, 2394, 1958),
   (650, 700, 2406, 1970), (657, 707, 2417, 1979), (664, 714, 2428, 1989), (670, 721, 2438, 1999), (676, 728, 2448, 2009), (683, 734, 2457, 2017),
   (689, 741, 2467, 2027), (695, 748, 2476, 2036), (701, 754, 2485, 2044), (708, 761, 2494, 2054), (714, 768, 2503, 2063), (720, 774, 2511, 2071),
   (726, 781, 2520, 2081), (732, 787, 2527, 2088), (737, 793, 2534, 2096), (743, 800, 2543, 2106), (749, 806, 2550, 2114), (755, 812, 2557, 2121),
   (760, 818, 2564, 2129), (766, 824, 2571, 2137), (772, 830, 2577, 2145), (777, 836, 2584, 2153), (783, 842, 2591, 2160), (788, 848, 2597, 2168),
   (794, 854, 2605, 2176), (799, 860, 2613, 2183), (805, 866, 2621, 2191), (810, 871, 2628, 2197), (815, 877, 2636, 2205), (820, 883, 2644, 2212),
   (826, 888, 2650, 2218), (831, 894, 2658, 2226), (836, 900, 2666, 2233), (841, 905, 2672, 2240), (846, 911, 2679, 2247), (851, 916, 2686, 2303),
   (856, 921, 2692, 2310), (861, 927, 2699, 2318), (866, 932, 2705, 2324), (871, 938, 2712, 2331), (876, 943, 2717, 2338), (881, 948, 2723, 2344),
   (886, 953, 2729, 2350), (891, 959, 2735, 2357)]

/-- One comparison of the stopping number of protons with the Bethe formula. -/
def heavyCase (Z φ K l : ℚ) (hi : Nat) : Bool :=
  decide (0 ≤ φ ∧ 1066 / 1000 * (hi / 1000) ≤ 329 / 100 * (Z * (φ * (1 + K) - l)))

/-- The check of one target. -/
def heavyCheck (i : Nat) (w : Nat × Nat × Nat × Nat) (u hi16 hi : Nat) : Bool :=
  let Z : ℚ := i + 1
  let τ : ℚ := w.1 / 1000
  let φ : ℚ := 5436 / 1000 - u / 100 - shellTop (Nat.ble w.1 550) τ Z
  let φ' : ℚ := 5876 / 1000 - u / 100 - shellTop' τ Z
  let K : ℚ := w.2.1 / 100 * (w.2.2.1 / 10000)
  let K' : ℚ := w.2.1 / 100 * (w.2.2.2 / 10000)
  decide (8620 * (i + 1) ≤ w.1 ^ 2 ∧ w.1 ≤ 892 ∧ w.2.1 ^ 2 ≤ 10000 * (i + 1) ∧ 0 < w.2.1) &&
  bfLow (2551 / 100 / (w.2.1 / 100)) (w.2.2.1 / 10000) && bfLow (3652 / 100 / (w.2.1 / 100)) (w.2.2.2 / 10000) &&
  (heavyCase Z φ (745 / 10000 * K) (1704 / 1000) hi16 && heavyCase Z φ (132 / 1000 * K) (2126 / 1000) hi16) &&
  (heavyCase Z φ' (385 / 10000 * K') (1433 / 1000) hi && heavyCase Z φ' (714 / 10000 * K') (1847 / 1000) hi)

def heavyOk (l : List (Int × Int × Nat × Nat × Nat × Nat × Nat)) (l' : List (Int × Nat × Nat × Nat)) : Bool :=
  (List.range 92).all fun i => match l[i]?, l'[i]?, heavyHints[i]? with
    | some w, some w', some v => heavyCheck i v w'.2.2.2 w'.2.2.1 w.2.2.2.2.2.1
    | _, _, _ => false

theorem heavy_ok : heavyOk pse_95_hints pse_95_hints16 = true ∧ heavyOk proton_stopping_coef_hints proton_stopping_coef_hints16 = true := by
  decide +kernel

end Catima
