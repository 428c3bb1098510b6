import Verif.Props.StoppingFalls
import Verif.Props.ChargeState
import Verif.Props.Isotopes

/-!
# Helper lemmas: ions of neighbouring elements
-/

namespace Catima

/-- The lookup of LS at one energy, for all ions. -/
theorem lindhard_affine_all (ci : Bool) (T : ℝ) (h0 : 1 ≤ T) (h9 : T ≤ (ls_energy_table : EnergyTable ℝ).val 199) (hT : LindhardReadable T) :
    ∃ (i : Nat) (θ : ℝ), i < 199 ∧ -1e-12 ≤ θ ∧ θ ≤ 1 ∧ (ls_energy_table : EnergyTable ℝ).val i - 10 * 2⁻¹ ^ 52 ≤ T ∧
      T ≤ (ls_energy_table : EnergyTable ℝ).val (i + 1) ∧
      ∀ (p : Projectile ℝ) (n : Int), p.Ion n → n ≤ 108 → p.T = T → ∃ (s : ℝ) (r : Nat) (hr : r < 108), (r : Int) = n - 1 ∧
        s = 20 * ((p.A - element_atomic_weight n) / element_atomic_weight n) ∧
        ∃ c : Nat → ℝ, (∀ j, c j = ((lsField (ls_coefficients_a[r]'(by rw [ls_lengths.1]; exact hr)) j : ℝ)
          + s * ((lsField (ls_coefficients_ahi[r]'(by rw [ls_lengths.2.1]; exact hr)) j : ℝ) -
            lsField (ls_coefficients_a[r]'(by rw [ls_lengths.1]; exact hr)) j)) / 10 ^ 11) ∧
        precalculated_lindhard ci p = .ok (c i + θ * (c (i + 1) - c i)) := by
  have hb := ls_energy_table_bounds
  obtain ⟨i, θ, hi, ht0, htp, ht1, hb0, hb1, hθ, key⟩ := interpolate_affine ci ls_energy_table hb.1 hb.2.1 hb.2.2
    ls_gap T (by rw [ls_first]; exact h0) h9 hT
  change i + 1 < 200 at hi
  refine ⟨i, θ, by omega, ht0, ht1, hb0, hb1, fun p n hp hn hpT => ?_⟩
  subst hpT
  obtain ⟨r, hr⟩ := Int.eq_ofNat_of_zero_le (show 0 ≤ n - 1 by linarith [hp.pos])
  have hr' : r < 108 := by omega
  refine ⟨_, r, hr', hr.symm, rfl, _, fun j => rfl, ?_⟩
  obtain ⟨y1, hy1, hl1, hv1⟩ := lsRowAt_get ls_coefficients_a r (by rw [ls_lengths.1]; exact hr')
  obtain ⟨y2, hy2, hl2, hv2⟩ := lsRowAt_get ls_coefficients_ahi r (by rw [ls_lengths.2.1]; exact hr')
  obtain ⟨a1, b1, ha1, hb1', e1⟩ := key y1 hl1
  obtain ⟨a2, b2, ha2, hb2, e2⟩ := key y2 hl2
  rw [hv1 i (by omega)] at ha1
  rw [hv1 (i + 1) (by omega)] at hb1'
  rw [hv2 i (by omega)] at ha2
  rw [hv2 (i + 1) (by omega)] at hb2
  unfold precalculated_lindhard
  rw [lsZ_ion hp (by omega), bind_ok]
  dsimp only
  rw [if_neg (by rw [lt_real, ls_first]; linarith)]
  unfold lsValue lsValueOf
  rw [hr]
  simp only [hy1, hy2, bind_ok, e1, e2, pure, Except.pure]
  refine congrArg Except.ok ?_
  rw [← Option.some.inj ha1, ← Option.some.inj hb1', ← Option.some.inj ha2, ← Option.some.inj hb2]
  generalize (lsField (ls_coefficients_a[r]'(by rw [ls_lengths.1]; exact hr')) i : ℝ) = A1
  generalize (lsField (ls_coefficients_a[r]'(by rw [ls_lengths.1]; exact hr')) (i + 1) : ℝ) = B1
  generalize (lsField (ls_coefficients_ahi[r]'(by rw [ls_lengths.2.1]; exact hr')) i : ℝ) = A2
  generalize (lsField (ls_coefficients_ahi[r]'(by rw [ls_lengths.2.1]; exact hr')) (i + 1) : ℝ) = B2
  generalize (p.A - element_atomic_weight n) / element_atomic_weight n = d
  have e : (0.05 : ℝ) = 1 / 20 := by norm_num
  rw [e]
  ring

/-- The fall from one row to the next, weighted with three times the charge number of the second ion, and the values of the
second row, in units of 1e-11; 549755813888 is `2^39`. -/
def lsPairDrop (w ra rh ra' rh' : Nat) : Bool :=
  (List.range 47).all fun k =>
    let a := lsRaw ra (k + 40); let h := lsRaw rh (k + 40); let a' := lsRaw ra' (k + 40); let h' := lsRaw rh' (k + 40)
    Nat.ble (w * (21 * a + 20 * h')) (310000000000 + w * (20 * h + 21 * a')) &&
    Nat.ble (w * (21 * a + 39 * a')) (310000000000 + w * (20 * h + 40 * h')) &&
    Nat.ble (w * (40 * h + 20 * h')) (310000000000 + w * (39 * a + 21 * a')) &&
    Nat.ble (w * (40 * h + 39 * a')) (310000000000 + w * (39 * a + 40 * h')) &&
    Nat.ble (549755813888 + 20 * h) (148500000000 + 21 * a) && Nat.ble (549755813888 + 39 * a) (148500000000 + 40 * h)

theorem lsTables_drop : ∀ r, (hr : r < 91) →
    lsPairDrop (3 * (r + 2)) (ls_coefficients_a[r]'(by rw [ls_lengths.1]; omega)) (ls_coefficients_ahi[r]'(by rw [ls_lengths.2.1]; omega))
      (ls_coefficients_a[r + 1]'(by rw [ls_lengths.1]; omega)) (ls_coefficients_ahi[r + 1]'(by rw [ls_lengths.2.1]; omega)) = true := by
  have h : ((((ls_coefficients_a.zip ls_coefficients_ahi).zip ((ls_coefficients_a.zip ls_coefficients_ahi).drop 1)).take 91).zipIdx.all
      fun e => lsPairDrop (3 * (e.2 + 2)) e.1.1.1 e.1.1.2 e.1.2.1 e.1.2.2) = true := by
    decide +kernel
  intro r hr
  rw [List.all_eq_true] at h
  have hz : r < (((ls_coefficients_a.zip ls_coefficients_ahi).zip ((ls_coefficients_a.zip ls_coefficients_ahi).drop 1)).take 91).zipIdx.length := by
    rw [List.length_zipIdx, List.length_take, List.length_zip, List.length_drop, List.length_zip, ls_lengths.1, ls_lengths.2.1]; omega
  have := h _ (List.getElem_mem hz)
  simp only [List.getElem_zipIdx, List.getElem_take, List.getElem_zip, List.getElem_drop, Nat.zero_add] at this
  simpa only [Nat.add_comm 1 r] using this

theorem drop_corner (w a h a' h' s s' : ℝ) (w0 : 0 ≤ w) (c1 : w * (21 * a + 20 * h') ≤ 310000000000 + w * (20 * h + 21 * a'))
    (c2 : w * (21 * a + 39 * a') ≤ 310000000000 + w * (20 * h + 40 * h')) (c3 : w * (40 * h + 20 * h') ≤ 310000000000 + w * (39 * a + 21 * a'))
    (c4 : w * (40 * h + 39 * a') ≤ 310000000000 + w * (39 * a + 40 * h')) (s0 : -20 ≤ s) (s1 : s ≤ 40) (t0 : -20 ≤ s') (t1 : s' ≤ 40) :
    w * ((a + s * (h - a)) - (a' + s' * (h' - a'))) ≤ 310000000000 := by
  have x : ∀ a h s : ℝ, -20 ≤ s → s ≤ 40 → a + s * (h - a) ≤ 21 * a - 20 * h ∨ a + s * (h - a) ≤ 40 * h - 39 * a := by
    intro a h s h1 h2
    rcases le_total 0 (h - a) with hh | hh
    · right; nlinarith
    · left; nlinarith
  have y : ∀ a h s : ℝ, -20 ≤ s → s ≤ 40 → 21 * a - 20 * h ≤ a + s * (h - a) ∨ 40 * h - 39 * a ≤ a + s * (h - a) := by
    intro a h s h1 h2
    rcases le_total 0 (h - a) with hh | hh
    · left; nlinarith
    · right; nlinarith
  rcases x a h s s0 s1 with h1 | h1 <;> rcases y a' h' s' t0 t1 with h2 | h2
  all_goals
    have m1 := mul_le_mul_of_nonneg_left h1 w0
    have m2 := mul_le_mul_of_nonneg_left h2 w0
    linarith

theorem lsRow_drop {r ra rh ra' rh' : Nat} (h : lsPairDrop (3 * (r + 2)) ra rh ra' rh' = true) (j : Nat) (h1 : 40 ≤ j) (h2 : j ≤ 86)
    (s s' : ℝ) (s0 : -20 ≤ s) (s1 : s ≤ 40) (t0 : -20 ≤ s') (t1 : s' ≤ 40) :
    3 * ((r : ℝ) + 2) * (((lsField ra j : ℝ) + s * ((lsField rh j : ℝ) - lsField ra j)) / 10 ^ 11 -
      ((lsField ra' j : ℝ) + s' * ((lsField rh' j : ℝ) - lsField ra' j)) / 10 ^ 11) ≤ 3.1 ∧
    -1.485 ≤ ((lsField ra j : ℝ) + s * ((lsField rh j : ℝ) - lsField ra j)) / 10 ^ 11 := by
  unfold lsPairDrop at h
  rw [List.all_eq_true] at h
  have h := h (j - 40) (List.mem_range.mpr (by omega))
  simp only [Bool.and_eq_true, Nat.ble_eq, show j - 40 + 40 = j by omega] at h
  simp only [lsRaw_field]
  generalize lsRaw ra j = a at *
  generalize lsRaw rh j = b at *
  generalize lsRaw ra' j = a' at *
  generalize lsRaw rh' j = b' at *
  obtain ⟨⟨⟨⟨⟨c1, c2⟩, c3⟩, c4⟩, c5⟩, c6⟩ := h
  have d1 : 3 * ((r : ℝ) + 2) * (21 * a + 20 * b') ≤ 310000000000 + 3 * ((r : ℝ) + 2) * (20 * b + 21 * a') := by exact_mod_cast c1
  have d2 : 3 * ((r : ℝ) + 2) * (21 * a + 39 * a') ≤ 310000000000 + 3 * ((r : ℝ) + 2) * (20 * b + 40 * b') := by exact_mod_cast c2
  have d3 : 3 * ((r : ℝ) + 2) * (40 * b + 20 * b') ≤ 310000000000 + 3 * ((r : ℝ) + 2) * (39 * a + 21 * a') := by exact_mod_cast c3
  have d4 : 3 * ((r : ℝ) + 2) * (40 * b + 39 * a') ≤ 310000000000 + 3 * ((r : ℝ) + 2) * (39 * a + 40 * b') := by exact_mod_cast c4
  have d5 : (549755813888 : ℝ) + 20 * b ≤ 148500000000 + 21 * a := by exact_mod_cast c5
  have d6 : (549755813888 : ℝ) + 39 * a ≤ 148500000000 + 40 * b := by exact_mod_cast c6
  have key := drop_corner (3 * ((r : ℝ) + 2)) a b a' b' s s' (by positivity) d1 d2 d3 d4 s0 s1 t0 t1
  push_cast
  constructor
  · rw [← sub_div, mul_div_assoc', div_le_iff₀ (by norm_num)]
    have e : ((a : ℝ) - 2 ^ 39 + s * ((b : ℝ) - 2 ^ 39 - ((a : ℝ) - 2 ^ 39))) - ((a' : ℝ) - 2 ^ 39 + s' * ((b' : ℝ) - 2 ^ 39 - ((a' : ℝ) - 2 ^ 39))) =
        ((a : ℝ) + s * ((b : ℝ) - a)) - ((a' : ℝ) + s' * ((b' : ℝ) - a')) := by ring
    norm_num at e ⊢
    rw [e]
    exact key
  · rw [le_div_iff₀ (by norm_num)]
    norm_num
    rcases le_total 0 ((b : ℝ) - a) with hh | hh
    · nlinarith
    · nlinarith

theorem ls_val_86 : 1001 < (ls_energy_table : EnergyTable ℝ).val 86 := by
  rw [(ls_val_log 86 1001 (by norm_num)).2]
  have e : Real.log 1001 = 10 * Real.log 2 - Real.log (1024 / 1001) := by
    rw [show (1001 : ℝ) = 2 ^ 10 / (1024 / 1001) by norm_num, Real.log_div (by norm_num) (by norm_num), Real.log_pow]; norm_num
  have := Real.log_two_lt_d9
  have h2 := Real.one_sub_inv_le_log_of_pos (show (0 : ℝ) < 1024 / 1001 by norm_num)
  rw [e]
  norm_num [LN10] at this h2 ⊢
  linarith

theorem mix_drop (w θ a b a' b' : ℝ) (h0 : -1e-12 ≤ θ) (h1 : θ ≤ 1) (w0 : 0 ≤ w) (w1 : w ≤ 300) (ha : w * (a - a') ≤ 3.1) (hb : w * (b - b') ≤ 3.1)
    (ra : |b - a| ≤ 2) (ra' : |b' - a'| ≤ 2) : w * ((a + θ * (b - a)) - (a' + θ * (b' - a'))) ≤ 3.2 := by
  rw [abs_le] at ra ra'
  have e : w * ((a + θ * (b - a)) - (a' + θ * (b' - a'))) = w * (a - a') + θ * (w * ((b - a) - (b' - a'))) := by ring
  have e2 : w * ((b - a) - (b' - a')) = w * (b - b') - w * (a - a') := by ring
  rcases le_total 0 θ with h | h
  · rw [e, e2]
    norm_num at ha hb ⊢
    nlinarith
  · rw [e]
    have b1 : w * ((b - a) - (b' - a')) ≤ 1200 := by nlinarith [ra.1, ra.2, ra'.1, ra'.2]
    have b2 : -1200 ≤ w * ((b - a) - (b' - a')) := by nlinarith [ra.1, ra.2, ra'.1, ra'.2]
    generalize w * ((b - a) - (b' - a')) = z at *
    norm_num at ha h0 ⊢
    nlinarith

end Catima
