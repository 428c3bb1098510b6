import Verif.Lemmas.NegativeEnergy

/-!
# Helper lemmas: stopping powers close to the power 0.25 of the energy
-/

namespace Catima
open Spline

set_option maxHeartbeats 1000000 in
/-- A stopping power that, up to 24.4 keV/u, is the power 0.25 of the energy and at most 21.5 % more, at most 12 % more from 1.99
times the first energy of the table on: the search returns a negative energy. -/
theorem quarter_law_negative (env : Env ℝ) (hj : SmallJunk env.junk) (p : Projectile ℝ) (n : Int) (m : Material ℝ) (c : Config ℝ)
    (h : Computable p n m c) (hS : SteadyStopping env p m c) (d : DataPoint ℝ) (hd : calculate_DataPoint env p m c = .ok d)
    (e0 : ℝ) (he0 : 0 < e0) (hκ : p.A * (energy_table : EnergyTable ℝ).val 0 ≤ 1.24e-6 * e0) (ν : ℝ → ℝ)
    (hv : ∀ x, (energy_table : EnergyTable ℝ).val 0 ≤ x → x ≤ 0.0244 →
      dedx env (p.withT x) m c = .ok (e0 * (x / (energy_table : EnergyTable ℝ).val 0) ^ (0.25 : ℝ) + ν x) ∧ 0 ≤ ν x ∧
      ν x ≤ 0.215 * (e0 * (x / (energy_table : EnergyTable ℝ).val 0) ^ (0.25 : ℝ)) ∧
      (1.99 * (energy_table : EnergyTable ℝ).val 0 ≤ x → ν x ≤ 0.12 * (e0 * (x / (energy_table : EnergyTable ℝ).val 0) ^ (0.25 : ℝ))))
    (hν : ∀ x, 0 < x → ν (gridRatio * x) ≤ 1.2 * ν x ∧ ν x ≤ 1.2 * ν (gridRatio * x)) (debug : Bool) :
    ∃ s, Spline.new env.junk (energy_table.grid env.calcIndex) d.range = .ok s ∧ ∃ T th R E, 0.023 ≤ T ∧ T ≤ 0.025 ∧ 0 < th ∧
      s.evaluate T = .ok R ∧ th < R ∧ E ≤ -4e-4 ∧ energy_out_spline debug T th s = .ok E := by
  obtain ⟨hl, hz, S, hSv, hsl⟩ := range_slopes env p n m c h d hd
  have ty := range_table_tame env p n m c h hS d hd
  have hb := energy_table_bounds
  set X := (energy_table : EnergyTable ℝ).val with hX
  have ord : ∀ k, X k < X (k + 1) := fun k => (EnergyTable.val_lt_iff _ hb.1 hb.2.1 k (k + 1)).mpr (by omega)
  have ordle : ∀ i j, i ≤ j → X i ≤ X j := fun i j h => (EnergyTable.val_le_iff _ hb.1 hb.2.1 i j).mpr h
  have X0 : 0 < X 0 := EnergyTable.val_pos _ 0
  have hpow : ∀ k, X k = gridRatio ^ k * X 0 := grid_pow
  have hgeo : ∀ k, X (k + 1) = gridRatio * X k := grid_geometric
  set a := gridRatio ^ (0.25 : ℝ) with ha
  have hg := gridRatio_sharp
  have hab := gridRatio_quarter
  rw [← ha] at hab
  have g0 : 1 < gridRatio := by have := hg.1; norm_num at this; linarith
  have a0 : 1 < a := by have := hab.1; norm_num at this; linarith
  have x83 : X 83 ≤ 0.0244 := by
    have X0b := energy_table_range.2.1
    rw [← hX] at X0b
    have X0h : X 0 ≤ 0.001000001 := by have := (abs_le.mp X0b).2; norm_num at this ⊢; linarith
    have G83 : gridRatio ^ 83 ≤ 24.31 := le_trans (pow_le_pow_left₀ (by linarith) hg.2 83) (by norm_num)
    rw [hpow 83]
    have := mul_le_mul G83 X0h X0.le (by norm_num)
    norm_num at this ⊢
    linarith
  have rp : ∀ k, (X k / X 0) ^ (0.25 : ℝ) = a ^ k := by
    intro k
    rw [hpow k, mul_div_cancel_right₀ _ X0.ne', ← Real.rpow_natCast, ← Real.rpow_mul (by linarith), mul_comm,
      Real.rpow_mul (by linarith), Real.rpow_natCast]
  have rg : ∀ x, 0 ≤ x → (gridRatio * x / X 0) ^ (0.25 : ℝ) = a * (x / X 0) ^ (0.25 : ℝ) := by
    intro x hx
    rw [mul_div_assoc, Real.mul_rpow (by linarith) (by positivity)]
  have val : ∀ x, X 0 ≤ x → x ≤ 0.0244 → S x = e0 * (x / X 0) ^ (0.25 : ℝ) + ν x := fun x h1 h2 => hSv x _ (hv x h1 h2).1
  have hA := h.ion.A
  have wpos : ∀ e ∈ integrator.full, (0 : ℝ) ≤ e.2 := fun e he => ((integrator_nodes e he).2.2).le
  have ws := weights_sum
  have nodes : ∀ k < 83, ∀ e ∈ integrator.full, X k ≤ (X (k + 1) - X k) / 2 * e.1 + (X (k + 1) + X k) / 2 ∧
      (X (k + 1) - X k) / 2 * e.1 + (X (k + 1) + X k) / 2 ≤ X (k + 1) := by
    intro k hk e he
    have := inner_grid k (by omega) _ (node_inner (X k) (X (k + 1)) (ord k).le e he)
    exact ⟨this.1, this.2.1⟩
  have level : ∀ k < 83, ∀ x, X k ≤ x → x ≤ X (k + 1) → e0 * a ^ k ≤ S x ∧ S x ≤ 1.215 * (e0 * a ^ (k + 1)) ∧
      (18 ≤ k → S x ≤ 1.12 * (e0 * a ^ (k + 1))) := by
    intro k hk x x1 x2
    have h0 : X 0 ≤ x := (ordle 0 k (by omega)).trans x1
    have h1 : x ≤ 0.0244 := x2.trans ((ordle (k + 1) 83 (by omega)).trans x83)
    rw [val x h0 h1]
    obtain ⟨-, n1, n2, n3⟩ := hv x h0 h1
    have p1 : a ^ k ≤ (x / X 0) ^ (0.25 : ℝ) := by
      rw [← rp k]
      exact Real.rpow_le_rpow (by have := EnergyTable.val_pos (energy_table : EnergyTable ℝ) k; positivity)
        (div_le_div_of_nonneg_right x1 X0.le) (by norm_num)
    have p2 : (x / X 0) ^ (0.25 : ℝ) ≤ a ^ (k + 1) := by
      rw [← rp (k + 1)]
      exact Real.rpow_le_rpow (div_nonneg (X0.le.trans h0) X0.le) (div_le_div_of_nonneg_right x2 X0.le) (by norm_num)
    have q1 := mul_le_mul_of_nonneg_left p1 he0.le
    have q2 := mul_le_mul_of_nonneg_left p2 he0.le
    refine ⟨by linarith, by norm_num at n2 ⊢; linarith, fun hk18 => ?_⟩
    have n3 := n3 (by
      refine le_trans ?_ ((ordle 18 k hk18).trans x1)
      rw [hpow 18]
      refine mul_le_mul_of_nonneg_right ?_ X0.le
      exact le_trans (by norm_num) (pow_le_pow_left₀ (by norm_num) hg.1 18))
    norm_num at n3 ⊢
    linarith
  set κ := p.A * 1.000001 / e0 with hκd
  have κ0 : 0 < κ := by positivity
  have y0 : d.range.getD 0 0 = 0 := by rw [List.getD_eq_getElem?_getD, hz]; rfl
  have low : ∀ k < 83, ∀ q : ℝ, 0 < q → (∀ x, X k ≤ x → x ≤ X (k + 1) → S x ≤ q * (e0 * a ^ (k + 1))) →
      κ * (a ^ (k + 1))⁻¹ ≤ q * 1.0000016 * meanSlope d.range k := by
    intro k hk q q0 hq
    rw [hsl k (by omega)]
    have w1 := wsum_le integrator.full (fun _ => 1 / (q * (e0 * a ^ (k + 1)))) (fun x =>
        1 / S ((X (k + 1) - X k) / 2 * x + (X (k + 1) + X k) / 2)) wpos fun e he => by
      obtain ⟨n1, n2⟩ := nodes k hk e he
      exact one_div_le_one_div_of_le (lt_of_lt_of_le (by positivity) (level k hk _ n1 n2).1) (hq _ n1 n2)
    rw [wsum_scale_one] at w1
    have w2 := (abs_le.mp ws).1
    generalize (wsum integrator.full fun x => 1 / S ((X (k + 1) - X k) / 2 * x + (X (k + 1) + X k) / 2)) = W at *
    generalize (wsum integrator.full fun _ => (1 : ℝ)) = V at *
    have ap : 0 < a ^ (k + 1) := by positivity
    generalize a ^ (k + 1) = b at *
    have w3 : 1 / (q * (e0 * b)) * 1.999999 ≤ W := by
      refine le_trans (mul_le_mul_of_nonneg_left ?_ (by positivity)) w1
      norm_num at w2 ⊢; linarith
    have w4 : κ * b⁻¹ = p.A * (1.000001 * q / 1.999999) * (1 / (q * (e0 * b)) * 1.999999) := by
      rw [hκd]; field_simp
    rw [w4]
    have w5 := mul_le_mul_of_nonneg_left w3 (by positivity : 0 ≤ p.A * (1.000001 * q / 1.999999))
    refine w5.trans ?_
    have W0 : 0 ≤ W := le_trans (by positivity) w3
    have := mul_nonneg q0.le (mul_nonneg hA.le W0)
    norm_num
    nlinarith
  refine search_negative env.junk hj env.calcIndex debug d.range ty y0 κ κ0 ?_ ?_ ?_ ?_ ?_
  · rw [hκd, div_mul_eq_mul_div, div_le_iff₀ he0]
    norm_num at hκ ⊢
    nlinarith
  · intro k hk
    rw [← ha]
    refine (low k (by omega) 1.215 (by norm_num) fun x x1 x2 => (level k (by omega) x x1 x2).2.1).trans ?_
    refine mul_le_mul_of_nonneg_right (by norm_num) (ty.pos k (by omega)).le
  · intro k hk hk'
    rw [← ha]
    refine (low k hk 1.12 (by norm_num) fun x x1 x2 => (level k hk x x1 x2).2.2 hk').trans ?_
    refine mul_le_mul_of_nonneg_right (by norm_num) (ty.pos k (by omega)).le
  · intro k hk
    rw [hsl k (by omega), ← ha]
    have w1 := wsum_le integrator.full (fun x => 1 / S ((X (k + 1) - X k) / 2 * x + (X (k + 1) + X k) / 2))
        (fun _ => 1 / (e0 * a ^ k)) wpos fun e he => by
      obtain ⟨n1, n2⟩ := nodes k hk e he
      obtain ⟨l1, -⟩ := level k hk _ n1 n2
      exact one_div_le_one_div_of_le (by positivity) l1
    rw [wsum_scale_one] at w1
    have w2 := (abs_le.mp ws).2
    generalize (wsum integrator.full fun x => 1 / S ((X (k + 1) - X k) / 2 * x + (X (k + 1) + X k) / 2)) = W at *
    generalize (wsum integrator.full fun _ => (1 : ℝ)) = V at *
    have ap : 0 < a ^ k := by positivity
    generalize a ^ k = b at *
    have w3 : W ≤ 1 / (e0 * b) * 2.000001 := by
      refine le_trans w1 (mul_le_mul_of_nonneg_left ?_ (by positivity))
      norm_num at w2 ⊢; linarith
    have w4 : κ * b⁻¹ = p.A * (1.000001 * (1 / (e0 * b))) := by
      rw [hκd]; field_simp
    rw [w4]
    refine mul_le_mul_of_nonneg_left ?_ hA.le
    have : 0 < 1 / (e0 * b) := by positivity
    norm_num at w3 this ⊢
    linarith
  · intro k hk
    rw [hsl k (by omega), hsl (k + 1) (by omega)]
    -- at corresponding points
    have cor : ∀ e ∈ integrator.full,
        0.95 * (1 / S ((X (k + 1) - X k) / 2 * e.1 + (X (k + 1) + X k) / 2)) ≤
          1 / S ((X (k + 1 + 1) - X (k + 1)) / 2 * e.1 + (X (k + 1 + 1) + X (k + 1)) / 2) ∧
        1 / S ((X (k + 1 + 1) - X (k + 1)) / 2 * e.1 + (X (k + 1 + 1) + X (k + 1)) / 2) ≤
          1.05 * (1 / S ((X (k + 1) - X k) / 2 * e.1 + (X (k + 1) + X k) / 2)) := by
      intro e he
      obtain ⟨n1, n2⟩ := nodes k (by omega) e he
      have e1 : (X (k + 1 + 1) - X (k + 1)) / 2 * e.1 + (X (k + 1 + 1) + X (k + 1)) / 2 =
          gridRatio * ((X (k + 1) - X k) / 2 * e.1 + (X (k + 1) + X k) / 2) := by
        rw [hgeo (k + 1), hgeo k]; ring
      rw [e1]
      generalize (X (k + 1) - X k) / 2 * e.1 + (X (k + 1) + X k) / 2 = x at *
      have h0 : X 0 ≤ x := (ordle 0 k (by omega)).trans n1
      have x0 : 0 < x := by linarith
      have h1 : x ≤ 0.0244 := n2.trans ((ordle (k + 1) 83 (by omega)).trans x83)
      have h2 : X 0 ≤ gridRatio * x := by nlinarith
      have h3 : gridRatio * x ≤ 0.0244 := by
        have : gridRatio * x ≤ gridRatio * X (k + 1) := mul_le_mul_of_nonneg_left n2 (by linarith)
        rw [← hgeo] at this
        exact this.trans ((ordle (k + 1 + 1) 83 (by omega)).trans x83)
      rw [val x h0 h1, val _ h2 h3, rg x x0.le]
      obtain ⟨-, m1, m2, -⟩ := hv x h0 h1
      obtain ⟨-, m3, m4, -⟩ := hv _ h2 h3
      rw [rg x x0.le] at m4
      obtain ⟨m5, m6⟩ := hν x x0
      have E0 : 0 < e0 * (x / X 0) ^ (0.25 : ℝ) := by positivity
      have e2 : e0 * (a * (x / X 0) ^ (0.25 : ℝ)) = a * (e0 * (x / X 0) ^ (0.25 : ℝ)) := by ring
      rw [e2] at m4 ⊢
      generalize e0 * (x / X 0) ^ (0.25 : ℝ) = E at *
      generalize ν x = N at *
      generalize ν (gridRatio * x) = N' at *
      have a1 : E ≤ a * E := by nlinarith
      have a2 : a * E ≤ 1.009657 * E := mul_le_mul_of_nonneg_right hab.2 E0.le
      have D1 : 0 < E + N := by linarith
      have D2 : 0 < a * E + N' := by linarith
      rw [mul_one_div, mul_one_div, div_le_div_iff₀ D1 D2, div_le_div_iff₀ D2 D1]
      clear hκ
      norm_num at *
      constructor <;> linarith
    have w1 := wsum_le integrator.full (fun x => 0.95 * (1 / S ((X (k + 1) - X k) / 2 * x + (X (k + 1) + X k) / 2)))
      (fun x => 1 / S ((X (k + 1 + 1) - X (k + 1)) / 2 * x + (X (k + 1 + 1) + X (k + 1)) / 2)) wpos fun e he => (cor e he).1
    have w2 := wsum_le integrator.full (fun x => 1 / S ((X (k + 1 + 1) - X (k + 1)) / 2 * x + (X (k + 1 + 1) + X (k + 1)) / 2))
      (fun x => 1.05 * (1 / S ((X (k + 1) - X k) / 2 * x + (X (k + 1) + X k) / 2))) wpos fun e he => (cor e he).2
    rw [wsum_mul integrator.full (fun x => 1 / S ((X (k + 1) - X k) / 2 * x + (X (k + 1) + X k) / 2))] at w1 w2
    generalize (wsum integrator.full fun x => 1 / S ((X (k + 1) - X k) / 2 * x + (X (k + 1) + X k) / 2)) = W at *
    generalize (wsum integrator.full fun x => 1 / S ((X (k + 1 + 1) - X (k + 1)) / 2 * x + (X (k + 1 + 1) + X (k + 1)) / 2)) = W' at *
    have v1 := mul_le_mul_of_nonneg_left w1 hA.le
    have v2 := mul_le_mul_of_nonneg_left w2 hA.le
    rw [abs_le]
    norm_num at v1 v2 ⊢
    constructor <;> linarith

end Catima
