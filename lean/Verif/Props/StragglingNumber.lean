import Verif.Props.PositiveRanges
import Verif.Props.Wrapper
import Verif.Props.EnergyOutBounds

/-!
# C130: the energy straggling is the root of a number that is not negative
-/

namespace Catima

/-- The interpolator of the range straggling, for every state. -/
theorem straggling_view (env : Env ℝ) (p : Projectile ℝ) (n : Int) (t : Material ℝ) (c : Config ℝ) (h : Computable p n t c)
    (hk : NonDefault p t c) : ∃ d s, calculate_DataPoint env p t c = .ok d ∧ d.range_straggling.length = 600 ∧
      newSpline env d.range_straggling = .ok s ∧ s.Total ∧ ∀ (w : World ℝ), ReachableW env w → ∃ d' w', get_data env p t c w = .ok (d', w') ∧
        get_range_straggling_spline env d' = .ok s := by
  obtain ⟨d, hd, -, hl, -⟩ := data_point_defined env p n t c h
  obtain ⟨s, hs, ht⟩ := newSpline_total env _ hl
  refine ⟨d, s, hd, hl, hs, ht, fun w hr => ?_⟩
  obtain ⟨d1, w1, d0, hd1, -, -, h0, -, e2, -⟩ := get_view env w hr p n t c h hk
  rw [hd] at h0
  cases h0
  exact ⟨d1, w1, hd1, by rw [e2, hs]⟩

theorem variance_at {env : Env ℝ} {w w' : World ℝ} {p : Projectile ℝ} {t : Material ℝ} {c : Config ℝ} {d : DataPoint ℝ} {s : Spline ℝ} {T v : ℝ}
    (h1 : get_data env p t c w = .ok (d, w')) (h2 : get_range_straggling_spline env d = .ok s) (h3 : s.evaluate T = .ok v) :
    range_variance env p T t c w = .ok (v, w') := by
  unfold range_variance
  rw [api_bind]
  refine ⟨d, w', h1, ?_⟩
  rw [api_pureM]
  refine ⟨?_, rfl⟩
  rw [h2, bind_ok, h3]

/-- C130: the energy straggling between two energies is the stopping power at the second, taken from the slope of the range, times
the root of the difference of the variances of the range, after any history. -/
theorem energy_straggling_relation (env : Env ℝ) (w : World ℝ) (hr : ReachableW env w) (p : Projectile ℝ) (n : Int) (t : Material ℝ)
    (c : Config ℝ) (h : Computable p n t c) (hk : NonDefault p t c) (T Tout : ℝ) :
    ∃ w' w1 S v1 v2, dedx_from_range env (p.withT Tout) t c w = .ok (S, w1) ∧ range_variance env p T t c w = .ok (v1, w') ∧
      range_variance env p Tout t c w = .ok (v2, w') ∧ energy_straggling_from_E env p T Tout t c w = .ok (S * √(v1 - v2) / p.A, w') := by
  obtain ⟨d, w', d0, hd, -, -, h0, e1, e2, l1, l2, -⟩ := get_view env w hr p n t c h hk
  obtain ⟨rs, hrs, tr⟩ := newSpline_total env _ l1
  obtain ⟨ss, hss, ts⟩ := newSpline_total env _ l2
  obtain ⟨-, x, hx⟩ := tr.1 Tout
  obtain ⟨⟨v1, hv1⟩, -⟩ := ts.1 T
  obtain ⟨⟨v2, hv2⟩, -⟩ := ts.1 Tout
  rw [hrs] at e1
  rw [hss] at e2
  obtain ⟨d1, w1, d2, hd1, -, -, g0, g1, -⟩ := get_view env w hr (p.withT Tout) n t c (h.withT Tout) hk
  have e0 : d2.range = d0.range := by
    have a := (data_point_parts _ _ _ _ _ g0).1
    have b := (data_point_parts _ _ _ _ _ h0).1
    have : cumulative 599 p.A energy_table (fdedx env p t c) = .ok d2.range := a
    rw [b] at this
    exact (Except.ok.inj this).symm
  rw [e0, hrs] at g1
  refine ⟨w', w1, p.A / x, v1, v2, ?_, variance_at hd e2 hv1, variance_at hd e2 hv2, ?_⟩
  · unfold dedx_from_range
    rw [api_bind]
    refine ⟨d1, w1, hd1, ?_⟩
    rw [api_pureM]
    refine ⟨?_, rfl⟩
    rw [g1, bind_ok]
    show (do let y ← rs.deriv Tout; return p.A / y : M ℝ) = _
    rw [hx, bind_ok]
    rfl
  · unfold energy_straggling_from_E
    rw [api_bind]
    refine ⟨d, w', hd, ?_⟩
    rw [api_pureM]
    refine ⟨?_, rfl⟩
    rw [e1, bind_ok, e2, bind_ok, hx, bind_ok, hv1, bind_ok, hv2, bind_ok]
    rfl

/-- C130, the part that holds: the variance of the range at an energy of the table, up to point 478 (about 1e5 MeV/u), is not
smaller than at a lower energy of the table, after any history.  Missing: energies between the points, and higher ones, see
`variance_decreases_wrong`. -/
theorem variance_increases_partial (env : Env ℝ) (w : World ℝ) (hr : ReachableW env w) (p : Projectile ℝ) (n : Int) (t : Material ℝ)
    (c : Config ℝ) (h : Computable p n t c) (hk : NonDefault p t c) (hA : p.A ≤ 3 * element_atomic_weight n) (i j : Nat) (hij : i ≤ j) (hj : j ≤ 478) :
    ∃ w' vi vj, range_variance env p ((energy_table : EnergyTable ℝ).val i) t c w = .ok (vi, w') ∧
      range_variance env p ((energy_table : EnergyTable ℝ).val j) t c w = .ok (vj, w') ∧ 0 ≤ vi ∧ vi ≤ vj := by
  obtain ⟨d, s, hd, hl, hs, -, hv⟩ := straggling_view env p n t c h hk
  obtain ⟨d', w', h1, h2⟩ := hv w hr
  have hp := straggling_table_low_partial env p n t c h hA d hd
  obtain ⟨hn, hz, -⟩ := straggling_table_partial env p n t c h 0 (by norm_num) (fun x a b X hX => by
    obtain ⟨X', hX', h0⟩ := lindhard_X_low_partial env.calcIndex (p.withT x) n (withT_ion h.ion x) h.small hA
      ((b.trans ((EnergyTable.val_le_iff _ energy_table_bounds.1 energy_table_bounds.2.1 0 478).mpr (by omega))).trans grid_positions.1)
    rw [hX] at hX'
    cases hX'
    exact h0) d hd
  have le : ∀ a b, a ≤ b → b ≤ 478 → ∃ u v, d.range_straggling[a]? = some u ∧ d.range_straggling[b]? = some v ∧ u ≤ v := by
    intro a b hab hb
    refine ⟨d.range_straggling[a]'(by omega), d.range_straggling[b]'(by omega), List.getElem?_eq_getElem _, List.getElem?_eq_getElem _, ?_⟩
    rcases hab.lt_or_eq with hlt | rfl
    · have := List.pairwise_iff_getElem.mp hp a b (by rw [List.length_take]; omega) (by rw [List.length_take]; omega) hlt
      simpa only [List.getElem_take] using this
    · exact le_rfl
  obtain ⟨u, v, hu, hv', huv⟩ := le i j hij hj
  obtain ⟨z, u', hz', hu', hzu⟩ := le 0 i (by omega) (by omega)
  rw [hz] at hz'
  rw [hu] at hu'
  cases hz'
  cases hu'
  obtain ⟨s1, hs1, k1⟩ := library_knot env d.range_straggling hl i (by omega) u hu
  obtain ⟨s2, hs2, k2⟩ := library_knot env d.range_straggling hl j (by omega) v hv'
  rw [hs] at hs1 hs2
  cases hs1
  cases hs2
  exact ⟨w', u, v, variance_at h1 h2 k1, variance_at h1 h2 k2, hzu, huv⟩

/-- C130 is false: for helium-3 in every material the variance of the range decreases around 2.6 TeV/u, so that
`energy_straggling_from_E` takes the root of a negative number, after any history. -/
theorem variance_decreases_wrong (env : Env ℝ) (w : World ℝ) (hr : ReachableW env w) (q T0 : ℝ) (t : Material ℝ) (c : Config ℝ)
    (hc : c.z_effective = 1) (h : Computable ⟨3.016, 2, q, T0⟩ 2 t c) (hk : NonDefault ⟨3.016, 2, q, T0⟩ t c) :
    ∃ T Tout w' v1 v2, 0 < Tout ∧ Tout < T ∧ range_variance env ⟨3.016, 2, q, T0⟩ T t c w = .ok (v1, w') ∧
      range_variance env ⟨3.016, 2, q, T0⟩ Tout t c w = .ok (v2, w') ∧ v1 - v2 < 0 := by
  obtain ⟨d, s, hd, hl, hs, -, hv⟩ := straggling_view env _ 2 t c h hk
  obtain ⟨d', w', h1, h2⟩ := hv w hr
  obtain ⟨a, b, ha, hb, hab⟩ := straggling_table_decreases env q T0 t c hc h d hd
  obtain ⟨s1, hs1, k1⟩ := library_knot env d.range_straggling hl 564 (by omega) a ha
  obtain ⟨s2, hs2, k2⟩ := library_knot env d.range_straggling hl 565 (by omega) b hb
  rw [hs] at hs1 hs2
  cases hs1
  cases hs2
  exact ⟨_, _, w', b, a, EnergyTable.val_pos _ 564,
    (EnergyTable.val_lt_iff _ energy_table_bounds.1 energy_table_bounds.2.1 564 565).mpr (by omega), variance_at h1 h2 k2, variance_at h1 h2 k1, by linarith⟩

/-- Protons of 100 MeV in water meet the hypotheses of the first two theorems. -/
example (env : Env ℝ) (w : World ℝ) (hr : ReachableW env w) : ∃ w' vi vj,
    range_variance env ⟨1.00794, 1, 1, 100⟩ ((energy_table : EnergyTable ℝ).val 237) ⟨1, 1, 18.015, 0, [⟨1.00794, 1, 2⟩, ⟨15.9994, 8, 1⟩]⟩ .default w = .ok (vi, w') ∧
      range_variance env ⟨1.00794, 1, 1, 100⟩ ((energy_table : EnergyTable ℝ).val 478) ⟨1, 1, 18.015, 0, [⟨1.00794, 1, 2⟩, ⟨15.9994, 8, 1⟩]⟩ .default w = .ok (vj, w') ∧
      0 ≤ vi ∧ vi ≤ vj :=
  variance_increases_partial env w hr _ 1 _ _ proton_water_computable proton_water_nonDefault (by
    have : element_atomic_weights[1]? = some ⟨100794, 5⟩ := rfl
    norm_num [element_atomic_weight, this, Dec.toScalar]) 237 478 (by norm_num) le_rfl

/-- Helium-3 in carbon meets the hypotheses of the third. -/
example (env : Env ℝ) (w : World ℝ) (hr : ReachableW env w) : ∃ T Tout w' v1 v2, 0 < Tout ∧ Tout < T ∧
    range_variance env ⟨3.016, 2, 2, 100⟩ T (⟨2, 1, 12, 0, [⟨12, 6, 1⟩]⟩ : Material ℝ) .default w = .ok (v1, w') ∧
      range_variance env ⟨3.016, 2, 2, 100⟩ Tout (⟨2, 1, 12, 0, [⟨12, 6, 1⟩]⟩ : Material ℝ) .default w = .ok (v2, w') ∧ v1 - v2 < 0 :=
  variance_decreases_wrong env w hr 2 100 _ _ rfl ⟨⟨by norm_num, by norm_num, by norm_num, by norm_num⟩, by norm_num,
      ⟨by simp, by simp, by simp, by simp, by norm_num⟩, by simp, Or.inl rfl⟩ (by
    simp only [NonDefault, Key.eq, Key.default, Projectile.eq, Projectile.default]
    simp
    intro h
    norm_num at h)

end Catima
