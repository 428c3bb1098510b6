import Verif.Lemmas.View

/-!
# C51: bounds of the outgoing energy; C49-C53 for the tables of the library
-/

namespace Catima

/-! ## The functions return a value -/

/-- After any history, `range` and (in a build without assertions) `energy_out` return a value. -/
theorem energy_out_succeeds (env : Env ℝ) (hdbg : env.debug = false) (w : World ℝ)
    (hr : ReachableW env w) (p : Projectile ℝ) (n : Int) (t : Material ℝ) (c : Config ℝ)
    (h : Computable p n t c) (hk : NonDefault p t c) :
    ∃ w' R E, range env p t c w = .ok (R, w') ∧ energy_out env p t c w = .ok (E, w') := by
  obtain ⟨d, w', d0, hd, -, -, -, h1, -, l1, -, -⟩ := get_view env w hr p n t c h hk
  obtain ⟨s, hs, ht⟩ := spline_total env.junk _ _ (library_table_ordered env.calcIndex) d0.range l1
  obtain ⟨s', hs', hE⟩ := energy_out_defined env.junk _ _ (library_table_ordered env.calcIndex) d0.range l1
  rw [hs] at hs'
  cases hs'
  have hrs : get_range_spline env d = .ok s := h1.trans hs
  obtain ⟨⟨R, hR⟩, -⟩ := ht p.T
  obtain ⟨E, hE⟩ := hE p.T t.th
  refine ⟨w', R, E, ?_, ?_⟩
  · unfold range
    rw [api_bind]
    exact ⟨d, w', hd, by rw [api_pureM, ok_bind]; exact ⟨⟨s, hrs, hR⟩, rfl⟩⟩
  · unfold energy_out
    rw [api_bind, hdbg]
    exact ⟨d, w', hd, by rw [api_pureM, ok_bind]; exact ⟨⟨s, hrs, hE⟩, rfl⟩⟩

/-- Protons in water are not the default query. -/
theorem proton_water_nonDefault : NonDefault (⟨1.00794, 1, 1, 100⟩ : Projectile ℝ)
    ⟨1, 1, 18.015, 0, [⟨1.00794, 1, 2⟩, ⟨15.9994, 8, 1⟩]⟩ .default := by
  simp only [NonDefault, Key.eq, Key.default, Projectile.eq, Projectile.default]
  simp
  intro h
  norm_num at h

/-- C49 and C50 apply to protons of 100 MeV in 1 g/cm2 of water in a fresh process. -/
example (env : Env ℝ) (hdbg : env.debug = false) : ∃ w' R E,
    range env ⟨1.00794, 1, 1, 100⟩ (⟨1, 1, 18.015, 0, [⟨1.00794, 1, 2⟩, ⟨15.9994, 8, 1⟩]⟩ : Material ℝ)
      .default .init = .ok (R, w') ∧
    energy_out env ⟨1.00794, 1, 1, 100⟩ (⟨1, 1, 18.015, 0, [⟨1.00794, 1, 2⟩, ⟨15.9994, 8, 1⟩]⟩ : Material ℝ)
      .default .init = .ok (E, w') :=
  energy_out_succeeds env hdbg .init ⟨[], rfl⟩ _ 1 _ _ proton_water_computable proton_water_nonDefault

/-! ## C51 -/

theorem loop_bounds {debug : Bool} {rs : Spline ℝ} {range th : ℝ} {fuel : Nat} {e d E : ℝ}
    (h : energyOutLoop debug rs range th fuel e d = .ok E) :
    E = 0 ∨ E = -1 ∨ E = e ∨ 1e-3 ≤ E := by
  induction fuel generalizing e d with
  | zero => cases h; right; left; norm_num
  | succ fuel ih =>
    unfold energyOutLoop at h
    rw [ok_bind] at h
    obtain ⟨R, hR, h⟩ := h
    rw [ok_ite] at h
    rcases h with ⟨h1, h⟩ | ⟨h1, h⟩
    · cases h; exact .inr (.inr (.inl rfl))
    · rw [ok_ite] at h
      rcases h with ⟨h2, h⟩ | ⟨h2, h⟩
      · cases h; left; norm_num
      · have h2' : 1e-3 ≤ e - -(range - R - th) * d := by
          rw [lt_real] at h2
          refine le_trans (le_of_eq ?_) (not_lt.mp h2)
          norm_num [Ezero]
        rw [ok_bind] at h
        obtain ⟨v, hv, h⟩ := h
        dsimp only at h
        rw [ok_ite] at h
        rcases h with ⟨h3, h⟩ | ⟨h3, h⟩
        · rw [ok_bind] at h
          obtain ⟨_, _, h⟩ := h
          cases h
          right; left; norm_num
        · rcases ih h with h | h | h | h
          · exact .inl h
          · exact .inr (.inl h)
          · rw [h]; exact .inr (.inr (.inr h2'))
          · exact .inr (.inr (.inr h))

/-- C51, the part that holds.  A result is 0, or -1, or the first iterate `T - thickness * dE/dx`,
or at least 1e-3; and if the interpolated range never decreases and the thickness is at least 1e-5,
a result is at most `T` (for `T ≥ 0`).  Missing: the first iterate may be negative, see
`energy_out_negative`; -1 is returned when the iteration does not converge. -/
theorem energy_out_bounds_partial (debug : Bool) (rs : Spline ℝ) (T th E : ℝ)
    (h : energy_out_spline debug T th rs = .ok E) :
    (E = 0 ∨ E = -1 ∨ (∃ dR, rs.deriv T = .ok dR ∧ E = T - th * (1 / dR)) ∨ 1e-3 ≤ E) ∧
    (0 ≤ T → 1e-5 ≤ th → (∀ a b u v, rs.evaluate a = .ok u → rs.evaluate b = .ok v → a ≤ b → u ≤ v) →
      E ≤ T) := by
  unfold energy_out_spline at h
  rw [ok_bind] at h
  obtain ⟨R, hR, h⟩ := h
  rw [ok_bind] at h
  obtain ⟨dR, hdR, h⟩ := h
  dsimp only at h
  rw [ok_ite] at h
  rcases h with ⟨_, h⟩ | ⟨hle, h⟩
  · cases h
    exact ⟨.inl (by norm_num), fun h0 _ _ => by norm_num; exact h0⟩
  constructor
  · rcases loop_bounds h with h | h | h | h
    · exact .inl h
    · exact .inr (.inl h)
    · refine .inr (.inr (.inl ⟨dR, hdR, ?_⟩))
      rw [h]; norm_num
    · exact .inr (.inr (.inr h))
  · intro h0 hth hmono
    rcases loop_cases h with h | h | ⟨RE, hRE, h⟩
    · rw [h]; norm_num; exact h0
    · rw [h]; norm_num; linarith
    · by_contra hc
      have := hmono T E R RE hR hRE (not_le.mp hc).le
      rw [lt_real, fabs_real] at h
      have h' : |R - RE - th| < 1e-5 := lt_of_lt_of_eq h (by norm_num)
      rw [abs_lt] at h'
      linarith

/-- The hypotheses hold for a range table on a straight line. -/
example (jk : Junk ℝ) (ci : Bool) : ∃ s, Spline.new jk (energy_table.grid ci)
    ((List.range 600).map fun i => 2 * (energy_table : EnergyTable ℝ).val i) = .ok s ∧
      (∃ E, energy_out_spline false 100 1 s = .ok E) ∧
      ∀ a b u v, s.evaluate a = .ok u → s.evaluate b = .ok v → a ≤ b → u ≤ v := by
  have hg := library_table_ordered ci
  have hl : ((List.range 600).map fun i => 2 * (energy_table : EnergyTable ℝ).val i).length
      = (energy_table.grid ci : Grid ℝ).n := by simp; rfl
  obtain ⟨s, hs, he⟩ := spline_exact_on_lines jk _ _ hg 2 0 _ hl fun i hi => by simp; rfl
  obtain ⟨s', hs', hE⟩ := energy_out_defined jk _ _ hg _ hl
  rw [hs] at hs'
  cases hs'
  refine ⟨s, hs, hE 100 1, fun a b u v hu hv hab => ?_⟩
  rw [he] at hu hv
  cases hu; cases hv
  linarith

open Spline in
/-- Data with given slopes. -/
noncomputable def lines (x sl : Nat → ℝ) : Nat → ℝ
  | 0 => 0
  | i + 1 => lines x sl i + sl i * (x (i + 1) - x i)

open Spline in
theorem rhs_lines {g : Grid ℝ} {w : ℝ} (hg : g.Ordered w) (sl : Nat → ℝ) (i : Nat) (h0 : i ≠ 0)
    (hi : i + 1 < g.n) : rhs g.n g.val (fun j => ((List.range g.n).map (lines g.val sl)).getD j 0) i
      = sl i - sl (i - 1) := by
  have hget : ∀ j < g.n, ((List.range g.n).map (lines g.val sl)).getD j 0 = lines g.val sl j := by
    intro j hj
    simp [List.getD_eq_getElem?_getD, hj]
  unfold rhs
  rw [if_neg h0, if_neg (by omega)]
  simp only [hget i (by omega), hget (i + 1) hi, hget (i - 1) (by omega)]
  obtain ⟨j, rfl⟩ : ∃ j, i = j + 1 := ⟨i - 1, by omega⟩
  have m1 := mono hg j (j + 1) (by omega) (by omega)
  have m2 := mono hg (j + 1) (j + 1 + 1) (by omega) hi
  simp only [Nat.add_sub_cancel, lines]
  have e1 : g.val (j + 1 + 1) - g.val (j + 1) ≠ 0 := by linarith
  have e2 : g.val (j + 1) - g.val j ≠ 0 := by linarith
  field_simp
  ring

open Spline in
/-- C51, refuted: on every table of at least seven points whose first step is larger than 1/500 of
the sixth point there are strictly increasing range data, a positive energy and a positive thickness
for which `energy_out` returns a negative energy, whatever the uninitialised cells contain. -/
theorem energy_out_negative_on (jk : Junk ℝ) (debug : Bool) (g : Grid ℝ) (w : ℝ) (hg : g.Ordered w)
    (hn : 7 ≤ g.n) (h0 : 0 < g.val 0) (h5 : g.val 5 < 500 * (g.val 1 - g.val 0)) :
    ∃ y : List ℝ, y.length = g.n ∧ y.Pairwise (· < ·) ∧ ∃ s, Spline.new jk g y = .ok s ∧
      ∃ th, 0 < th ∧ ∃ E, energy_out_spline debug (g.val 5) th s = .ok E ∧ E < 0 := by
  have m := mono hg
  set x := g.val with hx
  have x01 := m 0 1 (by omega) (by omega)
  have x12 := m 1 2 (by omega) (by omega)
  have x23 := m 2 3 (by omega) (by omega)
  have x34 := m 3 4 (by omega) (by omega)
  have x45 := m 4 5 (by omega) (by omega)
  have x56 := m 5 6 (by omega) (by omega)
  -- slopes for curvature -1 at point 3
  let d2 := 1 / 3 * (x 2 - x 1)
  let d3 := 2 / 3 * (x 4 - x 2)
  let d4 := 1 / 3 * (x 5 - x 4)
  let τ := (d2 + d3 + d4) / 1000
  have hd2 : 0 < d2 := by simp only [d2]; linarith
  have hd3 : 0 < d3 := by simp only [d3]; linarith
  have hd4 : 0 < d4 := by simp only [d4]; linarith
  have hτ : 0 < τ := by simp only [τ]; linarith
  let σ : Nat → ℝ := fun i => if i ≤ 1 then d2 + d3 + d4 + τ else if i = 2 then d3 + d4 + τ else
    if i = 3 then d4 + τ else τ
  have hσ : ∀ i, 0 < σ i := by
    intro i
    simp only [σ]
    split_ifs <;> linarith
  have hlp : ∀ i, i + 1 < g.n → lines x σ i < lines x σ (i + 1) := by
    intro i hi
    have := mul_pos (hσ i) (sub_pos.mpr (m i (i + 1) (by omega) hi))
    simp only [lines]
    linarith
  -- the first iterate does not depend on the scale
  let e0 := x 5 - lines x σ 5 / 2 * (1 / τ)
  have hy5 : σ 0 * (x 1 - x 0) ≤ lines x σ 5 := by
    have := hlp 1 (by omega)
    have := hlp 2 (by omega)
    have := hlp 3 (by omega)
    have := hlp 4 (by omega)
    have e : lines x σ 1 = σ 0 * (x 1 - x 0) := by simp [lines]
    norm_num at *
    linarith
  have hneg : e0 < 0 := by
    have e : σ 0 = 1001 * τ := by simp only [σ, τ]; norm_num; ring
    rw [e] at hy5
    have : (1001 * (x 1 - x 0)) / 2 ≤ lines x σ 5 / 2 * (1 / τ) := by
      rw [mul_one_div, le_div_iff₀ hτ]
      linarith
    simp only [e0]
    linarith
  -- the scale
  let C := lines x σ 5 / 2 + σ 0 * (x 0 - e0)
  have hy5p : 0 < lines x σ 5 := lt_of_lt_of_le (mul_pos (hσ 0) (by linarith)) hy5
  have hC : 0 < C := by
    have := mul_pos (hσ 0) (show 0 < x 0 - e0 by linarith)
    simp only [C]; linarith
  let ε := 1 / (1000000 * C)
  have hε : 0 < ε := by positivity
  have hεC : ε * C = 1 / 1000000 := by simp only [ε]; field_simp
  let sl : Nat → ℝ := fun i => ε * σ i
  have hscale : ∀ i, lines x sl i = ε * lines x σ i := by
    intro i
    induction i with
    | zero => simp [lines]
    | succ i ih => simp only [lines, ih, sl]; ring
  let y := (List.range g.n).map (lines x sl)
  have hylen : y.length = g.n := by simp [y]
  have hget : ∀ j < g.n, y.getD j 0 = ε * lines x σ j := by
    intro j hj
    rw [← hscale]
    simp [y, List.getD_eq_getElem?_getD, hj]
  -- the solver finds the curvatures
  let b : Nat → ℝ := fun i => if i = 3 then -ε else 0
  set A := matrix g.n x jk with hA
  have hsw : Tridiag.Swapped A g.n (rhs g.n x fun i => y.getD i 0) b := by
    intro i hi
    have hb : ∀ j, j ≠ 3 → b j = 0 := fun j hj => by simp only [b]; rw [if_neg hj]
    have hb3 : b 3 = -ε := by simp [b]
    by_cases i0 : i = 0
    · subst i0
      rw [if_pos rfl, if_pos (by omega), hb 0 (by omega), hb (0 + 1) (by omega)]
      simp only [rhs, if_true]
      norm_num
    by_cases il : i = g.n - 1
    · rw [if_neg i0, if_neg (by omega), hb i (by omega), hb (i - 1) (by omega)]
      unfold rhs
      rw [if_neg i0, if_pos il]
      norm_num
    have hrhs := rhs_lines hg sl i i0 (by omega)
    have hAa : A.a i = 1 / 3 * (x (i + 1) - x i) := by
      simp only [hA, matrix]; rw [if_neg (by omega), if_neg i0]; norm_num
    have hAc : A.c i = 1 / 3 * (x i - x (i - 1)) := by
      simp only [hA, matrix]; rw [if_neg i0, if_neg (by omega)]; norm_num
    have hAd : A.d i = 2 / 3 * (x (i + 1) - x (i - 1)) := by
      simp only [hA, matrix]; rw [if_neg i0, if_neg (by omega)]; norm_num
    rw [if_neg i0, if_pos (by omega), hAa, hAc, hAd]
    show _ = rhs g.n g.val (fun j => ((List.range g.n).map (lines g.val sl)).getD j 0) i
    rw [hrhs]
    by_cases i2 : i = 2
    · subst i2
      rw [hb 2 (by omega), hb (2 - 1) (by omega), hb3]
      simp only [sl, σ]
      norm_num [d2]
      ring
    by_cases i3 : i = 3
    · subst i3
      rw [hb (3 - 1) (by omega), hb (3 + 1) (by omega), hb3]
      simp only [sl, σ]
      norm_num [d3]
      ring
    by_cases i4 : i = 4
    · subst i4
      rw [hb 4 (by omega), hb (4 + 1) (by omega), show b (4 - 1) = -ε from hb3]
      simp only [sl, σ]
      norm_num [d4]
      ring
    rw [hb i i3, hb (i - 1) (by omega), hb (i + 1) (by omega)]
    have : σ i = σ (i - 1) := by
      simp only [σ]
      by_cases i1 : i ≤ 1
      · rw [if_pos i1, if_pos (by omega)]
      · rw [if_neg i1, if_neg i2, if_neg i3, if_neg (by omega), if_neg (by omega), if_neg (by omega)]
    simp only [sl, this]
    ring
  obtain ⟨bs, hbs, hnew⟩ := solve_data hg jk y hylen.ge
  obtain ⟨xs, h1, h2, h3⟩ := Tridiag.trig_solve_unique A g.n (by omega) _ b (matrix_d0 _ _ _) hsw
  rw [h1] at hbs
  cases hbs
  have hb' : ∀ i, i < g.n → i ≠ 3 → bs.getD i 0 = 0 := by
    intro i hi hi3
    rcases h3 with h3 | ⟨_, h3⟩
    · rw [h3 i hi]; simp only [b]; rw [if_neg hi3]
    · exact h3 i
  refine ⟨y, hylen, ?_, _, hnew, ε * lines x σ 5 / 2, by positivity, e0, ?_, hneg⟩
  · refine List.pairwise_map.mpr ?_
    have hall : ∀ i j, i < j → j < g.n → lines x sl i < lines x sl j := by
      intro i j hij
      induction j with
      | zero => omega
      | succ j ih =>
        intro hj
        have hs := mul_lt_mul_of_pos_left (hlp j hj) hε
        rw [← hscale, ← hscale] at hs
        rcases Nat.lt_or_ge i j with hlt | hge
        · exact (ih hlt (by omega)).trans hs
        · have : i = j := by omega
          rw [this]; exact hs
    refine List.Pairwise.imp_of_mem ?_ (List.pairwise_lt_range (n := g.n))
    intro i j _ hj hij
    exact hall i j hij (List.mem_range.mp hj)
  · have hw := hg.width
    have hidx := hg.inside 5 (x 5) (by omega) le_rfl (hg.gap 5 (by omega))
    have hlast := mono_le hg 5 (g.n - 1) (by omega) (by omega)
    have h05 := mono_le hg 0 5 (by omega) (by omega)
    have hev : (ofB g y bs).evaluate (x 5) = .ok (ε * lines x σ 5) := by
      rw [evaluate_ofB g y bs hg.size hylen.ge _ _ 5 hidx (by omega) (by omega)
        (fun h' => by linarith) (fun h' => by linarith), if_neg (by linarith), hx, pieces_at_knot, ← hx,
        hget 5 (by omega)]
    have hde : (ofB g y bs).deriv (x 5) = .ok (ε * τ) := by
      rw [deriv_ofB g y bs hg.size _ _ 5 hidx (by omega) (by omega) (fun h' => by linarith),
        if_neg (by linarith), hx, slope_left y bs 5 (by omega), ← hx, hb' 5 (by omega) (by omega),
        hb' 6 (by omega) (by omega), hget 5 (by omega), hget 6 (by omega)]
      have : lines x σ 6 = lines x σ 5 + τ * (x 6 - x 5) := rfl
      have hne : x 6 - x 5 ≠ 0 := by linarith
      refine congrArg Except.ok ?_
      rw [this]
      field_simp
      ring
    have he0 : (ofB g y bs).evaluate e0 = .ok (ε * σ 0 * (e0 - x 0)) := by
      obtain ⟨i, hi, hi0⟩ := hg.below e0 (by linarith)
      rw [evaluate_ofB g y bs hg.size hylen.ge _ i 0 hi (by omega) (by omega) (fun _ => rfl)
        (fun h' h'' => absurd (show e0 < g.val 0 by linarith) h''), if_pos (by linarith)]
      have hc0 : (pieces g y bs).c 0 = ε * σ 0 := by
        have := slope_left (g := g) y bs 0 (by omega)
        rw [hb' 0 (by omega) (by omega), hb' 1 (by omega) (by omega)] at this
        have e : (pieces g y bs).slope g.val 0 (g.val 0) = (pieces g y bs).c 0 := by
          simp [Cubics.slope]
        rw [e, hget 0 (by omega), hget 1 (by omega)] at this
        rw [this]
        have l1 : lines x σ 1 = lines x σ 0 + σ 0 * (x 1 - x 0) := rfl
        have hne : x 1 - x 0 ≠ 0 := by linarith
        rw [← hx, l1]
        field_simp
        ring
      rw [hc0, hget 0 (by omega), ← hx]
      refine congrArg Except.ok ?_
      simp [lines]
    unfold energy_out_spline
    rw [hev, hde]
    simp only [bind_ok]
    rw [if_neg (by rw [le_real]; have := mul_pos hε hy5p; linarith)]
    have hstart : x 5 - ε * lines x σ 5 / 2 * (1.0 / (ε * τ)) = e0 := by
      simp only [e0]
      have hne : τ ≠ 0 := hτ.ne'
      have hne' : ε ≠ 0 := hε.ne'
      rw [show (1.0 : ℝ) = 1 by norm_num]
      field_simp
    rw [hstart]
    unfold energyOutLoop
    rw [he0]
    simp only [bind_ok]
    rw [if_pos ?_]
    · rfl
    · rw [lt_real, fabs_real]
      have : ε * lines x σ 5 - ε * σ 0 * (e0 - x 0) - ε * lines x σ 5 / 2 = 1 / 1000000 := by
        rw [← hεC]; simp only [C]; ring
      rw [this, abs_of_pos (by norm_num)]
      norm_num [Eout_th_epsilon]

/-- C51, refuted on the energy table of the library, for both index options. -/
theorem energy_out_negative (env : Env ℝ) :
    ∃ y : List ℝ, y.length = 600 ∧ y.Pairwise (· < ·) ∧ ∃ s, newSpline env y = .ok s ∧
      ∃ T th E, 0 < T ∧ 0 < th ∧ energy_out_spline env.debug T th s = .ok E ∧ E < 0 := by
  have hb := energy_table_bounds
  have hp := energy_grid (energy_table : EnergyTable ℝ) hb.1 hb.2.1
  have h5 : (energy_table : EnergyTable ℝ).val 5 <
      500 * ((energy_table : EnergyTable ℝ).val 1 - (energy_table : EnergyTable ℝ).val 0) := by
    have hgap := energy_gap 0
    have hs : (energy_table : EnergyTable ℝ).step = 10 / 599 := by
      rw [EnergyTable.step_eq]; norm_num [energy_table, logEmin, logEmax, max_datapoints]
    have h6 : (energy_table : EnergyTable ℝ).val 5 ≤ Real.exp (-(6 : ℕ)) := by
      rw [EnergyTable.val_eq, hs, Real.exp_le_exp]
      norm_num [energy_table, logEmin, LN10]
    have e6 : Real.exp (-((6 : ℕ) : ℝ)) < 1 / 100 := by
      rw [Real.exp_neg, ← mul_one ((6 : ℕ) : ℝ), Real.exp_nat_mul, inv_lt_comm₀ (by positivity) (by norm_num)]
      have h27 : (2.7 : ℝ) < Real.exp 1 := lt_trans (by norm_num) Real.exp_one_gt_d9
      calc (1 / 100 : ℝ)⁻¹ < 2.7 ^ 6 := by norm_num
        _ ≤ _ := pow_le_pow_left₀ (by norm_num) h27.le 6
    norm_num at hgap h6 e6 ⊢
    linarith
  obtain ⟨y, hy, hi, s, hs, th, hth, E, hE, hneg⟩ := energy_out_negative_on env.junk env.debug _ _
    (library_table_ordered env.calcIndex) (by show 7 ≤ 600; decide) (hp.1 0) h5
  exact ⟨y, hy, hi, s, hs, _, th, E, hp.1 5, hth, hE, hneg⟩

end Catima
