import Verif.Props.StragglingJumps

/-!
# Helper lemmas: the X correction times the square of the Lorentz factor grows with the energy
-/

namespace Catima

/-- A lower bound of the energies of the table, in keV/u. -/
def lsLow (j : Nat) : Nat := 1000 * 10843 ^ j / 10000 ^ j

/-- Two neighbouring entries of a row, in units of 1e-11 and increased by `2^39`: the second is not too much smaller. -/
def xSegment (L x0 x1 : Nat) : Bool :=
  Nat.ble (10 * x0 * (9320000000 + 10845 * L) + 15174 * 549755813888 * L) ((15174 * L + 10 * (9320000000 + 10845 * L)) * x1)

/-- The X table up to 10 GeV/u for masses from 0 to three times the atomic weight (-20 and 40 are the extreme values of `da/0.05`). -/
def xRowGrows (ra rh : Nat) : Bool :=
  (List.range 114).all fun j =>
    xSegment (lsLow j) (21 * lsRaw ra j - 20 * lsRaw rh j) (21 * lsRaw ra (j + 1) - 20 * lsRaw rh (j + 1)) &&
    xSegment (lsLow j) (40 * lsRaw rh j - 39 * lsRaw ra j) (40 * lsRaw rh (j + 1) - 39 * lsRaw ra (j + 1))

/-- Its entries lie between 0.5 and 3. -/
def xRowSize (ra rh : Nat) : Bool :=
  (List.range 115).all fun j =>
    let a := lsRaw ra j; let h := lsRaw rh j
    Nat.ble (599755813888 + 20 * h) (21 * a) && Nat.ble (599755813888 + 39 * a) (40 * h) &&
    Nat.ble (21 * a) (849755813888 + 20 * h) && Nat.ble (40 * h) (849755813888 + 39 * a)

theorem xTables_rows : ∀ r, (hr : r < 108) →
    xRowGrows (ls_X_coefficients_a[r]'(by rw [ls_lengths.2.2.1]; omega)) (ls_X_coefficients_ahi[r]'(by rw [ls_lengths.2.2.2]; omega)) = true ∧
    xRowSize (ls_X_coefficients_a[r]'(by rw [ls_lengths.2.2.1]; omega)) (ls_X_coefficients_ahi[r]'(by rw [ls_lengths.2.2.2]; omega)) = true := by
  have h : ((ls_X_coefficients_a.zip ls_X_coefficients_ahi).all fun e => xRowGrows e.1 e.2 && xRowSize e.1 e.2) = true := by decide +kernel
  intro r hr
  rw [List.all_eq_true] at h
  have hz : r < (ls_X_coefficients_a.zip ls_X_coefficients_ahi).length := by
    rw [List.length_zip, ls_lengths.2.2.1, ls_lengths.2.2.2]; omega
  have := h _ (List.getElem_mem hz)
  simpa only [List.getElem_zip, Bool.and_eq_true] using this

theorem xRow_size {ra rh : Nat} (h : xRowSize ra rh = true) (j : Nat) (h2 : j ≤ 114) (s : ℝ) (s0 : -20 ≤ s) (s1 : s ≤ 40) :
    0.5 ≤ ((lsField ra j : ℝ) + s * ((lsField rh j : ℝ) - lsField ra j)) / 10 ^ 11 ∧
    ((lsField ra j : ℝ) + s * ((lsField rh j : ℝ) - lsField ra j)) / 10 ^ 11 ≤ 3 := by
  unfold xRowSize at h
  rw [List.all_eq_true] at h
  have h := h j (List.mem_range.mpr (by omega))
  simp only [Bool.and_eq_true, Nat.ble_eq] at h
  simp only [lsRaw_field]
  generalize lsRaw ra j = a at *
  generalize lsRaw rh j = b at *
  obtain ⟨⟨⟨c1, c2⟩, c3⟩, c4⟩ := h
  have d1 : (599755813888 : ℝ) + 20 * b ≤ 21 * a := by exact_mod_cast c1
  have d2 : (599755813888 : ℝ) + 39 * a ≤ 40 * b := by exact_mod_cast c2
  have d3 : 21 * (a : ℝ) ≤ 849755813888 + 20 * b := by exact_mod_cast c3
  have d4 : 40 * (b : ℝ) ≤ 849755813888 + 39 * a := by exact_mod_cast c4
  push_cast
  rw [le_div_iff₀ (by norm_num), div_le_iff₀ (by norm_num)]
  norm_num
  rcases le_total 0 ((b : ℝ) - a) with hh | hh <;> constructor <;> nlinarith

theorem xSegment_real {L x0 x1 : Nat} (h : xSegment L x0 x1 = true) :
    10 * ((x0 : ℝ) - x1) * (9320000000 + 10845 * L) ≤ 15174 * L * ((x1 : ℝ) - 549755813888) := by
  unfold xSegment at h
  rw [Nat.ble_eq] at h
  have d : 10 * (x0 : ℝ) * (9320000000 + 10845 * L) + 15174 * 549755813888 * L ≤ (15174 * L + 10 * (9320000000 + 10845 * L)) * x1 := by
    exact_mod_cast h
  linarith

theorem xRow_grows {ra rh : Nat} (h : xRowGrows ra rh = true) (hs : xRowSize ra rh = true) (j : Nat) (h2 : j < 114) (s : ℝ) (s0 : -20 ≤ s) (s1 : s ≤ 40)
    (c0 c1 : ℝ) (e0 : c0 = ((lsField ra j : ℝ) + s * ((lsField rh j : ℝ) - lsField ra j)) / 10 ^ 11)
    (e1 : c1 = ((lsField ra (j + 1) : ℝ) + s * ((lsField rh (j + 1) : ℝ) - lsField ra (j + 1))) / 10 ^ 11) :
    10 * (c0 - c1) * (9320000000 + 10845 * lsLow j) ≤ 15174 * lsLow j * c1 := by
  unfold xRowGrows at h
  unfold xRowSize at hs
  rw [List.all_eq_true] at h hs
  have h := h j (List.mem_range.mpr (by omega))
  have g0 := hs j (List.mem_range.mpr (by omega))
  have g1 := hs (j + 1) (List.mem_range.mpr (by omega))
  clear hs
  simp only [Bool.and_eq_true, Nat.ble_eq] at h g0 g1
  obtain ⟨k1, k2⟩ := h
  have k1 := xSegment_real k1
  have k2 := xSegment_real k2
  rw [lsRaw_field, lsRaw_field] at e0 e1
  generalize lsRaw ra j = a at *
  generalize lsRaw rh j = b at *
  generalize lsRaw ra (j + 1) = a' at *
  generalize lsRaw rh (j + 1) = b' at *
  rw [Nat.cast_sub (by omega), Nat.cast_sub (by omega)] at k1 k2
  push_cast at k1 k2 e0 e1
  clear g0 g1
  obtain ⟨l, hl0, hl1, hl⟩ : ∃ l : ℝ, 0 ≤ l ∧ l ≤ 1 ∧ s = (1 - l) * (-20) + l * 40 :=
    ⟨(s + 20) / 60, by linarith, by linarith, by ring⟩
  generalize (lsLow j : ℝ) = L at *
  have f0 : 10 ^ 11 * c0 = (1 - l) * (21 * (a : ℝ) - 20 * b) + l * (40 * (b : ℝ) - 39 * a) - 549755813888 := by
    rw [e0, hl]; ring
  have f1 : 10 ^ 11 * c1 = (1 - l) * (21 * (a' : ℝ) - 20 * b') + l * (40 * (b' : ℝ) - 39 * a') - 549755813888 := by
    rw [e1, hl]; ring
  have m1 := mul_le_mul_of_nonneg_left k1 (sub_nonneg.mpr hl1)
  have m2 := mul_le_mul_of_nonneg_left k2 hl0
  have key : 10 ^ 11 * (10 * (c0 - c1) * (9320000000 + 10845 * L)) ≤ 10 ^ 11 * (15174 * L * c1) := by
    have a1 : (10 : ℝ) ^ 11 * (10 * (c0 - c1) * (9320000000 + 10845 * L)) = 10 * (10 ^ 11 * c0 - 10 ^ 11 * c1) * (9320000000 + 10845 * L) := by ring
    have a2 : (10 : ℝ) ^ 11 * (15174 * L * c1) = 15174 * L * (10 ^ 11 * c1) := by ring
    rw [a1, a2, f0, f1]
    linarith
  exact le_of_mul_le_mul_left key (by norm_num)

theorem lsLow_le (j : Nat) : (lsLow j : ℝ) ≤ 1000 * (ls_energy_table : EnergyTable ℝ).val j := by
  have h1 : (lsLow j : ℝ) ≤ 1000 * 1.0843 ^ j := by
    unfold lsLow
    refine (Nat.cast_div_le).trans ?_
    push_cast
    rw [mul_div_assoc, ← div_pow]
    norm_num
  have h2 : ∀ j : Nat, (1.0843 : ℝ) ^ j ≤ (ls_energy_table : EnergyTable ℝ).val j := by
    intro j
    induction j with
    | zero => rw [ls_first]; norm_num
    | succ j ih =>
      rw [ls_geometric, pow_succ, mul_comm]
      exact mul_le_mul lsRatio_bounds.1 ih (by positivity) (le_trans (by norm_num) lsRatio_bounds.1)
  exact h1.trans (mul_le_mul_of_nonneg_left (h2 j) (by norm_num))

/-- Two neighbouring entries compare as the energies do. -/
theorem X_segment (u t ρ L c0 c1 : ℝ) (hu : u ≤ 932) (t0 : 0 < t) (r0 : 1.0843 ≤ ρ) (r1 : ρ ≤ 1.0845) (L0 : 0 ≤ L) (hL : L ≤ 1000 * t)
    (hu0 : 0 ≤ u) (h1 : 0 ≤ c1) (h : 10 * (c0 - c1) * (9320000000 + 10845 * L) ≤ 15174 * L * c1) :
    (c0 - c1) * (u + ρ * t) ≤ 1.8 * c1 * (ρ * t - t) := by
  norm_num at r0 r1
  have e : ρ * t - t = (ρ - 1) * t := by ring
  rcases le_or_gt (c0 - c1) 0 with hD | hD
  · have a1 : (c0 - c1) * (u + ρ * t) ≤ 0 := mul_nonpos_of_nonpos_of_nonneg hD (by positivity)
    have a2 : 0 ≤ 1.8 * c1 * (ρ * t - t) := by
      rw [e]
      have : 0 ≤ ρ - 1 := by linarith
      positivity
    linarith
  · generalize c0 - c1 = D at *
    have h2 : D * 93200000000 ≤ L * (15174 * c1 - 108450 * D) := by nlinarith
    have h3 : 0 ≤ 15174 * c1 - 108450 * D := by
      by_contra hneg
      have : L * (15174 * c1 - 108450 * D) ≤ 0 := mul_nonpos_of_nonneg_of_nonpos L0 (by linarith)
      linarith
    have h4 : L * (15174 * c1 - 108450 * D) ≤ 1000 * t * (15174 * c1 - 108450 * D) := mul_le_mul_of_nonneg_right hL h3
    have h5 : D * (932 + 1.0845 * t) ≤ 0.15174 * c1 * t := by norm_num; nlinarith
    have h6 : D * (u + ρ * t) ≤ D * (932 + 1.0845 * t) := by
      refine mul_le_mul_of_nonneg_left ?_ hD.le
      norm_num
      nlinarith
    have h7 : 0.15174 * c1 * t ≤ 1.8 * c1 * (ρ * t - t) := by
      rw [e]
      have := mul_le_mul_of_nonneg_left (show (843 : ℝ) / 10000 ≤ ρ - 1 by linarith) (show 0 ≤ c1 * t by positivity)
      norm_num
      linarith
    linarith

/-- Growth between two points of one segment. -/
theorem seg_grow (u t0 t1 c0 c1 x y θ θ' : ℝ) (ht : t0 < t1) (l0 : 0.5 ≤ c0) (l1 : 0.5 ≤ c1) (g0 : c0 ≤ 3) (g1 : c1 ≤ 3)
    (seg : (c0 - c1) * (u + t1) ≤ 1.8 * c1 * (t1 - t0)) (hx : x - t0 = θ * (t1 - t0)) (hy : y - t0 = θ' * (t1 - t0)) (a0 : -1e-12 ≤ θ)
    (hθ : θ ≤ θ') (a1 : θ' ≤ 1) (hux : 0 < u + x) :
    (c0 + θ * (c1 - c0)) * (u + x) ^ 2 + 0.05 * (u + x) * (y - x) ≤ (c0 + θ' * (c1 - c0)) * (u + y) ^ 2 := by
  have d0 : 0 < t1 - t0 := by linarith
  have hyx : y - x = (θ' - θ) * (t1 - t0) := by linarith
  have yx : 0 ≤ y - x := by rw [hyx]; exact mul_nonneg (by linarith) d0.le
  norm_num at l0 l1 a0
  rcases le_total c0 c1 with hc | hc
  · have hl : 2 / 5 ≤ c0 + θ * (c1 - c0) := by
      rcases le_total 0 θ with h | h <;> nlinarith
    have hm : c0 + θ * (c1 - c0) ≤ c0 + θ' * (c1 - c0) := by nlinarith
    have h1 : (c0 + θ * (c1 - c0)) * (u + y) ^ 2 ≤ (c0 + θ' * (c1 - c0)) * (u + y) ^ 2 := mul_le_mul_of_nonneg_right hm (sq_nonneg _)
    generalize c0 + θ * (c1 - c0) = l at *
    have h2 : l * (u + y) ^ 2 - l * (u + x) ^ 2 = l * ((y - x) * (2 * (u + x) + (y - x))) := by ring
    have h3 : 2 / 5 * ((y - x) * (u + x)) ≤ l * ((y - x) * (2 * (u + x) + (y - x))) := by
      apply mul_le_mul hl _ (by positivity) (by linarith)
      exact mul_le_mul_of_nonneg_left (by linarith) yx
    have h4 : 0 ≤ (y - x) * (u + x) := by positivity
    norm_num
    nlinarith
  · -- the slope is negative
    have hxt : u + x ≤ u + t1 := by nlinarith
    have hl : c1 ≤ c0 + θ' * (c1 - c0) := by nlinarith
    have hs : (c0 - c1) * (u + x) ≤ 1.8 * (c0 + θ' * (c1 - c0)) * (t1 - t0) := by
      have b1 : (c0 - c1) * (u + x) ≤ (c0 - c1) * (u + t1) := mul_le_mul_of_nonneg_left hxt (by linarith)
      have b2 : 1.8 * c1 * (t1 - t0) ≤ 1.8 * (c0 + θ' * (c1 - c0)) * (t1 - t0) := by gcongr
      linarith
    have he : (c0 + θ * (c1 - c0)) = (c0 + θ' * (c1 - c0)) + (θ' - θ) * (c0 - c1) := by ring
    rw [he]
    generalize c0 + θ' * (c1 - c0) = l at *
    have l05 : 1 / 2 ≤ l := by linarith
    have h1 : (θ' - θ) * ((c0 - c1) * (u + x)) ≤ (θ' - θ) * (1.8 * l * (t1 - t0)) := mul_le_mul_of_nonneg_left hs (by linarith)
    have h2 : (θ' - θ) * (1.8 * l * (t1 - t0)) = 1.8 * l * (y - x) := by rw [hyx]; ring
    rw [h2] at h1
    have h3 : (θ' - θ) * ((c0 - c1) * (u + x)) * (u + x) ≤ 1.8 * l * (y - x) * (u + x) := mul_le_mul_of_nonneg_right h1 hux.le
    have h4 : l * (u + y) ^ 2 - (l + (θ' - θ) * (c0 - c1)) * (u + x) ^ 2 =
        l * ((y - x) * (2 * (u + x) + (y - x))) - (θ' - θ) * ((c0 - c1) * (u + x)) * (u + x) := by ring
    have h5 : l * ((y - x) * (2 * (u + x))) ≤ l * ((y - x) * (2 * (u + x) + (y - x))) :=
      mul_le_mul_of_nonneg_left (mul_le_mul_of_nonneg_left (by linarith) yx) (by linarith)
    have h6 : 1 / 2 * ((y - x) * (u + x)) ≤ l * ((y - x) * (u + x)) := mul_le_mul_of_nonneg_right l05 (by positivity)
    have h7 : 0 ≤ (y - x) * (u + x) := by positivity
    norm_num at h3 ⊢
    linarith

/-- Just in front of a point of the table. -/
theorem front_point (w v d l l' : ℝ) (w0 : 901 ≤ w) (w1 : w ≤ 12000) (d0 : 0.5 ≤ d) (d1 : d ≤ 3) (hv : w - 1e-9 ≤ v) (hl : d - 2.5e-12 ≤ l')
    (h : l * (w - 1e-6) ^ 2 + 0.05 * (w - 1e-6) * 1e-6 ≤ d * w ^ 2) : l * (w - 1e-6) ^ 2 < l' * v ^ 2 := by
  have q1 : (d - 2.5e-12) * (w - 1e-9) ^ 2 ≤ l' * v ^ 2 := by
    apply mul_le_mul hl _ (sq_nonneg _) (by norm_num at d0 hl; linarith)
    apply pow_le_pow_left₀ _ hv
    norm_num
    linarith
  refine lt_of_lt_of_le ?_ q1
  have e2 : (d - 2.5e-12) * (w - 1e-9) ^ 2 = d * w ^ 2 - (2 * d * 1e-9 * w - d * 1e-18) - 2.5e-12 * (w - 1e-9) ^ 2 := by norm_num; ring
  rw [e2]
  have b1 : 2 * d * 1e-9 * w ≤ 6e-9 * w := by
    refine mul_le_mul_of_nonneg_right ?_ (by linarith)
    norm_num
    linarith
  have b2 : (w - 1e-9) ^ 2 ≤ 12000 * w := by
    rw [pow_two]
    apply mul_le_mul _ _ _ (by norm_num)
    · norm_num; linarith
    · norm_num
    · norm_num; linarith
  have b3 : (0 : ℝ) ≤ d * 1e-18 := by norm_num at d0 ⊢; linarith
  norm_num at b1 b2 b3 h ⊢
  linarith

theorem front_numbers (θ D c0 c1 : ℝ) (b0 : -1e-12 ≤ θ) (h0 : θ ≤ 0) (D0 : 0 < D) (D1 : D ≤ 1000) (l0 : 0.5 ≤ c0) (l1 : 0.5 ≤ c1) (g0 : c0 ≤ 3)
    (g1 : c1 ≤ 3) : -1e-9 ≤ θ * D ∧ c0 - 2.5e-12 ≤ c0 + θ * (c1 - c0) := by
  norm_num at b0 l0 l1 ⊢
  constructor
  · nlinarith
  · nlinarith

/-- Growth over the whole table, for energies at least 1 eV/u apart: in front of each point the code extrapolates the next segment. -/
theorem grid_grow (u : ℝ) (t c : Nat → ℝ) (N : Nat) (u0 : 900 ≤ u) (u1 : u ≤ 932) (t1 : ∀ j, 1 ≤ t j) (tN : ∀ j ≤ N, t j ≤ 11000)
    (tr : ∀ j < N, 0.08 ≤ t (j + 1) - t j ∧ t (j + 1) - t j ≤ 1000) (lo : ∀ j ≤ N, 0.5 ≤ c j) (up : ∀ j ≤ N, c j ≤ 3)
    (seg : ∀ j < N, (c j - c (j + 1)) * (u + t (j + 1)) ≤ 1.8 * c (j + 1) * (t (j + 1) - t j))
    (i i' : Nat) (θ θ' x y : ℝ) (hi : i < N) (hi' : i' < N) (hx : x - t i = θ * (t (i + 1) - t i)) (hy : y - t i' = θ' * (t (i' + 1) - t i'))
    (a0 : -1e-12 ≤ θ) (a1 : θ ≤ 1) (b0 : -1e-12 ≤ θ') (b1 : θ' ≤ 1) (x1 : 1 ≤ x) (hxy : x + 1e-6 ≤ y) :
    (c i + θ * (c (i + 1) - c i)) * (u + x) ^ 2 < (c i' + θ' * (c (i' + 1) - c i')) * (u + y) ^ 2 := by
  have inc : ∀ j < N, t j < t (j + 1) := fun j hj => by have := (tr j hj).1; norm_num at this; linarith
  have tm : ∀ j k, j ≤ k → k ≤ N → t j ≤ t k := by
    intro j k hjk
    induction k, hjk using Nat.le_induction with
    | base => intro _; exact le_rfl
    | succ k hk ih => intro hN; exact (ih (by omega)).trans (inc k (by omega)).le
  have sg : ∀ (k : Nat) (hk : k < N) (θ1 θ2 x1 y1 : ℝ), x1 - t k = θ1 * (t (k + 1) - t k) → y1 - t k = θ2 * (t (k + 1) - t k) → -1e-12 ≤ θ1 →
      θ1 ≤ θ2 → θ2 ≤ 1 → 0 < u + x1 → (c k + θ1 * (c (k + 1) - c k)) * (u + x1) ^ 2 + 0.05 * (u + x1) * (y1 - x1) ≤
        (c k + θ2 * (c (k + 1) - c k)) * (u + y1) ^ 2 := fun k hk θ1 θ2 x1 y1 p1 p2 p3 p4 p5 p6 =>
    seg_grow u (t k) (t (k + 1)) (c k) (c (k + 1)) x1 y1 θ1 θ2 (inc k hk) (lo k hk.le) (lo (k + 1) hk) (up k hk.le) (up (k + 1) hk) (seg k hk) p1 p2 p3 p4 p5 p6
  have Gm : ∀ j k, j ≤ k → k ≤ N → c j * (u + t j) ^ 2 + 45 * (t k - t j) ≤ c k * (u + t k) ^ 2 := by
    intro j k hjk
    induction k, hjk using Nat.le_induction with
    | base => intro _; simp
    | succ k hk ih =>
      intro hN
      have g := sg k (by omega) 0 1 (t k) (t (k + 1)) (by ring) (by ring) (by norm_num) (by norm_num) le_rfl (by linarith [t1 k])
      have g' : 45 * (t (k + 1) - t k) ≤ 0.05 * (u + t k) * (t (k + 1) - t k) := by
        refine mul_le_mul_of_nonneg_right ?_ (sub_nonneg.mpr (inc k (by omega)).le)
        norm_num
        linarith [t1 k]
      have := ih (by omega)
      simp only [zero_mul, add_zero, one_mul, add_sub_cancel] at g
      linarith
  have dd := tr i hi
  have dd' := tr i' hi'
  norm_num at hxy
  have y1 : 1 ≤ y := by linarith
  have le : i ≤ i' := by
    by_contra hlt
    have h1 := tm (i' + 1) i (by omega) hi.le
    have h2 : y ≤ t (i' + 1) := by nlinarith [inc i' hi']
    have h3 : t i - 1e-9 ≤ x := by
      norm_num at a0 ⊢
      rcases le_total 0 θ with h | h
      · nlinarith [inc i hi]
      · nlinarith [inc i hi]
    norm_num at h3
    linarith
  have pos : ∀ z w : ℝ, 1 ≤ z → 0 ≤ w → 45 * w ≤ 0.05 * (u + z) * w := by
    intro z w hz hw
    refine mul_le_mul_of_nonneg_right ?_ hw
    norm_num
    linarith
  rcases Nat.eq_or_lt_of_le le with heq | hlt
  · subst heq
    have hθ : θ ≤ θ' := by
      by_contra hgt
      have : y - t i ≤ x - t i := by rw [hx, hy]; exact mul_le_mul_of_nonneg_right (by linarith) (by linarith [inc i hi])
      linarith
    have g := sg i hi θ θ' x y hx hy a0 hθ b1 (by linarith)
    have := pos x (y - x) x1 (by linarith)
    linarith
  · have xle : x ≤ t (i + 1) := by nlinarith [inc i hi]
    have g1 := sg i hi θ 1 x (t (i + 1)) hx (by ring) a0 a1 le_rfl (by linarith)
    have g1' := pos x (t (i + 1) - x) x1 (by linarith)
    simp only [one_mul, add_sub_cancel] at g1
    rcases le_total 0 θ' with h0 | h0
    · have g2 := Gm (i + 1) i' hlt hi'.le
      have yge : t i' ≤ y := by nlinarith [inc i' hi']
      have g3 := sg i' hi' 0 θ' (t i') y (by ring) hy (by norm_num) h0 b1 (by linarith [t1 i'])
      have g3' := pos (t i') (y - t i') (t1 i') (by linarith)
      simp only [zero_mul, add_zero] at g3
      linarith
    · -- just in front of a point of the table
      obtain ⟨k, rfl⟩ : ∃ k, i' = k + 1 := ⟨i' - 1, by omega⟩
      have yM : y ≤ t (k + 1) := by nlinarith [inc (k + 1) hi']
      have dk := tr k (by omega)
      have dk0 : (0 : ℝ) < t (k + 1) - t k := by linarith [inc k (by omega)]
      norm_num at dk dd'
      obtain ⟨ζ, hζ⟩ : ∃ ζ, ζ = 1 - 1e-6 / (t (k + 1) - t k) := ⟨_, rfl⟩
      have hz : (t (k + 1) - 1e-6) - t k = ζ * (t (k + 1) - t k) := by rw [hζ, sub_mul, div_mul_cancel₀ _ dk0.ne']; ring
      have z0 : 0 ≤ ζ := by
        rw [hζ, sub_nonneg, div_le_one dk0]; norm_num; linarith
      have z1 : ζ ≤ 1 := by rw [hζ]; have : (0 : ℝ) ≤ 1e-6 / (t (k + 1) - t k) := by positivity
                            linarith
      have fx : (c i + θ * (c (i + 1) - c i)) * (u + x) ^ 2 ≤ (c k + ζ * (c (k + 1) - c k)) * (u + (t (k + 1) - 1e-6)) ^ 2 := by
        rcases Nat.eq_or_lt_of_le (show i ≤ k by omega) with hk | hk
        · subst hk
          have hθ : θ ≤ ζ := by
            by_contra hgt
            have : (t (i + 1) - 1e-6) - t i < x - t i := by rw [hx, hz]; exact mul_lt_mul_of_pos_right (by linarith) dk0
            norm_num at this
            linarith
          have g := sg i hi θ ζ x (t (i + 1) - 1e-6) hx hz a0 hθ z1 (by linarith)
          have : 0 ≤ 0.05 * (u + x) * (t (i + 1) - 1e-6 - x) := by
            have h1 : 0 ≤ t (i + 1) - 1e-6 - x := by norm_num; linarith
            have h2 : 0 ≤ u + x := by linarith
            positivity
          linarith
        · have g2 := Gm (i + 1) k hk (by omega)
          have g3 := sg k (by omega) 0 ζ (t k) (t (k + 1) - 1e-6) (by ring) hz (by norm_num) z0 z1 (by linarith [t1 k])
          have h3 : 0 ≤ 0.05 * (u + t k) * (t (k + 1) - 1e-6 - t k) := by
            rw [hz]
            have h2 : 0 ≤ u + t k := by linarith [t1 k]
            positivity
          have h4 := tm (i + 1) k hk (by omega)
          simp only [zero_mul, add_zero] at g3
          linarith
      have fz := sg k (by omega) ζ 1 (t (k + 1) - 1e-6) (t (k + 1)) hz (by ring) (by norm_num; linarith) z1 le_rfl (by norm_num; linarith [t1 (k + 1)])
      simp only [one_mul, add_sub_cancel] at fz
      have M1 := t1 (k + 1)
      have MN := tN (k + 1) hi'.le
      have c5 := lo (k + 1) hi'.le
      have c3 := up (k + 1) hi'.le
      have c5' := lo (k + 1 + 1) hi'
      have c3' := up (k + 1 + 1) hi'
      obtain ⟨dy, cl⟩ := front_numbers θ' _ _ _ b0 h0 (sub_pos.mpr (inc (k + 1) hi')) (by linarith [dd'.2]) c5 c5' c3 c3'
      rw [← hy] at dy
      refine lt_of_le_of_lt fx ?_
      have e1 : (u + (t (k + 1) - 1e-6)) = u + t (k + 1) - 1e-6 := by ring
      have e2 : (t (k + 1) - (t (k + 1) - 1e-6)) = (1e-6 : ℝ) := by ring
      rw [e1, e2] at fz
      rw [e1]
      exact front_point _ _ _ _ _ (by linarith) (by linarith) c5 c3 (by linarith) cl fz

end Catima
