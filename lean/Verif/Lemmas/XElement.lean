import Verif.Props.HeavierElement
import Verif.Props.StragglingJumps

/-!
# Helper lemmas: the X correction of ions of neighbouring elements
-/

namespace Catima

/-- The lookup of X at one energy, for all ions. -/
theorem lindhard_X_all (ci : Bool) (T : ℝ) (h0 : 1 ≤ T) (h9 : T ≤ (ls_energy_table : EnergyTable ℝ).val 199) (hT : LindhardReadable T) :
    ∃ (i : Nat) (θ : ℝ), i < 199 ∧ -1e-12 ≤ θ ∧ θ ≤ 1 ∧ (ls_energy_table : EnergyTable ℝ).val i - 10 * 2⁻¹ ^ 52 ≤ T ∧
      T ≤ (ls_energy_table : EnergyTable ℝ).val (i + 1) ∧
      ∀ (p : Projectile ℝ) (n : Int), p.Ion n → n ≤ 108 → p.T = T → ∃ (s : ℝ) (r : Nat) (hr : r < 108), (r : Int) = n - 1 ∧
        s = 20 * ((p.A - element_atomic_weight n) / element_atomic_weight n) ∧
        ∃ c : Nat → ℝ, (∀ j, c j = ((lsField (ls_X_coefficients_a[r]'(by rw [ls_lengths.2.2.1]; exact hr)) j : ℝ)
          + s * ((lsField (ls_X_coefficients_ahi[r]'(by rw [ls_lengths.2.2.2]; exact hr)) j : ℝ) -
            lsField (ls_X_coefficients_a[r]'(by rw [ls_lengths.2.2.1]; exact hr)) j)) / 10 ^ 11) ∧
        precalculated_lindhard_X ci p = .ok (c i + θ * (c (i + 1) - c i)) := by
  have hb := ls_energy_table_bounds
  obtain ⟨i, θ, hi, ht0, htp, ht1, hb0, hb1, hθ, key⟩ := interpolate_affine ci ls_energy_table hb.1 hb.2.1 hb.2.2
    ls_gap T (by rw [ls_first]; exact h0) h9 hT
  change i + 1 < 200 at hi
  refine ⟨i, θ, by omega, ht0, ht1, hb0, hb1, fun p n hp hn hpT => ?_⟩
  subst hpT
  obtain ⟨r, hr⟩ := Int.eq_ofNat_of_zero_le (show 0 ≤ n - 1 by linarith [hp.pos])
  have hr' : r < 108 := by omega
  refine ⟨_, r, hr', hr.symm, rfl, _, fun j => rfl, ?_⟩
  obtain ⟨y1, hy1, hl1, hv1⟩ := lsRowAt_get ls_X_coefficients_a r (by rw [ls_lengths.2.2.1]; exact hr')
  obtain ⟨y2, hy2, hl2, hv2⟩ := lsRowAt_get ls_X_coefficients_ahi r (by rw [ls_lengths.2.2.2]; exact hr')
  obtain ⟨a1, b1, ha1, hb1', e1⟩ := key y1 hl1
  obtain ⟨a2, b2, ha2, hb2, e2⟩ := key y2 hl2
  rw [hv1 i (by omega)] at ha1
  rw [hv1 (i + 1) (by omega)] at hb1'
  rw [hv2 i (by omega)] at ha2
  rw [hv2 (i + 1) (by omega)] at hb2
  unfold precalculated_lindhard_X
  rw [lsZ_ion hp (by omega), bind_ok]
  rw [if_neg (by rw [lt_real, ls_first]; linarith)]
  unfold lsValue lsValueOf
  rw [hr]
  simp only [hy1, hy2, bind_ok, e1, e2, pure, Except.pure]
  refine congrArg Except.ok ?_
  rw [← Option.some.inj ha1, ← Option.some.inj hb1', ← Option.some.inj ha2, ← Option.some.inj hb2]
  generalize (lsField (ls_X_coefficients_a[r]'(by rw [ls_lengths.2.2.1]; exact hr')) i : ℝ) = A1
  generalize (lsField (ls_X_coefficients_a[r]'(by rw [ls_lengths.2.2.1]; exact hr')) (i + 1) : ℝ) = B1
  generalize (lsField (ls_X_coefficients_ahi[r]'(by rw [ls_lengths.2.2.2]; exact hr')) i : ℝ) = A2
  generalize (lsField (ls_X_coefficients_ahi[r]'(by rw [ls_lengths.2.2.2]; exact hr')) (i + 1) : ℝ) = B2
  generalize (p.A - element_atomic_weight n) / element_atomic_weight n = d
  have e : (0.05 : ℝ) = 1 / 20 := by norm_num
  rw [e]
  ring

/-- The rows of the X table for two neighbouring elements, the second weighted with three times its charge number `w` and the first with
`w - 2`, and the size of the entries of the first, in units of 1e-11; 549755813888 is `2^39`. -/
def xPairGrow (w ra rh ra' rh' : Nat) : Bool :=
  (List.range 87).all fun j =>
    let a := lsRaw ra j; let h := lsRaw rh j; let a' := lsRaw ra' j; let h' := lsRaw rh' j
    let k := 100000000000 + 2 * 549755813888
    Nat.ble ((w - 2) * (21 * a) + w * (20 * h') + k) (w * (21 * a') + (w - 2) * (20 * h)) &&
    Nat.ble ((w - 2) * (21 * a) + w * (39 * a') + k) (w * (40 * h') + (w - 2) * (20 * h)) &&
    Nat.ble ((w - 2) * (40 * h) + w * (20 * h') + k) (w * (21 * a') + (w - 2) * (39 * a)) &&
    Nat.ble ((w - 2) * (40 * h) + w * (39 * a') + k) (w * (40 * h') + (w - 2) * (39 * a))

/-- All entries lie between 0.1 and 3. -/
def xRowBounds (ra rh : Nat) : Bool :=
  (List.range 87).all fun j =>
    let a := lsRaw ra j; let h := lsRaw rh j
    Nat.ble (559755813888 + 20 * h) (21 * a) && Nat.ble (559755813888 + 39 * a) (40 * h) &&
    Nat.ble (21 * a) (849755813888 + 20 * h) && Nat.ble (40 * h) (849755813888 + 39 * a)

set_option maxRecDepth 8000 in
theorem xTables_grow : ∀ r, (hr : r < 91) →
    xPairGrow (3 * (r + 2)) (ls_X_coefficients_a[r]'(by rw [ls_lengths.2.2.1]; omega)) (ls_X_coefficients_ahi[r]'(by rw [ls_lengths.2.2.2]; omega))
      (ls_X_coefficients_a[r + 1]'(by rw [ls_lengths.2.2.1]; omega)) (ls_X_coefficients_ahi[r + 1]'(by rw [ls_lengths.2.2.2]; omega)) = true := by
  have h : ((((ls_X_coefficients_a.zip ls_X_coefficients_ahi).zip ((ls_X_coefficients_a.zip ls_X_coefficients_ahi).drop 1)).take 91).zipIdx.all
      fun e => xPairGrow (3 * (e.2 + 2)) e.1.1.1 e.1.1.2 e.1.2.1 e.1.2.2) = true := by
    decide +kernel
  intro r hr
  rw [List.all_eq_true] at h
  have hz : r < (((ls_X_coefficients_a.zip ls_X_coefficients_ahi).zip ((ls_X_coefficients_a.zip ls_X_coefficients_ahi).drop 1)).take 91).zipIdx.length := by
    rw [List.length_zipIdx, List.length_take, List.length_zip, List.length_drop, List.length_zip, ls_lengths.2.2.1, ls_lengths.2.2.2]; omega
  have := h _ (List.getElem_mem hz)
  simp only [List.getElem_zipIdx, List.getElem_take, List.getElem_zip, List.getElem_drop, Nat.zero_add] at this
  simpa only [Nat.add_comm 1 r] using this

theorem xTables_bounds : ∀ r, (hr : r < 108) →
    xRowBounds (ls_X_coefficients_a[r]'(by rw [ls_lengths.2.2.1]; omega)) (ls_X_coefficients_ahi[r]'(by rw [ls_lengths.2.2.2]; omega)) = true := by
  have h : ((ls_X_coefficients_a.zip ls_X_coefficients_ahi).all fun e => xRowBounds e.1 e.2) = true := by decide +kernel
  intro r hr
  rw [List.all_eq_true] at h
  have hz : r < (ls_X_coefficients_a.zip ls_X_coefficients_ahi).length := by
    rw [List.length_zip, ls_lengths.2.2.1, ls_lengths.2.2.2]; omega
  have := h _ (List.getElem_mem hz)
  simpa only [List.getElem_zip] using this

theorem grow_corner (v w a h a' h' s s' k : ℝ) (v0 : 0 ≤ v) (w0 : 0 ≤ w) (c1 : v * (21 * a) + w * (20 * h') + k ≤ w * (21 * a') + v * (20 * h))
    (c2 : v * (21 * a) + w * (39 * a') + k ≤ w * (40 * h') + v * (20 * h)) (c3 : v * (40 * h) + w * (20 * h') + k ≤ w * (21 * a') + v * (39 * a))
    (c4 : v * (40 * h) + w * (39 * a') + k ≤ w * (40 * h') + v * (39 * a)) (s0 : -20 ≤ s) (s1 : s ≤ 40) (t0 : -20 ≤ s') (t1 : s' ≤ 40) :
    v * (a + s * (h - a)) + k ≤ w * (a' + s' * (h' - a')) := by
  have x : ∀ a h s : ℝ, -20 ≤ s → s ≤ 40 → a + s * (h - a) ≤ 21 * a - 20 * h ∨ a + s * (h - a) ≤ 40 * h - 39 * a := by
    intro a h s h1 h2
    rcases le_total 0 (h - a) with hh | hh
    · right; nlinarith
    · left; nlinarith
  have y : ∀ a h s : ℝ, -20 ≤ s → s ≤ 40 → 21 * a - 20 * h ≤ a + s * (h - a) ∨ 40 * h - 39 * a ≤ a + s * (h - a) := by
    intro a h s h1 h2
    rcases le_total 0 (h - a) with hh | hh
    · left; nlinarith
    · right; nlinarith
  rcases x a h s s0 s1 with h1 | h1 <;> rcases y a' h' s' t0 t1 with h2 | h2
  all_goals
    have m1 := mul_le_mul_of_nonneg_left h1 v0
    have m2 := mul_le_mul_of_nonneg_left h2 w0
    linarith

theorem xRow_grow {r ra rh ra' rh' : Nat} (h : xPairGrow (3 * (r + 2)) ra rh ra' rh' = true) (j : Nat) (h2 : j ≤ 86)
    (s s' : ℝ) (s0 : -20 ≤ s) (s1 : s ≤ 40) (t0 : -20 ≤ s') (t1 : s' ≤ 40) :
    (3 * (r : ℝ) + 4) * (((lsField ra j : ℝ) + s * ((lsField rh j : ℝ) - lsField ra j)) / 10 ^ 11) + 1 ≤
      (3 * (r : ℝ) + 6) * (((lsField ra' j : ℝ) + s' * ((lsField rh' j : ℝ) - lsField ra' j)) / 10 ^ 11) := by
  unfold xPairGrow at h
  rw [List.all_eq_true] at h
  have h := h j (List.mem_range.mpr (by omega))
  simp only [Bool.and_eq_true, Nat.ble_eq, show 3 * (r + 2) = 3 * r + 6 by omega] at h
  simp only [lsRaw_field]
  generalize lsRaw ra j = a at *
  generalize lsRaw rh j = b at *
  generalize lsRaw ra' j = a' at *
  generalize lsRaw rh' j = b' at *
  obtain ⟨⟨⟨c1, c2⟩, c3⟩, c4⟩ := h
  have d1 : (3 * (r : ℝ) + 4) * (21 * a) + (3 * (r : ℝ) + 6) * (20 * b') + (100000000000 + 2 * 549755813888) ≤
    (3 * (r : ℝ) + 6) * (21 * a') + (3 * (r : ℝ) + 4) * (20 * b) := by exact_mod_cast c1
  have d2 : (3 * (r : ℝ) + 4) * (21 * a) + (3 * (r : ℝ) + 6) * (39 * a') + (100000000000 + 2 * 549755813888) ≤
    (3 * (r : ℝ) + 6) * (40 * b') + (3 * (r : ℝ) + 4) * (20 * b) := by exact_mod_cast c2
  have d3 : (3 * (r : ℝ) + 4) * (40 * b) + (3 * (r : ℝ) + 6) * (20 * b') + (100000000000 + 2 * 549755813888) ≤
    (3 * (r : ℝ) + 6) * (21 * a') + (3 * (r : ℝ) + 4) * (39 * a) := by exact_mod_cast c3
  have d4 : (3 * (r : ℝ) + 4) * (40 * b) + (3 * (r : ℝ) + 6) * (39 * a') + (100000000000 + 2 * 549755813888) ≤
    (3 * (r : ℝ) + 6) * (40 * b') + (3 * (r : ℝ) + 4) * (39 * a) := by exact_mod_cast c4
  have key := grow_corner _ _ a b a' b' s s' _ (by positivity) (by positivity) d1 d2 d3 d4 s0 s1 t0 t1
  push_cast
  rw [mul_div_assoc', mul_div_assoc', div_add_one (by norm_num), div_le_div_iff_of_pos_right (by norm_num)]
  norm_num
  nlinarith

theorem xRow_bounds {ra rh : Nat} (h : xRowBounds ra rh = true) (j : Nat) (h2 : j ≤ 86) (s : ℝ) (s0 : -20 ≤ s) (s1 : s ≤ 40) :
    0.1 ≤ ((lsField ra j : ℝ) + s * ((lsField rh j : ℝ) - lsField ra j)) / 10 ^ 11 ∧
    ((lsField ra j : ℝ) + s * ((lsField rh j : ℝ) - lsField ra j)) / 10 ^ 11 ≤ 3 := by
  unfold xRowBounds at h
  rw [List.all_eq_true] at h
  have h := h j (List.mem_range.mpr (by omega))
  simp only [Bool.and_eq_true, Nat.ble_eq] at h
  simp only [lsRaw_field]
  generalize lsRaw ra j = a at *
  generalize lsRaw rh j = b at *
  obtain ⟨⟨⟨c1, c2⟩, c3⟩, c4⟩ := h
  have d1 : (559755813888 : ℝ) + 20 * b ≤ 21 * a := by exact_mod_cast c1
  have d2 : (559755813888 : ℝ) + 39 * a ≤ 40 * b := by exact_mod_cast c2
  have d3 : 21 * (a : ℝ) ≤ 849755813888 + 20 * b := by exact_mod_cast c3
  have d4 : 40 * (b : ℝ) ≤ 849755813888 + 39 * a := by exact_mod_cast c4
  push_cast
  rw [le_div_iff₀ (by norm_num), div_le_iff₀ (by norm_num)]
  norm_num
  rcases le_total 0 ((b : ℝ) - a) with hh | hh <;> constructor <;> nlinarith

theorem mix_grow (v w θ a b a' b' : ℝ) (h0 : -1e-12 ≤ θ) (h1 : θ ≤ 1) (v0 : 0 ≤ v) (w0 : 0 ≤ w) (v1 : v ≤ 300) (w1 : w ≤ 300)
    (ha : v * a + 1 ≤ w * a') (hb : v * b + 1 ≤ w * b') (ra : |b - a| ≤ 3) (ra' : |b' - a'| ≤ 3) :
    v * (a + θ * (b - a)) < w * (a' + θ * (b' - a')) := by
  rw [abs_le] at ra ra'
  rcases le_total 0 θ with h | h
  · have e1 : v * (a + θ * (b - a)) = (1 - θ) * (v * a) + θ * (v * b) := by ring
    have e2 : w * (a' + θ * (b' - a')) = (1 - θ) * (w * a') + θ * (w * b') := by ring
    rw [e1, e2]
    nlinarith
  · have b1 : v * (b - a) ≤ 900 := by nlinarith
    have b2 : -900 ≤ v * (b - a) := by nlinarith
    have b3 : w * (b' - a') ≤ 900 := by nlinarith
    have b4 : -900 ≤ w * (b' - a') := by nlinarith
    have e1 : v * (a + θ * (b - a)) = v * a + θ * (v * (b - a)) := by ring
    have e2 : w * (a' + θ * (b' - a')) = w * a' + θ * (w * (b' - a')) := by ring
    rw [e1, e2]
    generalize v * (b - a) = x at *
    generalize w * (b' - a') = y at *
    norm_num at h0
    nlinarith

/-- The X correction of ions of neighbouring elements, at most three times as heavy as the atomic weight. -/
theorem X_pair (ci : Bool) {p p' : Projectile ℝ} {n : Int} (hp : p.Ion n) (hp' : p'.Ion (n + 1)) (hn : n ≤ 91)
    (hA : p.A ≤ 3 * element_atomic_weight n) (hA' : p'.A ≤ 3 * element_atomic_weight (n + 1)) (hT : p'.T = p.T)
    (h3 : p.T ≤ 1000) : ∃ v v', precalculated_lindhard_X ci p = .ok v ∧ precalculated_lindhard_X ci p' = .ok v' ∧
      (3 * (n : ℝ) + 1) * v < (3 * (n : ℝ) + 3) * v' ∧ 0 ≤ v' := by
  rcases lt_or_ge p.T 1 with h1 | h1
  · refine ⟨1, 1, X_low ci p n hp (by rw [ls_first]; exact h1), X_low ci p' _ hp' (by rw [ls_first, hT]; exact h1), by linarith, by norm_num⟩
  have hw := atomic_weight_pos n hp.pos (by omega)
  have hw' := atomic_weight_pos (n + 1) hp'.pos (by omega)
  have hb := ls_energy_table_bounds
  have hvle := (EnergyTable.val_le_iff (ls_energy_table : EnergyTable ℝ) hb.1 hb.2.1)
  have h86 := ls_val_86
  have top := (hvle 86 199).mpr (by omega)
  obtain ⟨i, θ, hi, ht0, ht1, hb0, hb1, key⟩ := lindhard_X_all ci p.T h1 (by linarith) (Or.inl (below_top p.T (by linarith)))
  obtain ⟨s, r, hr, hrn, hs, c, hc, e⟩ := key p n hp (by omega) rfl
  obtain ⟨s', r', hr', hrn', hs', c', hc', e'⟩ := key p' (n + 1) hp' (by omega) hT
  have er : r' = r + 1 := by omega
  subst er
  refine ⟨_, _, e, e', ?_⟩
  have range : ∀ A w : ℝ, 0 < w → 0 < A → A ≤ 3 * w → -20 ≤ 20 * ((A - w) / w) ∧ 20 * ((A - w) / w) ≤ 40 := by
    intro A w hw hA hA3
    have h2 : -1 ≤ (A - w) / w := by rw [le_div_iff₀ hw]; linarith
    have h3 : (A - w) / w ≤ 2 := by rw [div_le_iff₀ hw]; linarith
    constructor <;> linarith
  have hs0 := range p.A _ hw hp.A hA
  have hs0' := range p'.A _ hw' hp'.A hA'
  rw [← hs] at hs0
  rw [← hs'] at hs0'
  norm_num at hb0
  have i85 : i ≤ 85 := by
    by_contra hlt
    have := (hvle 86 i).mpr (by omega)
    linarith
  have tab : ∀ j, j ≤ 86 → (3 * (r : ℝ) + 4) * c j + 1 ≤ (3 * (r : ℝ) + 6) * c' j ∧ (0.1 ≤ c j ∧ c j ≤ 3) ∧ 0.1 ≤ c' j ∧ c' j ≤ 3 := by
    intro j j2
    rw [hc, hc']
    exact ⟨xRow_grow (xTables_grow r (by omega)) j j2 s s' hs0.1 hs0.2 hs0'.1 hs0'.2,
      xRow_bounds (xTables_bounds r hr) j j2 s hs0.1 hs0.2, xRow_bounds (xTables_bounds (r + 1) hr') j j2 s' hs0'.1 hs0'.2⟩
  have en : (n : ℝ) = (r : ℝ) + 1 := by
    have : n = (r : Int) + 1 := by omega
    rw [this]; push_cast; ring
  obtain ⟨t1, ⟨a0, a1⟩, b0, b1⟩ := tab i (by omega)
  obtain ⟨t2, ⟨a2, a3⟩, b2, b3⟩ := tab (i + 1) (by omega)
  norm_num at a0 a2 b0 b2
  have rb : (r : ℝ) ≤ 90 := by exact_mod_cast (by omega : r ≤ 90)
  have r0 : (0 : ℝ) ≤ r := by positivity
  constructor
  · rw [en, show 3 * ((r : ℝ) + 1) + 1 = 3 * r + 4 by ring, show 3 * ((r : ℝ) + 1) + 3 = 3 * r + 6 by ring]
    exact mix_grow _ _ θ _ _ _ _ ht0 ht1 (by linarith) (by linarith) (by linarith) (by linarith) t1 t2
      (abs_le.mpr ⟨by linarith, by linarith⟩) (abs_le.mpr ⟨by linarith, by linarith⟩)
  · norm_num at ht0 ⊢
    rcases le_total 0 θ with h | h <;> nlinarith

end Catima
