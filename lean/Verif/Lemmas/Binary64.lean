import Verif.Spec.Rounding
import Mathlib.Algebra.Order.Archimedean.Basic
import Mathlib.Data.Set.Finite.Lattice
import Mathlib.Order.Interval.Set.Infinite
import Mathlib.Algebra.Order.Round

/-!
# Rounding to the nearest double-precision number

The numbers `m 2^e` with `|m| ≤ 2^53` and `e ≥ -1074` are the finite numbers of the format binary64, if the
largest exponent is disregarded.  Every function that picks a nearest one of these, symmetrically, is a `Rounding`.
-/

namespace Catima

/-- The finite numbers of binary64, without the upper bound of the exponent. -/
def binary64 : Set ℝ := {x | ∃ (m : ℤ) (e : ℕ), |m| ≤ 2 ^ 53 ∧ x = m * 2 ^ ((e : ℤ) - 1074)}

theorem binary64_zero : (0 : ℝ) ∈ binary64 := ⟨0, 0, by norm_num, by norm_num⟩

theorem binary64_neg {x : ℝ} (h : x ∈ binary64) : -x ∈ binary64 := by
  obtain ⟨m, e, h1, h2⟩ := h
  exact ⟨-m, e, by rwa [abs_neg], by rw [h2]; push_cast; ring⟩

/-- There is a nearest number. -/
theorem binary64_nearest (x : ℝ) : ∃ d ∈ binary64, ∀ d' ∈ binary64, |d - x| ≤ |d' - x| := by
  have hu : (0 : ℝ) < 2 ^ (-1074 : ℤ) := by positivity
  have hfin : (binary64 ∩ {d | |d - x| ≤ |x|}).Finite := by
    refine ((Set.finite_Icc (-⌈2 * |x| / 2 ^ (-1074 : ℤ)⌉) ⌈2 * |x| / 2 ^ (-1074 : ℤ)⌉).image
      (fun n : ℤ => (n : ℝ) * 2 ^ (-1074 : ℤ))).subset ?_
    rintro d ⟨⟨m, e, -, h2⟩, hd⟩
    have hd : |d - x| ≤ |x| := hd
    refine ⟨m * 2 ^ e, ?_, ?_⟩
    · have hdn : d = ((m * 2 ^ e : ℤ) : ℝ) * 2 ^ (-1074 : ℤ) := by
        rw [h2, sub_eq_add_neg, zpow_add₀ (by norm_num)]
        push_cast
        rw [zpow_natCast]; ring
      have hb : |d| ≤ 2 * |x| := by
        have := abs_sub_abs_le_abs_sub d x
        linarith
      have hc : |((m * 2 ^ e : ℤ) : ℝ)| ≤ 2 * |x| / 2 ^ (-1074 : ℤ) := by
        rw [le_div_iff₀ hu]
        calc |((m * 2 ^ e : ℤ) : ℝ)| * 2 ^ (-1074 : ℤ) = |d| := by rw [hdn, abs_mul, abs_of_pos hu]
          _ ≤ _ := hb
      have hc' := hc.trans (Int.le_ceil _)
      have : |m * 2 ^ e| ≤ ⌈2 * |x| / 2 ^ (-1074 : ℤ)⌉ := by exact_mod_cast hc'
      exact ⟨(abs_le.mp this).1, (abs_le.mp this).2⟩
    · show ((m * 2 ^ e : ℤ) : ℝ) * 2 ^ (-1074 : ℤ) = d
      rw [h2, sub_eq_add_neg, zpow_add₀ (by norm_num)]
      push_cast
      rw [zpow_natCast]; ring
  obtain ⟨d, ⟨hd1, hd2⟩, hd3⟩ := Set.exists_min_image _ (fun d => |d - x|) hfin
    ⟨0, binary64_zero, by simp⟩
  refine ⟨d, hd1, fun d' h' => ?_⟩
  by_cases h : |d' - x| ≤ |x|
  · exact hd3 d' ⟨h', h⟩
  · exact hd2.trans (le_of_lt (not_le.mp h))

/-- Every number of normal size has a neighbour within half a unit of the last place. -/
theorem binary64_close (x : ℝ) (hx : 2 ^ (-1022 : ℤ) ≤ |x|) : ∃ d ∈ binary64, |d - x| ≤ 2 ^ (-53 : ℤ) * |x| := by
  have hpos : 0 < |x| := lt_of_lt_of_le (by positivity) hx
  obtain ⟨e, he1, he2⟩ := exists_mem_Ico_zpow (x := |x|) (y := 2) hpos (by norm_num)
  have hee : -1022 ≤ e := by
    have : (2 : ℝ) ^ (-1022 : ℤ) < 2 ^ (e + 1) := hx.trans_lt he2
    have := (zpow_lt_zpow_iff_right₀ (by norm_num : (1 : ℝ) < 2)).mp this
    omega
  have hu : (0 : ℝ) < 2 ^ (e - 52) := by positivity
  obtain ⟨n, hn⟩ : ∃ n : ℕ, (n : ℤ) = e - 52 + 1074 := ⟨(e - 52 + 1074).toNat, by omega⟩
  refine ⟨round (x / 2 ^ (e - 52)) * 2 ^ (e - 52), ⟨round (x / 2 ^ (e - 52)), n, ?_, ?_⟩, ?_⟩
  · have h1 : |x / 2 ^ (e - 52)| < 2 ^ 53 := by
      rw [abs_div, abs_of_pos hu, div_lt_iff₀ hu]
      refine he2.trans_le (le_of_eq ?_)
      rw [← zpow_natCast, ← zpow_add₀ (by norm_num)]
      congr 1
      push_cast
      ring
    have h2 := abs_sub_round (x / 2 ^ (e - 52))
    have h3 : |(round (x / 2 ^ (e - 52)) : ℝ)| < 2 ^ 53 + 1 := by
      have := abs_sub_abs_le_abs_sub ((round (x / 2 ^ (e - 52)) : ℝ)) (x / 2 ^ (e - 52))
      rw [abs_sub_comm] at this
      linarith
    have h4 : |round (x / 2 ^ (e - 52))| < 2 ^ 53 + 1 := by exact_mod_cast h3
    omega
  · rw [hn]; congr 2; ring
  · have h2 := abs_sub_round (x / 2 ^ (e - 52))
    have h3 : (round (x / 2 ^ (e - 52)) : ℝ) * 2 ^ (e - 52) - x =
        -((x / 2 ^ (e - 52) - round (x / 2 ^ (e - 52))) * 2 ^ (e - 52)) := by
      field_simp
      ring
    rw [h3, abs_neg, abs_mul, abs_of_pos hu]
    calc _ ≤ 1 / 2 * (2 : ℝ) ^ (e - 52) := mul_le_mul_of_nonneg_right h2 hu.le
      _ = 2 ^ (-53 : ℤ) * 2 ^ e := by
        rw [← zpow_add₀ (by norm_num), show (-53 : ℤ) + e = -1 + (e - 52) by ring, zpow_add₀ (by norm_num)]
        norm_num
      _ ≤ _ := mul_le_mul_of_nonneg_left he1 (by positivity)

/-- Rounding to nearest, whatever is done in case of a tie, is a `Rounding`. -/
def Rounding.ofNearest (rd : ℝ → ℝ) (h1 : ∀ x, rd x ∈ binary64)
    (h2 : ∀ x, ∀ d ∈ binary64, |rd x - x| ≤ |d - x|) (h3 : ∀ x, rd (-x) = -rd x) : Rounding where
  rd := rd
  mono := by
    intro x y hxy
    by_contra h
    have h := not_le.mp h
    rcases hxy.eq_or_lt with rfl | hlt
    · exact lt_irrefl _ h
    have a := h2 x _ (h1 y)
    have b := h2 y _ (h1 x)
    have a' := sq_le_sq.mpr a
    have b' := sq_le_sq.mpr b
    nlinarith [mul_pos (sub_pos.mpr h) (sub_pos.mpr hlt)]
  neg := h3
  idem := by
    intro x
    have := h2 (rd x) _ (h1 x)
    rw [sub_self, abs_zero] at this
    exact sub_eq_zero.mp (abs_nonpos_iff.mp this)
  int := by
    intro n hn
    have := h2 n n ⟨n, 1074, hn, by norm_num⟩
    rw [sub_self, abs_zero] at this
    exact sub_eq_zero.mp (abs_nonpos_iff.mp this)
  rel := by
    intro x hx
    obtain ⟨d, hd, hb⟩ := binary64_close x hx
    exact (h2 x d hd).trans hb

/-- There is such a rounding. -/
theorem binary64_rounding : ∃ R : Rounding, (∀ x, R.rd x ∈ binary64) ∧
    ∀ x, ∀ d ∈ binary64, |R.rd x - x| ≤ |d - x| := by
  choose N hN1 hN2 using binary64_nearest
  have hN0 : N 0 = 0 := by
    have := hN2 0 0 binary64_zero
    simpa using this
  let rd : ℝ → ℝ := fun x => if 0 ≤ x then N x else -N (-x)
  have h1 : ∀ x, rd x ∈ binary64 := by
    intro x
    simp only [rd]
    split_ifs
    · exact hN1 x
    · exact binary64_neg (hN1 _)
  have h2 : ∀ x, ∀ d ∈ binary64, |rd x - x| ≤ |d - x| := by
    intro x d hd
    simp only [rd]
    split_ifs
    · exact hN2 x d hd
    · have := hN2 (-x) _ (binary64_neg hd)
      rw [show -N (-x) - x = -(N (-x) - -x) by ring, abs_neg]
      rw [show -d - -x = -(d - x) by ring, abs_neg] at this
      exact this
  have h3 : ∀ x, rd (-x) = -rd x := by
    intro x
    simp only [rd]
    rcases lt_trichotomy x 0 with h | h | h
    · rw [if_pos (by linarith), if_neg (by linarith), neg_neg]
    · subst h
      simp [hN0]
    · rw [if_neg (by linarith), if_pos h.le, neg_neg]
  exact ⟨Rounding.ofNearest rd h1 h2 h3, h1, h2⟩

/-- So the theorems about rounded arithmetic apply to rounding to nearest with exact functions. -/
theorem floatModel_exists : ∃ F : FloatModel, (∀ x, F.rd x ∈ binary64) ∧
    (∀ x, ∀ d ∈ binary64, |F.rd x - x| ≤ |d - x|) ∧ F.exp = Real.exp := by
  obtain ⟨R, h⟩ := binary64_rounding
  exact ⟨{ R with
    exp := Real.exp, log := Real.log, log1p := fun x => Real.log (1 + x), log10 := Real.logb 10,
    pow := fun x y => x ^ y
    exp_nonneg := fun x => (Real.exp_pos x).le
    exp_le_one := fun x h => Real.exp_le_one_iff.mpr h
    log_nonneg := fun x h => Real.log_nonneg h
    log1p_nonneg := fun x h => Real.log_nonneg (by linarith)
    pow_nonneg := fun x y h => Real.rpow_nonneg h y }, h.1, h.2, rfl⟩

end Catima
