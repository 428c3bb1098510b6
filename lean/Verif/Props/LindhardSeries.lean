import Verif.Model.LindhardExact
import Verif.Lemmas.Complex
import Verif.Spec.LindhardSeries
import Mathlib.Algebra.BigOperators.Intervals

/-!
# C94: the Lindhard-Sørensen corrections computed from phase shifts
-/

namespace Catima

theorem some_bind' {β γ : Type} (x : β) (f : β → Option γ) : (some x >>= f) = f x := rfl

/-- Every phase shift with `|k| ≤ K + 1` is computed within `fuel` turns, with value `δ k`. -/
def Shifts (fuel : ℕ) (c : LsInput ℝ) (δ : ℤ → ℝ) (K : ℕ) : Prop :=
  ∀ k : ℤ, k ≠ 0 → |k| ≤ K + 2 → phaseShift fuel c (k : ℝ) = some (δ k)

theorem Shifts.at {fuel : ℕ} {c : LsInput ℝ} {δ : ℤ → ℝ} {K : ℕ} (h : Shifts fuel c δ K) (k : ℤ)
    (x : ℝ) (hx : x = k) (h0 : k ≠ 0) (h1 : -(K + 2 : ℤ) ≤ k) (h2 : k ≤ K + 2) :
    phaseShift fuel c x = some (δ k) := by
  rw [hx]
  exact h k h0 (abs_le.mpr ⟨h1, h2⟩)

/-- One turn of the loop adds one term of the series and keeps the last two phase shifts. -/
theorem lsStep_term (fuel : ℕ) (c : LsInput ℝ) (δ : ℤ → ℝ) (K n : ℕ) (h : Shifts fuel c δ K)
    (hn : 1 ≤ n) (hnK : n ≤ K) (s : LsState ℝ)
    (h1 : 1 < n → s.dmk = δ (-n) ∧ s.dkm1 = δ (n - 1)) :
    lsStep fuel c s n = some ⟨s.sum + lsTerm c.eta δ n, δ (-(n + 1 : ℕ)), δ n⟩ := by
  have p0 := h.at n (Scalar.ofInt (n : Int)) (by rw [ofInt_real]) (by omega) (by omega) (by omega)
  have p1 := h.at (-(n + 1 : ℕ)) (-Scalar.ofInt (n : Int) - 1.0)
    (by rw [ofInt_real]; push_cast; norm_num; ring) (by omega) (by omega) (by omega)
  have e2 : (2.0 : ℝ) = 2 := by norm_num
  have e4 : (4.0 : ℝ) = 4 := by norm_num
  have e1 : (1.0 : ℝ) = 1 := by norm_num
  have hnr : (1 : ℝ) ≤ n := by exact_mod_cast hn
  unfold lsStep
  dsimp only
  rw [p0, some_bind', p1, some_bind']
  have hneg : (-(n + 1 : ℕ) : ℤ) = -n - 1 := by push_cast; ring
  by_cases hn1 : n = 1
  · subst hn1
    have p2 := h.at (-1) (-Scalar.ofInt ((1 : ℕ) : Int)) (by rw [ofInt_real]; norm_num) (by omega)
      (by omega) (by omega)
    rw [if_pos rfl, p2, some_bind', if_neg (by omega)]
    show some _ = some _
    congr 2
    unfold lsTerm
    simp only [TrigScalar.sin, ofInt_real, e1, e2, e4]
    norm_num
    ring
  · obtain ⟨hd, hd'⟩ := h1 (by omega)
    rw [if_neg hn1]
    have : (pure s.dmk : Option ℝ) = some (δ (-n)) := by rw [hd]; rfl
    rw [this, some_bind', if_pos (by omega), hd']
    show some _ = some _
    congr 2
    unfold lsTerm
    rw [hneg]
    simp only [TrigScalar.sin, ofInt_real, e1, e2, e4, Int.cast_natCast]
    rw [show (4 : ℝ) * n ^ 2 = 4 * n * n by ring]
    have key : ∀ x y e z s : ℝ, x * y * s * s / (e * e * z) = x / e ^ 2 * (y / z * s ^ 2) := by
      intro x y e z s; ring
    have key' : ∀ x e z s : ℝ, x * s * s / (e * e * z) = x / e ^ 2 * (1 / z * s ^ 2) := by
      intro x e z s; ring
    rw [key, key, key']
    ring

theorem foldlM_ls (fuel : ℕ) (c : LsInput ℝ) (δ : ℤ → ℝ) (K : ℕ) (h : Shifts fuel c δ K) (m : ℕ) :
    m ≤ K → 1 ≤ m → (List.range' 1 m).foldlM (lsStep fuel c) ⟨0.0, 0.0, 0.0⟩ =
      some ⟨∑ k ∈ Finset.Icc 1 m, lsTerm c.eta δ k, δ (-(m + 1 : ℕ)), δ m⟩ := by
  induction m with
  | zero => intro _ h0; omega
  | succ m ih =>
    intro hm _
    rw [List.range'_1_concat, List.foldlM_append]
    by_cases h0 : m = 0
    · subst h0
      show (some _ >>= fun s => List.foldlM (lsStep fuel c) s [1 + 0]) = _
      rw [some_bind', List.foldlM_cons,
        lsStep_term fuel c δ K 1 h le_rfl hm _ (by omega), some_bind']
      show some _ = some _
      simp
      norm_num
    · rw [ih (by omega) (by omega), some_bind', List.foldlM_cons,
        lsStep_term fuel c δ K (1 + m) h (by omega) (by omega) _ (by
          intro _
          refine ⟨by rw [add_comm], by congr 1; push_cast; ring⟩), some_bind']
      show some _ = some _
      rw [Finset.sum_Icc_succ_top (by omega), add_comm 1 m]

/-- C94: below the ultrarelativistic limit `bethek_lindhard` is the sum of the first 4999 terms of
the series of Lindhard and Sørensen, plus `β²/2`.  In particular the phase shifts carried from one
turn of the loop to the next are the ones the series asks for. -/
theorem lindhard_series (fuel : ℕ) (p : Projectile ℝ) (δ : ℤ → ℝ)
    (hγ : 1 + p.T / 931.4940954 < 10 / (Real.exp (Real.log p.A / 3) * 3.05573356675e-3))
    (h : Shifts fuel (lsInput p) δ 4999) :
    bethek_lindhard fuel p =
      some ((∑ k ∈ Finset.Icc 1 4999,
        lsTerm (p.Z * (1 / 137.035999139) / √(1 - 1 / (1 + p.T / 931.4940954) ^ 2)) δ k) +
        (1 - 1 / (1 + p.T / 931.4940954) ^ 2) / 2) := by
  have e1 : (1.0 : ℝ) = 1 := by norm_num
  have e3 : (3.0 : ℝ) = 3 := by norm_num
  have e10 : (10.0 : ℝ) = 10 := by norm_num
  unfold bethek_lindhard
  dsimp only
  rw [if_pos (by
    rw [lt_real]
    simp only [lsInput, atomic_mass_unit, exp_real, log_real, e1, e3, e10]
    exact hγ), foldlM_ls fuel _ δ 4999 h 4999 le_rfl (by norm_num)]
  show some _ = some _
  congr 1
  simp only [lsInput, atomic_mass_unit, fine_structure, sqrt_real, e1, ← pow_two]
  norm_num
  ring

/-- C94: in the ultrarelativistic limit the result is `-ln(βγR) - 0.2 + β²/2`, whatever the
charge, and no loop is run. -/
theorem lindhard_ultrarelativistic (fuel : ℕ) (p : Projectile ℝ)
    (hγ : 10 / (Real.exp (Real.log p.A / 3) * 3.05573356675e-3) ≤ 1 + p.T / 931.4940954) :
    bethek_lindhard fuel p =
      some (-Real.log (√(1 - 1 / (1 + p.T / 931.4940954) ^ 2) * (1 + p.T / 931.4940954) *
        (Real.exp (Real.log p.A / 3) * 3.05573356675e-3)) - 0.2 +
        (1 - 1 / (1 + p.T / 931.4940954) ^ 2) / 2) := by
  have e1 : (1.0 : ℝ) = 1 := by norm_num
  have e3 : (3.0 : ℝ) = 3 := by norm_num
  have e10 : (10.0 : ℝ) = 10 := by norm_num
  unfold bethek_lindhard
  dsimp only
  rw [if_neg (by
    rw [lt_real, not_lt]
    simp only [lsInput, atomic_mass_unit, exp_real, log_real, e1, e3, e10]
    exact hγ)]
  show some _ = some _
  congr 1
  simp only [lsInput, atomic_mass_unit, sqrt_real, exp_real, log_real, e1, e3, ← pow_two]
  norm_num
  ring

/-- One turn of the loop of `bethek_lindhard_X`. -/
theorem lsXStep_term (fuel : ℕ) (c : LsInput ℝ) (δ : ℤ → ℝ) (K n : ℕ) (h : Shifts fuel c δ K)
    (hn : 1 ≤ n) (hnK : n ≤ K) (s : LsXState ℝ)
    (h1 : 1 < n → s.dmk = δ (-n) ∧ s.dkm1 = δ (n - 1) ∧ s.dmkp1 = δ (-n + 1))
    (h2 : 2 < n → s.dkm2 = δ (n - 2)) :
    lsXStep fuel c s n = some ⟨s.sum + lsXTerm c.eta δ n, δ (-(n + 1 : ℕ)), δ (-n), δ n, s.dkm1⟩ := by
  have p0 := h.at n (Scalar.ofInt (n : Int)) (by rw [ofInt_real]) (by omega) (by omega) (by omega)
  have p1 := h.at (-n - 1) (-Scalar.ofInt (n : Int) - 1.0)
    (by rw [ofInt_real]; push_cast; norm_num) (by omega) (by omega) (by omega)
  have p3 := h.at (-n - 2) (-Scalar.ofInt (n : Int) - 2.0)
    (by rw [ofInt_real]; push_cast; norm_num) (by omega) (by omega) (by omega)
  have p2 := h.at (-n) (-Scalar.ofInt (n : Int)) (by rw [ofInt_real]; push_cast; rfl) (by omega)
    (by omega) (by omega)
  have e2 : (2.0 : ℝ) = 2 := by norm_num
  have e3 : (3.0 : ℝ) = 3 := by norm_num
  have e4 : (4.0 : ℝ) = 4 := by norm_num
  have e1 : (1.0 : ℝ) = 1 := by norm_num
  have e0 : (0.0 : ℝ) = 0 := by norm_num
  have hneg : (-(n + 1 : ℕ) : ℤ) = -n - 1 := by push_cast; ring
  unfold lsXStep
  dsimp only
  rw [p0, some_bind', p1, some_bind']
  have hd2 : ∃ v, phaseShift fuel c (if n = 1 then -Scalar.ofInt (n : Int) else Scalar.ofInt (n : Int)) =
      some v ∧ (if n > 1 then s.dmk else v) = δ (-n) := by
    by_cases hn1 : n = 1
    · exact ⟨_, by rw [if_pos hn1, p2], by rw [if_neg (by omega)]⟩
    · exact ⟨_, by rw [if_neg hn1, p0], by rw [if_pos (by omega)]; exact (h1 (by omega)).1⟩
  obtain ⟨v, hv, hv'⟩ := hd2
  rw [hv, some_bind', p3, some_bind', hv', hneg]
  show some _ = some _
  congr 2
  unfold lsXTerm
  simp only [TrigScalar.sin, ofInt_real, e0, e1, e2, e3, e4, Int.cast_natCast]
  have hsq : ∀ x : ℝ, (-x - 1) * (-x - 2) / ((-2 * x - 1) * (-2 * x - 3)) =
      (x + 1) * (x + 2) / ((2 * x + 1) * (2 * x + 3)) := by
    intro x
    congr 1 <;> ring
  have ht1 : ∀ y : ℝ, y * y * (-(n : ℝ) - 1) * (-n - 2) / ((-2 * n - 1) * (-2 * n - 3)) =
      (n + 1) * (n + 2) / ((2 * n + 1) * (2 * n + 3)) * y ^ 2 := by
    intro y
    rw [← hsq]
    ring
  rw [ht1]
  have h4 : (4 : ℝ) * n ^ 2 = 4 * n * n := by ring
  have h5 : (4 : ℝ) * (n + 1) ^ 2 = 4 * (n + 1) * (n + 1) := by ring
  rw [h4, h5]
  by_cases hn2 : n > 2
  · rw [if_pos hn2, if_pos (by omega), h2 hn2, (h1 (by omega)).2.2]
    ring
  rw [if_neg hn2]
  by_cases hn1 : n > 1
  · have : n = 2 := by omega
    rw [if_pos hn1, (h1 (by omega)).2.2]
    subst this
    push_cast
    ring
  · have : n = 1 := by omega
    rw [if_neg hn1]
    subst this
    push_cast
    ring

theorem foldlM_lsX (fuel : ℕ) (c : LsInput ℝ) (δ : ℤ → ℝ) (K : ℕ) (h : Shifts fuel c δ K) (m : ℕ) :
    m ≤ K → 1 ≤ m → ∃ d, (2 ≤ m → d = δ (m - 1)) ∧
      (List.range' 1 m).foldlM (lsXStep fuel c) ⟨0.0, 0.0, 0.0, 0.0, 0.0⟩ =
      some ⟨∑ k ∈ Finset.Icc 1 m, lsXTerm c.eta δ k, δ (-(m + 1 : ℕ)), δ (-m), δ m, d⟩ := by
  induction m with
  | zero => intro _ h0; omega
  | succ m ih =>
    intro hm _
    rw [List.range'_1_concat, List.foldlM_append]
    by_cases h0 : m = 0
    · subst h0
      refine ⟨0.0, by omega, ?_⟩
      show (some _ >>= fun s => List.foldlM (lsXStep fuel c) s [1 + 0]) = _
      rw [some_bind', List.foldlM_cons,
        lsXStep_term fuel c δ K 1 h le_rfl hm _ (by omega) (by omega), some_bind']
      show some _ = some _
      simp
      norm_num
    · obtain ⟨d, hd, hf⟩ := ih (by omega) (by omega)
      refine ⟨δ m, fun _ => by congr 1; push_cast; ring, ?_⟩
      rw [hf, some_bind', List.foldlM_cons,
        lsXStep_term fuel c δ K (1 + m) h (by omega) (by omega) _ (by
          intro _
          refine ⟨by rw [add_comm], by congr 1; push_cast; ring, by congr 1; push_cast; ring⟩) (by
          intro h2
          show d = _
          rw [hd (by omega)]
          congr 1
          push_cast
          ring), some_bind']
      show some _ = some _
      rw [Finset.sum_Icc_succ_top (by omega), add_comm 1 m]

/-- C94: the straggling correction is `2 ΔL - Σ - β²`, or 0 where that is negative, with the sum
over the first 999 orders. -/
theorem lindhard_X_series (fuel : ℕ) (p : Projectile ℝ) (δ : ℤ → ℝ)
    (h : Shifts fuel (lsInput p) δ 999) (L : ℝ) (hL : bethek_lindhard fuel p = some L) :
    bethek_lindhard_X fuel p =
      some (max 0 (2 * L - (∑ k ∈ Finset.Icc 1 999,
        lsXTerm (p.Z * (1 / 137.035999139) / √(1 - 1 / (1 + p.T / 931.4940954) ^ 2)) δ k) -
        (1 - 1 / (1 + p.T / 931.4940954) ^ 2))) := by
  obtain ⟨d, -, hf⟩ := foldlM_lsX fuel _ δ 999 h 999 le_rfl (by norm_num)
  have e1 : (1.0 : ℝ) = 1 := by norm_num
  have e2 : (2.0 : ℝ) = 2 := by norm_num
  have e0 : (0.0 : ℝ) = 0 := by norm_num
  unfold bethek_lindhard_X
  dsimp only
  rw [hf, some_bind', hL, some_bind']
  show some _ = some _
  congr 1
  simp only [lsInput, atomic_mass_unit, fine_structure, sqrt_real, e0, e1, e2, ← pow_two]
  split
  · rename_i hle
    rw [le_real] at hle
    rw [max_eq_right hle]
  · rename_i hle
    rw [le_real, not_le] at hle
    rw [max_eq_left hle.le]

/-- C94: the computed straggling correction is never negative. -/
theorem lindhard_X_nonneg (fuel : ℕ) (p : Projectile ℝ) (v : ℝ)
    (h : bethek_lindhard_X fuel p = some v) : 0 ≤ v := by
  unfold bethek_lindhard_X at h
  simp only [Option.bind_eq_bind, Option.bind_eq_some_iff] at h
  obtain ⟨s, -, L, -, hv⟩ := h
  have hv' := Option.some.inj hv
  rw [← hv']
  split
  · rename_i hle
    rw [le_real] at hle
    norm_num at hle ⊢
    exact hle
  · norm_num

end Catima
