import Verif.Props.Scattering
import Verif.Props.LindhardX
import Verif.Lemmas.ProtonValue
import Verif.Spec.Radiation

/-!
# C109: the radiation length against Dahl's fit
-/

namespace Catima

/-- Bounds of `log x`, good when `x` is near `exp (k/50)`. -/
def logLow (x : ℚ) (k : Int) : ℚ := k / 50 + 1 - expHigh k / x
def logHigh (x : ℚ) (k : Int) : ℚ := k / 50 + x / expLow k - 1

theorem expLow_pos (k : Int) : 0 < expLow k := by
  unfold expLow
  split <;> positivity

theorem log_between (x : ℚ) (hx : 0 < x) (k : Int) :
    ((logLow x k : ℚ) : ℝ) ≤ Real.log x ∧ Real.log x ≤ ((logHigh x k : ℚ) : ℝ) := by
  have hx' : (0 : ℝ) < x := by exact_mod_cast hx
  obtain ⟨e1, e2⟩ := exp_50 k
  have e0 : (0 : ℝ) < (expLow k : ℚ) := by exact_mod_cast expLow_pos k
  have hq : 0 < (x : ℝ) / Real.exp (k / 50) := div_pos hx' (Real.exp_pos _)
  have hl : Real.log x = k / 50 + Real.log (x / Real.exp (k / 50)) := by
    rw [Real.log_div hx'.ne' (Real.exp_pos _).ne', Real.log_exp]; ring
  have h1 := Real.one_sub_inv_le_log_of_pos hq
  have h2 := Real.log_le_sub_one_of_pos hq
  rw [inv_div] at h1
  have h3 : Real.exp (k / 50) / x ≤ (expHigh k : ℚ) / x := div_le_div_of_nonneg_right e2 hx'.le
  have h4 : (x : ℝ) / Real.exp (k / 50) ≤ x / (expLow k : ℚ) := div_le_div_of_nonneg_left hx'.le e0 e1
  unfold logLow logHigh
  push_cast
  constructor <;> linarith

/-- The bracket of calculations.cpp:550 as a function of the logarithms. -/
def tsaiBracket (z c1 c2 l : ℚ) : ℚ :=
  c1 - l / 3 + (c2 - 2 * l / 3) / z + 1202 / 1000 * ((1000000000 / 137035999139) ^ 2 * z ^ 2)
    + 10369 / 10000 * ((1000000000 / 137035999139) ^ 2 * z ^ 2) ^ 2
    - 1008 / 1000 * ((1000000000 / 137035999139) ^ 2 * z ^ 2) ^ 3 / (1 + (1000000000 / 137035999139) ^ 2 * z ^ 2)

/-- Hints: the integer parts of `50 log z` for `z` from 1 on. -/
def logHints : List Int := [0, 34, 54, 69, 80, 89, 97, 103, 109, 115, 119, 124, 128, 131, 135, 138, 141, 144, 147, 149, 152, 154, 156, 158, 160, 162, 164, 166, 168, 170, 171, 173, 174, 176, 177, 179, 180, 181, 183, 184, 185, 186, 188, 189, 190, 191, 192, 193, 194, 195, 196, 197, 198, 199, 200, 201, 202, 203, 203, 204, 205, 206, 207, 207, 208, 209, 210, 210, 211, 212, 213, 213, 214, 215, 215, 216, 217, 217, 218, 219, 219, 220, 220, 221, 222, 222, 223, 223, 224, 224, 225, 226, 226, 227, 227, 228, 228, 229, 229, 230, 230, 231, 231, 232, 232, 233, 233, 234, 234]

def c1Low : ℚ := logLow (18415 / 100) 261
def c1High : ℚ := logHigh (18415 / 100) 261
def c2Low : ℚ := logLow 1194 354
def c2High : ℚ := logHigh 1194 354
def dLow : ℚ := logLow 287 283
def dHigh : ℚ := logHigh 287 283

/-- The checks of one charge. -/
def dahlCheck (z k : Int) : Bool :=
  decide (0 < tsaiBracket z c1Low c2Low (logHigh z k)) && decide (0 < dLow - logHigh z k / 2) &&
  decide (716405 / 1000 * (z + 1) * (dHigh - logLow z k / 2) ≤ 7164 / 10 * z * tsaiBracket z c1Low c2Low (logHigh z k)) &&
  decide (z ≤ 51 → 9 / 10 * (7164 / 10) * z * tsaiBracket z c1High c2High (logLow z k) ≤ 716405 / 1000 * (z + 1) * (dLow - logHigh z k / 2)) &&
  decide (52 ≤ z → 716405 / 1000 * (z + 1) * (dHigh - logLow z k / 2) ≤ 9 / 10 * (7164 / 10) * z * tsaiBracket z c1Low c2Low (logHigh z k)) &&
  (match radiation_length_table.lookup z, element_atomic_weights[z.toNat]? with
    | some t, some w => decide (95 / 100 * (7164 / 10) * w.rat ≤ t.rat * (z * (z + 1) * (dLow - logHigh z k / 2)) ∧
        t.rat * (z * (z + 1) * (dHigh - logLow z k / 2)) ≤ 105 / 100 * (7164 / 10) * w.rat)
    | _, _ => true)

theorem dahl_checks : logHints.length = 109 ∧ ∀ e ∈ logHints.zipIdx, dahlCheck (e.2 + 1 : Int) e.1 = true := by
  constructor
  · decide
  · decide +kernel

theorem dahl_check (z : Int) (h1 : 1 ≤ z) (h2 : z ≤ 109) : ∃ k, dahlCheck z k = true := by
  obtain ⟨hl, hc⟩ := dahl_checks
  have hi : (z - 1).toNat < logHints.length := by rw [hl]; omega
  refine ⟨logHints[(z - 1).toNat], ?_⟩
  have := hc (logHints[(z - 1).toNat], (z - 1).toNat) (by
    rw [List.mem_iff_getElem]
    exact ⟨(z - 1).toNat, by rw [List.length_zipIdx]; exact hi, by simp⟩)
  have e : (((z - 1).toNat : Nat) : Int) + 1 = z := by omega
  simp only [e] at this
  exact this

/-- The value outside the table. -/
theorem radiation_formula (z : Int) (m : ℝ) (h1 : 1 ≤ z) (ht : radiation_length_table.lookup z = none) :
    radiation_length_z z m = 716.405 * m / ((z : ℝ) ^ 2 *
      (Real.log 184.15 - Real.log z / 3 + (Real.log 1194 - 2 * Real.log z / 3) / z
        + 1.202 * ((1000000000 / 137035999139) ^ 2 * (z : ℝ) ^ 2)
        + 1.0369 * ((1000000000 / 137035999139) ^ 2 * (z : ℝ) ^ 2) ^ 2
        - 1.008 * ((1000000000 / 137035999139) ^ 2 * (z : ℝ) ^ 2) ^ 3 /
          (1 + (1000000000 / 137035999139) ^ 2 * (z : ℝ) ^ 2))) := by
  have hz1 : (1 : ℝ) ≤ z := by exact_mod_cast h1
  have hz0 : (0 : ℝ) < z := by linarith
  unfold radiation_length_z
  rw [ht]
  simp only [ofInt_real, pow_real, log_real, Int.cast_mul]
  have hk0 : 0 < (z : ℝ) ^ ((1.0 : ℝ) / 3.0) := Real.rpow_pos_of_pos hz0 _
  have hlk : Real.log ((z : ℝ) ^ ((1.0 : ℝ) / 3.0)) = Real.log z / 3 := by
    rw [Real.log_rpow hz0]; norm_num; ring
  generalize (z : ℝ) ^ ((1.0 : ℝ) / 3.0) = k at *
  have l1 : Real.log (184.15 * (1.0 / k)) = Real.log 184.15 - Real.log z / 3 := by
    rw [show (184.15 : ℝ) * (1.0 / k) = 184.15 / k by norm_num [div_eq_mul_inv],
      Real.log_div (by norm_num) hk0.ne', hlk]
  have l2 : Real.log (1194.0 * (1.0 / k * (1.0 / k))) = Real.log 1194 - 2 * Real.log z / 3 := by
    rw [show (1194.0 : ℝ) * (1.0 / k * (1.0 / k)) = 1194 / (k * k) by norm_num [div_eq_mul_inv],
      Real.log_div (by norm_num) (by positivity), Real.log_mul hk0.ne' hk0.ne', hlk]
    ring
  rw [l1, l2]
  have ef : (fine_structure : ℝ) * fine_structure * ((z : ℝ) * z) = (1000000000 / 137035999139) ^ 2 * (z : ℝ) ^ 2 := by
    unfold fine_structure; norm_num; ring
  rw [ef]
  generalize ((1000000000 : ℝ) / 137035999139) ^ 2 * (z : ℝ) ^ 2 = a
  generalize Real.log 184.15 = x1
  generalize Real.log 1194 = x2
  generalize Real.log (z : ℝ) = x3
  rw [show (z : ℝ) * z = z ^ 2 by ring, show (1.0 : ℝ) = 1 by norm_num, show a * a * a = a ^ 3 by ring, show a * a = a ^ 2 by ring]
  congr 2
  ring

theorem dahl_eq (z : Int) (h1 : 1 ≤ z) (a : ℝ) :
    dahlLength z a = 716.4 * a / ((z : ℝ) * (z + 1) * (Real.log 287 - Real.log z / 2)) := by
  have hz0 : (0 : ℝ) < z := by exact_mod_cast h1
  unfold dahlLength
  rw [Real.log_div (by norm_num) (Real.sqrt_pos.mpr hz0).ne', Real.log_sqrt hz0.le]

/-- Bounds of the logarithms that occur. -/
theorem dahl_logs (z : Int) (h1 : 1 ≤ z) (k : Int) :
    ((c1Low : ℚ) : ℝ) ≤ Real.log 184.15 ∧ Real.log 184.15 ≤ ((c1High : ℚ) : ℝ) ∧
    ((c2Low : ℚ) : ℝ) ≤ Real.log 1194 ∧ Real.log 1194 ≤ ((c2High : ℚ) : ℝ) ∧
    ((dLow : ℚ) : ℝ) ≤ Real.log 287 ∧ Real.log 287 ≤ ((dHigh : ℚ) : ℝ) ∧
    ((logLow z k : ℚ) : ℝ) ≤ Real.log z ∧ Real.log z ≤ ((logHigh z k : ℚ) : ℝ) := by
  have hz0 : (0 : ℚ) < z := by exact_mod_cast h1
  obtain ⟨a1, a2⟩ := log_between (18415 / 100) (by norm_num) 261
  obtain ⟨b1, b2⟩ := log_between 1194 (by norm_num) 354
  obtain ⟨d1, d2⟩ := log_between 287 (by norm_num) 283
  obtain ⟨l1, l2⟩ := log_between z hz0 k
  rw [show (((18415 / 100 : ℚ)) : ℝ) = 184.15 by norm_num] at a1 a2
  rw [show (((1194 : ℚ)) : ℝ) = 1194 by norm_num] at b1 b2
  rw [show (((287 : ℚ)) : ℝ) = 287 by norm_num] at d1 d2
  rw [Rat.cast_intCast] at l1 l2
  exact ⟨a1, a2, b1, b2, d1, d2, l1, l2⟩

theorem tsai_mono (z c1 c2 l : ℝ) (C1 C2 L : ℚ) (Z : Int) (hZ : (Z : ℝ) = z) (hz : 0 < z) :
    (((C1 : ℚ) : ℝ) ≤ c1 → ((C2 : ℚ) : ℝ) ≤ c2 → l ≤ ((L : ℚ) : ℝ) →
      ((tsaiBracket Z C1 C2 L : ℚ) : ℝ) ≤ c1 - l / 3 + (c2 - 2 * l / 3) / z
        + 1.202 * ((1000000000 / 137035999139) ^ 2 * z ^ 2) + 1.0369 * ((1000000000 / 137035999139) ^ 2 * z ^ 2) ^ 2
        - 1.008 * ((1000000000 / 137035999139) ^ 2 * z ^ 2) ^ 3 / (1 + (1000000000 / 137035999139) ^ 2 * z ^ 2)) ∧
    (c1 ≤ ((C1 : ℚ) : ℝ) → c2 ≤ ((C2 : ℚ) : ℝ) → ((L : ℚ) : ℝ) ≤ l →
      c1 - l / 3 + (c2 - 2 * l / 3) / z
        + 1.202 * ((1000000000 / 137035999139) ^ 2 * z ^ 2) + 1.0369 * ((1000000000 / 137035999139) ^ 2 * z ^ 2) ^ 2
        - 1.008 * ((1000000000 / 137035999139) ^ 2 * z ^ 2) ^ 3 / (1 + (1000000000 / 137035999139) ^ 2 * z ^ 2) ≤
      ((tsaiBracket Z C1 C2 L : ℚ) : ℝ)) := by
  unfold tsaiBracket
  push_cast
  rw [hZ]
  have e1 : (1202 : ℝ) / 1000 = 1.202 := by norm_num
  have e2 : (10369 : ℝ) / 10000 = 1.0369 := by norm_num
  have e3 : (1008 : ℝ) / 1000 = 1.008 := by norm_num
  rw [e1, e2, e3]
  generalize (1000000000 / 137035999139 : ℝ) ^ 2 * z ^ 2 = a
  constructor
  · intro h1 h2 h3
    have : ((C2 : ℝ) - 2 * L / 3) / z ≤ (c2 - 2 * l / 3) / z := div_le_div_of_nonneg_right (by linarith) hz.le
    linarith
  · intro h1 h2 h3
    have : (c2 - 2 * l / 3) / z ≤ ((C2 : ℝ) - 2 * L / 3) / z := div_le_div_of_nonneg_right (by linarith) hz.le
    linarith

/-- The factors of the comparison, for one charge. -/
theorem dahl_facts (z : Int) (h1 : 1 ≤ z) (h2 : z ≤ 109) (ht : radiation_length_table.lookup z = none) :
    ∃ B d : ℝ, 0 < B ∧ 0 < d ∧ (∀ m : ℝ, radiation_length_z z m = 716.405 * m / ((z : ℝ) ^ 2 * B)) ∧
      (∀ a : ℝ, dahlLength z a = 716.4 * a / ((z : ℝ) * (z + 1) * d)) ∧
      716.405 * (z + 1) * d ≤ 716.4 * z * B ∧
      (z ≤ 51 → 0.9 * 716.4 * z * B ≤ 716.405 * (z + 1) * d) ∧
      (52 ≤ z → 716.405 * (z + 1) * d ≤ 0.9 * 716.4 * z * B) := by
  have hz0 : (0 : ℝ) < z := by exact_mod_cast h1
  obtain ⟨k, hk⟩ := dahl_check z h1 h2
  obtain ⟨a1, a2, b1, b2, d1, d2, l1, l2⟩ := dahl_logs z h1 k
  unfold dahlCheck at hk
  simp only [Bool.and_eq_true, decide_eq_true_eq] at hk
  obtain ⟨⟨⟨⟨⟨k1, k2⟩, k3⟩, k4⟩, k5⟩, _⟩ := hk
  have m1 := (tsai_mono z _ _ _ _ _ _ z rfl hz0).1 a1 b1 l2
  have m2 := (tsai_mono z _ _ _ _ _ _ z rfl hz0).2 a2 b2 l1
  refine ⟨_, Real.log 287 - Real.log z / 2, ?_, ?_, fun m => radiation_formula z m h1 ht, dahl_eq z h1, ?_, ?_, ?_⟩
  all_goals
    generalize Real.log 184.15 - Real.log z / 3 + (Real.log 1194 - 2 * Real.log z / 3) / z
        + 1.202 * ((1000000000 / 137035999139) ^ 2 * (z : ℝ) ^ 2)
        + 1.0369 * ((1000000000 / 137035999139) ^ 2 * (z : ℝ) ^ 2) ^ 2
        - 1.008 * ((1000000000 / 137035999139) ^ 2 * (z : ℝ) ^ 2) ^ 3 /
          (1 + (1000000000 / 137035999139) ^ 2 * (z : ℝ) ^ 2) = B at m1 m2 ⊢
    generalize tsaiBracket z c1Low c2Low (logHigh z k) = Bl at *
    generalize tsaiBracket z c1High c2High (logLow z k) = Bh at *
  · have : (0 : ℝ) < (Bl : ℚ) := by exact_mod_cast k1
    linarith
  · have : (0 : ℝ) < ((dLow - logHigh z k / 2 : ℚ) : ℝ) := by exact_mod_cast k2
    push_cast at this
    linarith
  · have h := (Rat.cast_le (K := ℝ)).mpr k3
    push_cast at h
    have u1 : 716.405 * ((z : ℝ) + 1) * (Real.log 287 - Real.log z / 2) ≤ 716405 / 1000 * ((z : ℝ) + 1) * (dHigh - logLow z k / 2) := by
      norm_num
      apply mul_le_mul_of_nonneg_left (by linarith) (by positivity)
    have u2 : 7164 / 10 * (z : ℝ) * Bl ≤ 716.4 * z * B := by
      norm_num
      apply mul_le_mul_of_nonneg_left (by linarith) (by positivity)
    linarith
  · intro hz
    have h := (Rat.cast_le (K := ℝ)).mpr (k4 hz)
    push_cast at h
    have u1 : 716405 / 1000 * ((z : ℝ) + 1) * (dLow - logHigh z k / 2) ≤ 716.405 * ((z : ℝ) + 1) * (Real.log 287 - Real.log z / 2) := by
      norm_num
      apply mul_le_mul_of_nonneg_left (by linarith) (by positivity)
    have u2 : 0.9 * 716.4 * z * B ≤ 9 / 10 * (7164 / 10) * (z : ℝ) * Bh := by
      norm_num
      apply mul_le_mul_of_nonneg_left (by linarith) (by positivity)
    linarith
  · intro hz
    have h := (Rat.cast_le (K := ℝ)).mpr (k5 hz)
    push_cast at h
    have u1 : 716.405 * ((z : ℝ) + 1) * (Real.log 287 - Real.log z / 2) ≤ 716405 / 1000 * ((z : ℝ) + 1) * (dHigh - logLow z k / 2) := by
      norm_num
      apply mul_le_mul_of_nonneg_left (by linarith) (by positivity)
    have u2 : 9 / 10 * (7164 / 10) * (z : ℝ) * Bl ≤ 0.9 * 716.4 * z * B := by
      norm_num
      apply mul_le_mul_of_nonneg_left (by linarith) (by positivity)
    linarith

/-- C109, the part that holds: for every element up to antimony that is not in the table of
constants, and every mass, the radiation length agrees with Dahl's fit within 10 %.  Missing: the
elements from tellurium on, see \`radiation_length_heavy_wrong\`. -/
theorem radiation_length_light_partial (z : Int) (m : ℝ) (h1 : 1 ≤ z) (h2 : z ≤ 51) (hm : 0 < m)
    (ht : radiation_length_table.lookup z = none) :
    0.9 * dahlLength z m ≤ radiation_length_z z m ∧ radiation_length_z z m ≤ dahlLength z m := by
  have hz0 : (0 : ℝ) < z := by exact_mod_cast h1
  obtain ⟨B, d, hB, hd, e1, e2, i1, i2, _⟩ := dahl_facts z h1 (by omega) ht
  have i2 := i2 h2
  rw [e1, e2]
  constructor
  · rw [← mul_div_assoc, div_le_div_iff₀ (by positivity) (by positivity)]
    have := mul_le_mul_of_nonneg_left i2 (mul_pos hm hz0).le
    generalize (z : ℝ) = z at *
    norm_num at this ⊢
    nlinarith
  · rw [div_le_div_iff₀ (by positivity) (by positivity)]
    have := mul_le_mul_of_nonneg_left i1 (mul_pos hm hz0).le
    generalize (z : ℝ) = z at *
    norm_num at this ⊢
    nlinarith

/-- C109 refuted: for every element from tellurium on that is not in the table, and every mass, the
radiation length is more than 10 % too short (the term \`-1.202 (α z)²\` of Tsai's formula is
subtracted once more, so it enters with the wrong sign). -/
theorem radiation_length_heavy_wrong (z : Int) (m : ℝ) (h1 : 52 ≤ z) (h2 : z ≤ 109) (hm : 0 < m)
    (ht : radiation_length_table.lookup z = none) :
    radiation_length_z z m ≤ 0.9 * dahlLength z m := by
  have hz0 : (0 : ℝ) < z := by exact_mod_cast (show 0 < z by omega)
  obtain ⟨B, d, hB, hd, e1, e2, _, _, i3⟩ := dahl_facts z (by omega) h2 ht
  have i3 := i3 h1
  rw [e1, e2, ← mul_div_assoc, div_le_div_iff₀ (by positivity) (by positivity)]
  have := mul_le_mul_of_nonneg_left i3 (mul_pos hm hz0).le
  generalize (z : ℝ) = z at *
  norm_num at this ⊢
  nlinarith

/-- C109: the tabulated radiation lengths agree with Dahl's fit at the atomic weight within 5 %. -/
theorem radiation_length_tabulated (z : Int) (m : ℝ) (d : Dec) (ht : radiation_length_table.lookup z = some d) :
    0.95 * dahlLength z (element_atomic_weight z) ≤ radiation_length_z z m ∧
    radiation_length_z z m ≤ 1.05 * dahlLength z (element_atomic_weight z) := by
  have hr : ∀ e ∈ radiation_length_table, 1 ≤ e.1 ∧ e.1 ≤ 109 := by decide
  obtain ⟨h1, h2⟩ := hr _ (lookup_mem _ _ _ ht)
  simp only at h1 h2
  have hz0 : (0 : ℝ) < z := by exact_mod_cast h1
  obtain ⟨k, hk⟩ := dahl_check z h1 h2
  obtain ⟨a1, a2, b1, b2, d1, d2, l1, l2⟩ := dahl_logs z h1 k
  unfold dahlCheck at hk
  have hi : z.toNat < element_atomic_weights.length := by rw [weights_pos.1]; omega
  rw [ht, List.getElem?_eq_getElem hi] at hk
  simp only [Bool.and_eq_true, decide_eq_true_eq] at hk
  obtain ⟨⟨⟨⟨⟨k1, k2⟩, k3⟩, k4⟩, k5⟩, k6, k7⟩ := hk
  have ew : (element_atomic_weight z : ℝ) = element_atomic_weights[z.toNat].toScalar := by
    unfold element_atomic_weight
    rw [if_pos ⟨by omega, by omega⟩, List.getElem?_eq_getElem hi]
  have er : radiation_length_z z m = d.toScalar := by
    unfold radiation_length_z
    rw [ht]
  rw [er, ew, dahl_eq z h1, ← d.rat_cast, ← Dec.rat_cast]
  have t0 : (0 : ℝ) < d.rat := by
    rw [d.rat_cast]
    exact d.toScalar_pos (radiation_table_pos _ (lookup_mem _ _ _ ht))
  have hd : 0 < Real.log 287 - Real.log z / 2 := by
    have : (0 : ℝ) < ((dLow - logHigh z k / 2 : ℚ) : ℝ) := by exact_mod_cast k2
    push_cast at this
    linarith
  have k6 := (Rat.cast_le (K := ℝ)).mpr k6
  have k7 := (Rat.cast_le (K := ℝ)).mpr k7
  push_cast at k6 k7
  generalize ((element_atomic_weights[z.toNat].rat : ℚ) : ℝ) = w at *
  have v1 : (d.rat : ℝ) * (z * (z + 1) * (dLow - logHigh z k / 2)) ≤ d.rat * (z * (z + 1) * (Real.log 287 - Real.log z / 2)) := by
    apply mul_le_mul_of_nonneg_left _ t0.le
    apply mul_le_mul_of_nonneg_left (by linarith) (by positivity)
  have v2 : (d.rat : ℝ) * (z * (z + 1) * (Real.log 287 - Real.log z / 2)) ≤ d.rat * (z * (z + 1) * (dHigh - logLow z k / 2)) := by
    apply mul_le_mul_of_nonneg_left _ t0.le
    apply mul_le_mul_of_nonneg_left (by linarith) (by positivity)
  constructor
  · rw [← mul_div_assoc, div_le_iff₀ (by positivity)]
    norm_num at k6 ⊢
    linarith
  · rw [← mul_div_assoc, le_div_iff₀ (by positivity)]
    norm_num at k7 ⊢
    linarith

/-- Hypotheses met: aluminium's neighbour magnesium, bismuth, and lead. -/
example : 0.9 * dahlLength 12 24.305 ≤ radiation_length_z 12 24.305 ∧
    radiation_length_z 83 208.98 ≤ 0.9 * dahlLength 83 208.98 ∧
    0.95 * dahlLength 82 (element_atomic_weight 82) ≤ radiation_length_z 82 (207.2 : ℝ) :=
  ⟨(radiation_length_light_partial 12 24.305 (by norm_num) (by norm_num) (by norm_num) (by decide)).1,
    radiation_length_heavy_wrong 83 208.98 (by norm_num) (by norm_num) (by norm_num) (by decide),
    (radiation_length_tabulated 82 207.2 ⟨637, 2⟩ (by decide)).1⟩

end Catima
