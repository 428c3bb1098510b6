import Verif.Lemmas.ProtonSteady
import Mathlib.Analysis.Complex.ExponentialBounds

/-!
# Helper lemmas: the proton stopping power between 10 and 32.5 MeV/u

The hints of the tables below (exponents and bounds) are checked by the kernel against the coefficients.
-/

namespace Catima

/-- Lower and upper bounds of `exp (k/50)`. -/
def expLow (k : Int) : ℚ := if 0 ≤ k then ((102020134 ^ k.toNat : Nat) : ℚ) / ((10 ^ (8 * k.toNat) : Nat) : ℚ)
  else ((10 ^ (8 * (-k).toNat) : Nat) : ℚ) / ((102020135 ^ (-k).toNat : Nat) : ℚ)
def expHigh (k : Int) : ℚ := if 0 ≤ k then ((102020135 ^ k.toNat : Nat) : ℚ) / ((10 ^ (8 * k.toNat) : Nat) : ℚ)
  else ((10 ^ (8 * (-k).toNat) : Nat) : ℚ) / ((102020134 ^ (-k).toNat : Nat) : ℚ)

theorem exp_002 : (1.02020134 : ℝ) ≤ Real.exp 0.02 ∧ Real.exp 0.02 ≤ 1.02020135 := by
  have h := Real.exp_bound' (x := 0.02) (by norm_num) (by norm_num) (n := 5) (by norm_num)
  have h' := Real.sum_le_exp_of_nonneg (x := 0.02) (by norm_num) 5
  simp only [Finset.sum_range_succ, Finset.sum_range_zero, Nat.factorial] at h h'
  norm_num at h h' ⊢
  constructor <;> linarith

theorem exp_50 (k : Int) : ((expLow k : ℚ) : ℝ) ≤ Real.exp (k / 50) ∧ Real.exp (k / 50) ≤ ((expHigh k : ℚ) : ℝ) := by
  obtain ⟨a, b⟩ := exp_002
  have pw : ∀ n : Nat, (1.02020134 : ℝ) ^ n ≤ Real.exp ((n : ℝ) / 50) ∧ Real.exp ((n : ℝ) / 50) ≤ (1.02020135 : ℝ) ^ n := by
    intro n
    have e : Real.exp ((n : ℝ) / 50) = Real.exp 0.02 ^ n := by
      rw [← Real.exp_nat_mul]; congr 1; norm_num; ring
    rw [e]
    exact ⟨pow_le_pow_left₀ (by norm_num) a n, pow_le_pow_left₀ (Real.exp_pos _).le b n⟩
  have ed : ∀ (m n : Nat), ((m ^ n : Nat) : ℝ) / ((10 ^ (8 * n) : Nat) : ℝ) = ((m : ℝ) / 10 ^ 8) ^ n := by
    intro m n; push_cast; rw [pow_mul, div_pow]
  have e1 : ((102020134 : Nat) : ℝ) / 10 ^ 8 = 1.02020134 := by norm_num
  have e2 : ((102020135 : Nat) : ℝ) / 10 ^ 8 = 1.02020135 := by norm_num
  unfold expLow expHigh
  split
  · rename_i h
    obtain ⟨n, rfl⟩ := Int.eq_ofNat_of_zero_le h
    rw [Rat.cast_div, Rat.cast_div]
    simp only [Rat.cast_natCast]
    rw [Int.toNat_natCast, ed, ed, e1, e2]
    exact pw n
  · rename_i h
    obtain ⟨n, hn⟩ := Int.eq_ofNat_of_zero_le (show 0 ≤ -k by omega)
    rw [Rat.cast_div, Rat.cast_div]
    simp only [Rat.cast_natCast]
    rw [hn, Int.toNat_natCast]
    have ek : ((k : ℝ)) / 50 = -((n : ℝ) / 50) := by
      have : (k : ℝ) = -(n : ℝ) := by
        have : k = -(n : Int) := by omega
        rw [this]; push_cast; rfl
      rw [this]; ring
    have inv : ∀ m : Nat, ((10 ^ (8 * n) : Nat) : ℝ) / ((m ^ n : Nat) : ℝ) = (((m : ℝ) / 10 ^ 8) ^ n)⁻¹ := by
      intro m; rw [← ed, inv_div]
    rw [inv, inv, e1, e2, ek, Real.exp_neg]
    obtain ⟨p1, p2⟩ := pw n
    exact ⟨inv_anti₀ (Real.exp_pos _) p2, inv_anti₀ (by positivity) p1⟩

def pse_95_hints : List (Int × Int × Nat × Nat × Nat × Nat × Nat) :=
  [(-86, -99, 287, 227, 244, 8345, 4666), (-37, -43, 371, 311, 423, 14449, 9850),
   (-7, -9, 333, 273, 261, 23104, 16687), (-26, -30, 303, 243, 271, 29042, 19715),
   (-14, -17, 324, 264, 194, 35292, 24833), (-7, -9, 320, 260, 190, 42849, 30672),
   (17, 14, 373, 313, 358, 47958, 34753), (17, 14, 374, 314, 252, 54625, 39605), (30, 25, 341, 281, 508, 67046, 45841),
   (32, 28, 361, 301, 403, 65726, 46389), (30, 26, 377, 317, 278, 75851, 53988), (37, 32, 393, 333, 255, 77848, 54730),
   (35, 30, 373, 313, 220, 81954, 57061), (45, 39, 364, 304, 356, 91050, 61844), (70, 61, 435, 375, 564, 98463, 65013),
   (46, 40, 398, 338, 249, 96074, 66356), (51, 44, 373, 313, 247, 111550, 74622),
   (25, 21, 309, 249, 268, 114595, 78167), (81, 71, 518, 458, 397, 120706, 80125),
   (87, 76, 555, 495, 277, 131261, 86152), (45, 39, 382, 322, 237, 124722, 85503),
   (43, 37, 375, 315, 209, 129524, 88486), (34, 29, 343, 283, 222, 135627, 92848),
   (74, 65, 410, 350, 360, 144483, 94469), (62, 54, 362, 302, 445, 147891, 96408),
   (62, 54, 353, 293, 570, 154465, 100184), (70, 61, 380, 320, 351, 158871, 102471),
   (66, 57, 362, 302, 338, 165200, 105559), (56, 48, 373, 313, 240, 162711, 106691),
   (91, 79, 361, 301, 490, 186230, 112006), (93, 82, 390, 330, 448, 186676, 116240),
   (68, 59, 380, 320, 192, 191210, 123329), (87, 76, 396, 337, 237, 190779, 119476),
   (51, 44, 319, 259, 250, 191095, 123686), (28, 24, 288, 228, 272, 194138, 130098),
   (11, 9, 265, 205, 332, 193982, 132209), (97, 85, 371, 311, 1220, 229939, 139037),
   (69, 60, 352, 292, 242, 218731, 138976), (79, 69, 363, 303, 225, 227413, 142513),
   (32, 27, 290, 231, 205, 213681, 141225), (78, 68, 367, 307, 591, 216455, 135939),
   (91, 80, 368, 308, 546, 237240, 146119), (72, 63, 381, 321, 261, 223649, 144323),
   (91, 80, 368, 308, 546, 237240, 146119), (86, 75, 357, 297, 629, 247704, 151649),
   (82, 72, 382, 322, 285, 243434, 154055), (86, 75, 392, 332, 210, 250527, 156143),
   (94, 82, 413, 353, 293, 250431, 154399), (107, 93, 460, 400, 287, 260544, 157016),
   (96, 84, 431, 371, 267, 251310, 156041), (88, 77, 393, 333, 319, 258364, 161102),
   (108, 94, 452, 392, 283, 278576, 167437), (56, 49, 308, 248, 266, 274142, 175970),
   (93, 81, 359, 299, 553, 294343, 176833), (85, 74, 372, 312, 529, 282744, 174511),
   (71, 62, 357, 297, 262, 281562, 179413), (116, 102, 518, 458, 404, 286031, 175271),
   (30, 26, 280, 220, 248, 280409, 186499), (75, 65, 363, 303, 285, 291402, 182614),
   (123, 108, 473, 413, 345, 315388, 187072), (84, 74, 377, 317, 239, 306811, 193684),
   (93, 81, 449, 389, 266, 303047, 189385), (111, 97, 402, 342, 294, 339860, 200383),
   (72, 63, 347, 287, 233, 311459, 197308), (60, 52, 315, 255, 233, 312508, 197682),
   (84, 73, 344, 284, 263, 327183, 198778), (94, 82, 346, 286, 296, 338728, 201964),
   (96, 84, 375, 315, 263, 338166, 204900), (85, 74, 340, 280, 241, 340490, 206349),
   (69, 60, 287, 227, 263, 346091, 209664), (62, 54, 278, 218, 245, 346967, 212606),
   (85, 74, 325, 265, 271, 345932, 207573), (98, 86, 338, 278, 357, 358807, 212874),
   (186, 164, 515, 455, 498, 441315, 230264), (131, 115, 440, 380, 311, 364625, 209685),
   (116, 102, 394, 334, 314, 362018, 212687), (77, 67, 342, 282, 241, 345504, 213885),
   (75, 66, 311, 251, 246, 357095, 220743), (68, 60, 306, 246, 202, 360291, 226331),
   (68, 59, 304, 244, 204, 364908, 224332), (74, 65, 310, 250, 249, 366410, 226327),
   (73, 64, 311, 251, 208, 375216, 231945), (82, 71, 331, 271, 203, 384961, 231941),
   (77, 67, 317, 257, 200, 381586, 232258), (77, 67, 317, 257, 200, 381586, 232258),
   (69, 60, 298, 238, 242, 396643, 242634), (59, 51, 286, 226, 197, 399667, 246784),
   (61, 53, 293, 233, 246, 400292, 248738), (62, 54, 297, 237, 239, 392950, 245022),
   (64, 56, 296, 236, 223, 404680, 252121), (89, 78, 332, 272, 293, 410681, 247602),
   (85, 75, 334, 274, 298, 403497, 248513)]

def proton_stopping_coef_hints : List (Int × Int × Nat × Nat × Nat × Nat × Nat) :=
  [(-6, -8, 374, 314, 223, 8690, 6427), (-29, -34, 318, 258, 180, 15953, 10738),
   (-21, -25, 322, 262, 178, 23450, 16151), (-9, -11, 357, 297, 93, 29673, 21748),
   (-16, -19, 325, 265, 203, 35234, 24809), (-13, -16, 320, 260, 167, 42786, 30021),
   (-11, -14, 313, 253, 140, 49845, 34793), (-8, -10, 318, 258, 138, 55156, 39425),
   (-6, -8, 323, 263, 150, 59953, 43008), (1, 0, 329, 269, 155, 65058, 47811), (26, 22, 395, 335, 210, 75073, 53895),
   (5, 4, 366, 306, 167, 73333, 55108), (25, 21, 368, 308, 181, 79916, 56618), (36, 31, 353, 293, 248, 91075, 62722),
   (15, 12, 302, 242, 569, 94808, 65608), (18, 15, 298, 238, 602, 99595, 68691),
   (20, 17, 316, 256, 234, 106846, 74751), (13, 11, 298, 238, 251, 112275, 79001),
   (64, 56, 437, 377, 437, 119483, 80546), (11, 9, 311, 251, 144, 125002, 88883),
   (25, 21, 325, 265, 172, 125648, 86723), (32, 27, 370, 310, 188, 125860, 87494),
   (40, 35, 337, 277, 266, 137932, 94069), (48, 42, 345, 285, 585, 139853, 93960),
   (49, 43, 340, 280, 611, 144199, 96580), (52, 45, 336, 276, 1000, 151236, 99034),
   (54, 47, 332, 272, 855, 155445, 101524), (63, 55, 360, 300, 331, 162708, 105950),
   (53, 46, 370, 310, 230, 162663, 108645), (56, 49, 315, 255, 691, 174812, 112814),
   (40, 34, 314, 254, 311, 173857, 114378), (38, 33, 346, 286, 127, 182898, 125439),
   (44, 38, 336, 276, 128, 183009, 122261), (47, 41, 316, 256, 230, 189376, 124774),
   (10, 8, 270, 211, 279, 188809, 129997), (28, 24, 286, 226, 277, 196893, 131702),
   (57, 49, 341, 281, 1086, 199073, 128186), (12, 10, 268, 208, 353, 200859, 137344),
   (30, 26, 296, 236, 173, 210703, 142204), (36, 31, 298, 238, 227, 214872, 142388),
   (69, 60, 357, 297, 508, 227016, 144655), (72, 62, 348, 288, 796, 219565, 136421),
   (72, 63, 381, 321, 261, 223646, 144321), (72, 62, 348, 288, 655, 233650, 145172),
   (72, 63, 344, 284, 617, 235236, 148749), (74, 65, 354, 294, 350, 240689, 153105),
   (76, 67, 376, 316, 190, 244023, 157080), (94, 82, 413, 353, 293, 250440, 154405),
   (96, 84, 439, 379, 246, 255826, 159313), (92, 80, 419, 359, 236, 253649, 156764),
   (87, 76, 384, 324, 314, 258954, 160788), (51, 44, 338, 278, 136, 261880, 171709),
   (56, 49, 308, 248, 266, 274140, 175968), (51, 44, 304, 244, 268, 275673, 176389),
   (58, 50, 338, 278, 1624, 261950, 168354), (71, 62, 357, 297, 262, 281561, 179412),
   (112, 98, 475, 415, 441, 290870, 176122), (30, 26, 280, 220, 248, 280410, 186499),
   (75, 65, 363, 303, 285, 291409, 182618), (77, 67, 358, 298, 282, 294861, 184270),
   (65, 57, 345, 285, 215, 299780, 193510), (93, 81, 449, 389, 266, 303047, 189385),
   (49, 42, 354, 294, 150, 307332, 203476), (74, 65, 345, 286, 233, 316507, 200965),
   (77, 67, 353, 293, 235, 319361, 199012), (83, 72, 360, 300, 254, 325838, 199820),
   (87, 76, 352, 292, 237, 332932, 203242), (95, 83, 375, 315, 264, 337949, 204768),
   (85, 74, 340, 280, 241, 340487, 206347), (64, 56, 314, 254, 173, 341264, 215711),
   (77, 67, 324, 264, 220, 340586, 208349), (85, 74, 325, 265, 271, 345932, 207573),
   (93, 81, 335, 275, 351, 357376, 211615), (109, 96, 367, 307, 453, 331619, 196137),
   (106, 93, 355, 295, 393, 358230, 210476), (106, 93, 354, 294, 400, 360178, 211499),
   (95, 83, 341, 281, 332, 357289, 212375), (75, 66, 311, 251, 246, 357099, 220746),
   (59, 51, 302, 242, 163, 363653, 227705), (61, 53, 284, 224, 325, 366411, 225827),
   (74, 65, 310, 250, 249, 366409, 226326), (59, 51, 295, 235, 164, 378801, 235794),
   (57, 50, 299, 239, 147, 377065, 240273), (53, 46, 273, 213, 516, 371479, 231054),
   (71, 62, 299, 239, 299, 384981, 235698), (69, 60, 298, 238, 242, 396648, 242637),
   (59, 51, 286, 226, 197, 399667, 246784), (47, 41, 266, 206, 399, 394519, 248486),
   (62, 54, 297, 237, 239, 392949, 245022), (64, 56, 296, 236, 223, 404679, 252120),
   (58, 50, 286, 226, 410, 400434, 247258), (90, 78, 331, 271, 304, 415810, 245566)]

/-- The hints of one row hold. -/
def pseHint (r : List Dec) (w : Int × Int × Nat × Nat × Nat × Nat × Nat) : Bool :=
  match r with
  | [a, _, c, d, k, f, g, h] =>
    decide (46 * (1 - f.rat) * 10 ≤ w.1 ∧ 52 * (1 - f.rat) * 10 ≤ w.1 ∧ w.2.1 ≤ 46 * (1 - f.rat) * 10 ∧ w.2.1 ≤ 52 * (1 - f.rat) * 10 ∧
      g.rat / 10000 + h.rat * 32500 ≤ expLow w.2.2.1 ∧ expHigh w.2.2.2.1 ≤ 10000 * h.rat ∧ (w.2.2.2.2.1 : ℚ) ≤ 460 * d.rat ∧
      19 * (k.rat * expHigh w.1 * w.2.2.1 / 500000) ≤ a.rat + c.rat * expLow w.2.2.2.2.1 ∧
      1000 * (196114 / 100 * (21131 / 10 ^ 10) * (k.rat * expHigh w.1 * w.2.2.1 / 50)) ≤ w.2.2.2.2.2.1 ∧
      (w.2.2.2.2.2.2 : ℚ) ≤ 1000 * (196112 / 100 * (95 / 100) * (20397 / 10 ^ 10) * (k.rat * expLow w.2.1 * w.2.2.2.1 / 50)))
  | _ => false

set_option maxRecDepth 8000 in
theorem pse_95_hinted : (pse_95.zip pse_95_hints).all (fun e => pseHint e.1 e.2) = true ∧ pse_95_hints.length = 92 := by
  decide +kernel
set_option maxRecDepth 8000 in
theorem proton_hinted : (proton_stopping_coef.zip proton_stopping_coef_hints).all (fun e => pseHint e.1 e.2) = true ∧
    proton_stopping_coef_hints.length = 92 := by
  decide +kernel

theorem log_e4 : 9.2 ≤ Real.log 10000 ∧ Real.log 32500 ≤ 10.4 := by
  constructor
  · rw [Real.le_log_iff_exp_le (by norm_num)]
    have := (exp_50 460).2
    have h2 : expHigh 460 ≤ 10000 := by decide +kernel
    have h3 : ((expHigh 460 : ℚ) : ℝ) ≤ 10000 := by exact_mod_cast h2
    have e : (((460 : Int) : ℝ)) / 50 = 9.2 := by norm_num
    rw [e] at this
    exact this.trans h3
  · rw [Real.log_le_iff_le_exp (by norm_num)]
    have := (exp_50 520).1
    have h2 : 32500 ≤ expLow 520 := by decide +kernel
    have h3 : (32500 : ℝ) ≤ ((expLow 520 : ℚ) : ℝ) := by exact_mod_cast h2
    have e : (((520 : Int) : ℝ)) / 50 = 10.4 := by norm_num
    rw [e] at this
    exact h3.trans this

theorem real_row_bounds (a b c d k f g h e q Eh El m m' D hi lo : ℝ) (ha : 0 < a) (hb : 0 ≤ b) (hc : 0 < c) (hd : 0 ≤ d)
    (hk : 0 < k) (hg : 0 < g) (hh : 0 < h) (he : 10000 ≤ e) (he' : e ≤ 32500)
    (hEh : Real.exp ((1 - f) * Real.log e) ≤ Eh) (hEl : El ≤ Real.exp ((1 - f) * Real.log e)) (El0 : 0 ≤ El)
    (hm : Real.log (g / 10000 + h * 32500) ≤ m) (hm' : m' ≤ Real.log (10000 * h)) (m0 : 0 ≤ m')
    (hD : D ≤ Real.exp (d * 9.2)) (hS : 19 * (k * Eh * m / 10000) ≤ a + c * D)
    (hhi : 1961.14 * (2.1131e-6) * (k * Eh * m) ≤ hi) (hlo : lo ≤ 1961.12 * 0.95 * 2.0397e-6 * (k * El * m'))
    (q1 : q ≤ 2.1131e-6 * e) (q0 : 2.0397e-6 * e ≤ q) :
    lo ≤ 1961.13 * (pseLow a b c d e * pseHigh k f g h e / (pseLow a b c d e + pseHigh k f g h e)) * q ∧
    1961.13 * (pseLow a b c d e * pseHigh k f g h e / (pseLow a b c d e + pseHigh k f g h e)) * q ≤ hi := by
  have e0 : 0 < e := by linarith
  have ef : e ^ f = e / Real.exp ((1 - f) * Real.log e) := by
    rw [Real.rpow_def_of_pos e0, show Real.log e * f = Real.log e - (1 - f) * Real.log e by ring, Real.exp_sub, Real.exp_log e0]
  have X0 := Real.exp_pos ((1 - f) * Real.log e)
  have L1 : Real.log (g / e + h * e) ≤ m := by
    refine le_trans (Real.log_le_log (by positivity) ?_) hm
    gcongr
  have L0 : m' ≤ Real.log (g / e + h * e) := by
    refine hm'.trans (Real.log_le_log (by positivity) ?_)
    have : 0 < g / e := by positivity
    nlinarith
  have hH : pseHigh k f g h e = k * Real.exp ((1 - f) * Real.log e) * Real.log (g / e + h * e) / e := by
    unfold pseHigh; rw [ef]; field_simp
  have hL : a + c * D ≤ pseLow a b c d e := by
    unfold pseLow
    have w1 : 1 ≤ e ^ b := Real.one_le_rpow (by linarith) hb
    have w2 : D ≤ e ^ d := by
      refine hD.trans ?_
      rw [Real.rpow_def_of_pos e0]
      apply Real.exp_le_exp.mpr
      rw [mul_comm]
      have := log_e4.1
      have : Real.log 10000 ≤ Real.log e := Real.log_le_log (by norm_num) he
      exact mul_le_mul_of_nonneg_right (by linarith) hd
    nlinarith
  generalize Real.exp ((1 - f) * Real.log e) = X at *
  generalize Real.log (g / e + h * e) = Y at *
  have Y0 : 0 ≤ Y := m0.trans L0
  have Eh0 : 0 ≤ Eh := X0.le.trans hEh
  have m1 : 0 ≤ m := Y0.trans L1
  have kE0 : 0 ≤ k * Eh := by positivity
  have Hup : pseHigh k f g h e ≤ k * Eh * m / e := by rw [hH]; gcongr
  have Hlo : k * El * m' / e ≤ pseHigh k f g h e := by rw [hH]; gcongr
  have H0 : 0 ≤ pseHigh k f g h e := by rw [hH]; positivity
  have Hup2 : 19 * pseHigh k f g h e ≤ pseLow a b c d e := by
    have m1 : 0 ≤ k * Eh * m := by
      have : 0 ≤ Eh := X0.le.trans hEh
      have : 0 ≤ m := Y0.trans L1
      positivity
    have : k * Eh * m / e ≤ k * Eh * m / 10000 := by gcongr
    linarith
  have Lp : 0 < pseLow a b c d e := by
    unfold pseLow
    have := Real.rpow_pos_of_pos e0 b
    have := Real.rpow_pos_of_pos e0 d
    positivity
  have q0' : 0 < q := by
    refine lt_of_lt_of_le ?_ q0
    norm_num; positivity
  generalize pseHigh k f g h e = H at *
  generalize pseLow a b c d e = S at *
  have R1 : S * H / (S + H) ≤ H := by rw [div_le_iff₀ (by linarith)]; nlinarith
  have R0 : 0.95 * H ≤ S * H / (S + H) := by
    rw [le_div_iff₀ (by linarith)]
    norm_num
    nlinarith
  generalize S * H / (S + H) = R at *
  have He1 : H * e ≤ k * Eh * m := by rwa [le_div_iff₀ e0] at Hup
  have He0 : k * El * m' ≤ H * e := by rwa [div_le_iff₀ e0] at Hlo
  generalize k * Eh * m = U at *
  generalize k * El * m' = V at *
  constructor
  · refine hlo.trans ?_
    have V0 : 1961.12 * 0.95 * 2.0397e-6 * V ≤ 1961.12 * 0.95 * 2.0397e-6 * (H * e) := mul_le_mul_of_nonneg_left He0 (by norm_num)
    refine V0.trans ?_
    calc 1961.12 * 0.95 * 2.0397e-6 * (H * e) = 1961.12 * (0.95 * H) * (2.0397e-6 * e) := by ring
      _ ≤ 1961.13 * R * q := by
        have : 0 ≤ R := le_trans (by positivity) R0
        gcongr
        norm_num
  · refine le_trans ?_ hhi
    calc 1961.13 * R * q ≤ 1961.14 * H * (2.1131e-6 * e) :=
          mul_le_mul (mul_le_mul (by norm_num) R1 (le_trans (by positivity) R0) (by norm_num)) q1 q0'.le (by positivity)
      _ = 1961.14 * 2.1131e-6 * (H * e) := by ring
      _ ≤ _ := mul_le_mul_of_nonneg_left He1 (by norm_num)

theorem lin_between (t l k k' : ℝ) (h0 : 9.2 ≤ l) (h1 : l ≤ 10.4) (v1 : 46 * t * 10 ≤ k) (v2 : 52 * t * 10 ≤ k)
    (v3 : k' ≤ 46 * t * 10) (v4 : k' ≤ 52 * t * 10) : t * l ≤ k / 50 ∧ k' / 50 ≤ t * l := by
  norm_num at h0 h1
  rcases le_total 0 t with h | h <;> constructor <;> nlinarith

set_option maxHeartbeats 1000000 in
theorem pseRow_value (row : List Dec) (hr : pseRowSteady row = true) (w : Int × Int × Nat × Nat × Nat × Nat × Nat)
    (hw : pseHint row w = true) (e q : ℝ) (he : 10000 ≤ e) (he' : e ≤ 32500) (q1 : q ≤ 2.1131e-6 * e) (q0 : 2.0397e-6 * e ≤ q) :
    ∃ s, pseRow (row.map Dec.toScalar) e = .ok s ∧ (w.2.2.2.2.2.2 : ℝ) / 1000 ≤ 1961.13 * s * q ∧
      1961.13 * s * q ≤ (w.2.2.2.2.2.1 : ℝ) / 1000 := by
  unfold pseRowSteady at hr
  split at hr
  case h_2 => cases hr
  case h_1 a b c d k f g h =>
    simp only [decide_eq_true_eq] at hr
    obtain ⟨ha, hb, -, hc, hd, -, hk, -, -, hg, hh, -⟩ := hr
    obtain ⟨kE, kE', km, km', kd, hi, lo⟩ := w
    simp only [pseHint, decide_eq_true_eq] at hw
    obtain ⟨w1, w2, w3, w4, w5, w6, w7, w8, w9, w10⟩ := hw
    refine ⟨_, rfl, ?_⟩
    simp only [pow_real, log_real, ← Dec.rat_cast]
    have ha' : (0 : ℝ) < a.rat := by exact_mod_cast ha
    have hc' : (0 : ℝ) < c.rat := by exact_mod_cast hc
    have hk' : (0 : ℝ) < k.rat := by exact_mod_cast hk
    have hg' : (0 : ℝ) < g.rat := by exact_mod_cast hg
    have hh' : (0 : ℝ) < h.rat := by exact_mod_cast hh
    have hb0 : (0 : ℝ) ≤ b.rat := by exact_mod_cast hb
    have hd0 : (0 : ℝ) ≤ d.rat := by exact_mod_cast hd
    have v1 := (Rat.cast_le (K := ℝ)).mpr w1
    have v2 := (Rat.cast_le (K := ℝ)).mpr w2
    have v3 := (Rat.cast_le (K := ℝ)).mpr w3
    have v4 := (Rat.cast_le (K := ℝ)).mpr w4
    have v5 := (Rat.cast_le (K := ℝ)).mpr w5
    have v6 := (Rat.cast_le (K := ℝ)).mpr w6
    have v7 := (Rat.cast_le (K := ℝ)).mpr w7
    have v8 := (Rat.cast_le (K := ℝ)).mpr w8
    have v9 := (Rat.cast_le (K := ℝ)).mpr w9
    have v10 := (Rat.cast_le (K := ℝ)).mpr w10
    push_cast at v1 v2 v3 v4 v5 v6 v7 v8 v9 v10
    have X1 := exp_50 kE
    have X2 := exp_50 kE'
    have X3 := exp_50 km
    have X4 := exp_50 km'
    have X5 := exp_50 kd
    push_cast at X3 X4 X5
    have le0 : Real.log 10000 ≤ Real.log e := Real.log_le_log (by norm_num) he
    have le1 : Real.log e ≤ Real.log 32500 := Real.log_le_log (by linarith) he'
    obtain ⟨l4, l5⟩ := log_e4
    have hl0 : 9.2 ≤ Real.log e := l4.trans le0
    have hl1 : Real.log e ≤ 10.4 := le1.trans l5
    have E0 : 0 ≤ ((expLow kE' : ℚ) : ℝ) := by
      have : 0 ≤ expLow kE' := by unfold expLow; split <;> positivity
      exact_mod_cast this
    clear w1 w2 w3 w4 w5 w6 w7 w8 w9 w10
    generalize ((expLow kE' : ℚ) : ℝ) = El at *
    generalize ((expHigh kE : ℚ) : ℝ) = Eh at *
    generalize ((expLow kd : ℚ) : ℝ) = D at *
    generalize ((expLow km : ℚ) : ℝ) = M at *
    generalize ((expHigh km' : ℚ) : ℝ) = M' at *
    have c1 := (lin_between _ _ _ _ hl0 hl1 v1 v2 v3 v4).1
    have c2 := (lin_between _ _ _ _ hl0 hl1 v1 v2 v3 v4).2
    refine real_row_bounds a.rat b.rat c.rat d.rat k.rat f.rat g.rat h.rat e q Eh El (km / 50) (km' / 50) D _ _ ha' hb0 hc' hd0 hk'
      hg' hh' he he' ((Real.exp_le_exp.mpr c1).trans X1.2) (X2.1.trans (Real.exp_le_exp.mpr c2)) E0 ?_ ?_ (by positivity)
      (X5.1.trans (Real.exp_le_exp.mpr ?_)) ?_ ?_ ?_ q1 q0
    · rw [Real.log_le_iff_le_exp (by positivity)]
      exact v5.trans X3.1
    · rw [Real.le_log_iff_exp_le (by positivity)]
      exact X4.2.trans v6
    · norm_num; linarith
    · refine le_trans (le_of_eq ?_) v8
      ring
    · rw [le_div_iff₀ (by norm_num)]
      refine le_trans (le_of_eq ?_) v9
      norm_num
      ring
    · rw [div_le_iff₀ (by norm_num)]
      refine v10.trans (le_of_eq ?_)
      norm_num
      ring

end Catima
