import Verif.Lemmas.IonBlend

/-!
# Helper lemmas: the proton stopping power between 10 and 32.5 MeV/u, target by target

The hints (exponents, bound of the stopping number up to 16 MeV/u, bound of the logarithm of the atomic number) are checked by the
kernel against the coefficients.
-/

namespace Catima

def pse_95_hints16 : List (Int × Nat × Nat × Nat) :=
  [(-86, 252, 7327, 0), (-37, 335, 13047, 35), (-7, 298, 20676, 55), (-26, 268, 25687, 70), (-14, 289, 31480, 81),
   (-7, 284, 38029, 90), (16, 338, 42597, 98), (16, 338, 48389, 104), (28, 306, 57805, 110), (30, 325, 56852, 116),
   (28, 342, 66111, 120), (34, 358, 66785, 125), (32, 337, 69732, 129), (42, 329, 77503, 132), (66, 399, 83371, 136),
   (43, 363, 82522, 139), (48, 337, 94915, 142), (23, 274, 97631, 145), (76, 483, 101840, 148), (81, 520, 109076, 150),
   (42, 346, 106389, 153), (40, 340, 110596, 155), (31, 308, 114695, 157), (69, 375, 119574, 159), (58, 327, 123321, 161),
   (58, 317, 128047, 163), (65, 344, 130134, 165), (61, 327, 135026, 167), (52, 337, 135705, 169), (85, 326, 149158, 171),
   (87, 354, 150284, 172), (63, 344, 156623, 174), (82, 361, 157367, 175), (47, 284, 157048, 177), (26, 253, 163858, 178),
   (10, 229, 164310, 180), (90, 335, 180502, 181), (64, 317, 178237, 182), (73, 328, 182250, 184), (30, 255, 180524, 185),
   (73, 332, 177179, 186), (85, 333, 190401, 187), (67, 346, 183776, 189), (85, 333, 190401, 190), (80, 321, 197540, 191),
   (76, 347, 196124, 192), (80, 356, 201791, 193), (88, 378, 203289, 194), (99, 425, 205128, 195), (90, 395, 204275, 196),
   (82, 357, 208158, 197), (100, 416, 218480, 198), (53, 272, 228001, 199), (87, 324, 235608, 200), (79, 336, 226503, 201),
   (67, 322, 234433, 202), (109, 483, 231862, 203), (28, 245, 235738, 204), (70, 327, 237523, 204), (114, 437, 243384, 205),
   (79, 342, 251841, 206), (87, 414, 247827, 207), (103, 367, 264395, 208), (67, 311, 252582, 208), (56, 279, 255512, 209),
   (78, 308, 259817, 210), (87, 310, 263837, 211), (89, 340, 266549, 211), (79, 304, 270013, 212), (64, 252, 274967, 213),
   (57, 242, 273293, 214), (79, 289, 272828, 214), (91, 303, 279632, 215), (173, 479, 316491, 216), (122, 404, 279642, 216),
   (108, 359, 281088, 217), (72, 306, 279717, 218), (70, 276, 286749, 218), (64, 271, 294549, 219), (63, 269, 292168, 220),
   (69, 275, 294109, 220), (68, 276, 301301, 221), (76, 296, 305327, 221), (72, 281, 306062, 222), (72, 281, 306062, 223),
   (64, 262, 315541, 223), (55, 250, 322499, 224), (56, 257, 317697, 224), (58, 262, 319991, 225), (60, 260, 328133, 225),
   (83, 296, 324745, 226), (80, 298, 325747, 227)]

def proton_stopping_coef_hints16 : List (Int × Nat × Nat × Nat) :=
  [(-6, 339, 7877, 0), (-29, 283, 14197, 35), (-21, 286, 20829, 55), (-9, 322, 26764, 70), (-16, 290, 31439, 81),
   (-13, 284, 37973, 90), (-11, 278, 44271, 98), (-8, 282, 48912, 104), (-6, 288, 53457, 110), (1, 293, 57939, 116),
   (24, 359, 65556, 120), (5, 331, 66320, 125), (23, 332, 69271, 129), (34, 317, 78580, 132), (14, 267, 82160, 136),
   (17, 263, 86158, 139), (19, 281, 93131, 142), (12, 262, 96757, 145), (60, 401, 101211, 148), (11, 275, 110532, 150),
   (24, 290, 109896, 153), (29, 335, 107318, 155), (38, 301, 118366, 157), (45, 309, 117965, 159), (46, 305, 121822, 161),
   (48, 301, 125066, 163), (51, 296, 130518, 165), (59, 325, 135596, 167), (49, 334, 135547, 169), (52, 280, 143442, 171),
   (37, 279, 145482, 172), (36, 311, 157951, 174), (41, 300, 153885, 175), (44, 281, 158594, 177), (9, 235, 161080, 178),
   (26, 250, 165361, 180), (53, 305, 164367, 181), (12, 233, 174627, 182), (28, 260, 177820, 184), (33, 263, 178592, 185),
   (64, 321, 184699, 186), (67, 313, 178690, 187), (67, 346, 183773, 189), (67, 313, 190152, 190), (67, 308, 190576, 191),
   (69, 319, 196252, 192), (71, 341, 200248, 193), (88, 378, 203297, 194), (89, 403, 204166, 195), (86, 384, 206175, 196),
   (81, 349, 208738, 197), (48, 302, 220361, 198), (53, 272, 227999, 199), (48, 269, 229728, 200), (54, 303, 216771, 201),
   (67, 322, 234432, 202), (105, 440, 234238, 203), (28, 245, 235738, 204), (70, 327, 237528, 204), (72, 323, 240717, 205),
   (61, 309, 247855, 206), (87, 414, 247827, 207), (45, 319, 255653, 208), (69, 310, 257334, 208), (72, 318, 260319, 209),
   (77, 325, 260896, 210), (81, 317, 265924, 211), (88, 340, 266378, 211), (79, 304, 270010, 212), (59, 279, 274370, 213),
   (72, 288, 273934, 214), (79, 289, 272828, 214), (86, 300, 278228, 215), (102, 332, 260802, 216), (99, 319, 279848, 216),
   (99, 319, 282165, 217), (89, 305, 283432, 218), (70, 276, 286753, 218), (55, 267, 296789, 219), (57, 248, 295365, 220),
   (69, 275, 294108, 220), (55, 259, 307005, 221), (53, 263, 306166, 221), (50, 237, 303712, 222), (66, 264, 307569, 223),
   (64, 262, 315545, 223), (55, 250, 322499, 224), (44, 231, 322656, 224), (58, 262, 319991, 225), (60, 260, 328132, 225),
   (54, 250, 323118, 226), (84, 296, 329794, 227)]

/-- The check of one row up to 16 MeV/u. -/
def pseHint16 (r : List Dec) (w : Int × Nat × Nat × Nat) : Bool :=
  match r with
  | [_, _, _, _, k, f, g, h] =>
    decide (460 * (1 - f.rat) ≤ w.1 ∧ 969 / 2 * (1 - f.rat) ≤ w.1 ∧ g.rat / 10000 + h.rat * 16000 ≤ expLow w.2.1 ∧
      1000 * (196114 / 100 * (21131 / 10 ^ 10) * (k.rat * expHigh w.1 * w.2.1 / 50)) ≤ w.2.2.1 ∧ 1 ≤ 10000 * h.rat)
  | _ => false

set_option maxRecDepth 8000 in
theorem pse_95_hinted16 : (pse_95.zip pse_95_hints16).all (fun e => pseHint16 e.1 e.2) = true ∧ pse_95_hints16.length = 92 := by
  decide +kernel
set_option maxRecDepth 8000 in
theorem proton_hinted16 : (proton_stopping_coef.zip proton_stopping_coef_hints16).all (fun e => pseHint16 e.1 e.2) = true ∧
    proton_stopping_coef_hints16.length = 92 := by
  decide +kernel

/-- What the hints give for every target: the stopping number is below a multiple of the Bethe logarithm. -/
def hintsIon (l : List (Int × Int × Nat × Nat × Nat × Nat × Nat)) (l' : List (Int × Nat × Nat × Nat)) : Bool :=
  (List.range 92).all fun i => match l[i]?, l'[i]? with
    | some w, some w' => decide (122 * (w'.2.2.1 : Int) ≤ 329 * (i + 1) * (3774 - 10 * (w'.2.2.2 : Int)) ∧
        117 * (w.2.2.2.2.2.1 : Int) ≤ 329 * (i + 1) * (4427 - 10 * (w'.2.2.2 : Int)) ∧
        (if i < 29 then 3660 else 2650) * (i + 1) ≤ w.2.2.2.2.2.2 ∧ ((i + 1 : Nat) : ℚ) ≤ expLow w'.2.2.2)
    | _, _ => false

theorem hints_ion : hintsIon pse_95_hints pse_95_hints16 = true ∧ hintsIon proton_stopping_coef_hints proton_stopping_coef_hints16 = true := by
  decide +kernel

theorem log_16 : Real.log 16000 ≤ 9.69 := by
  rw [Real.log_le_iff_le_exp (by norm_num)]
  have h1 := (exp_50 484).1
  have h2 : 16000 ≤ expLow 484 * (101 / 100) := by decide +kernel
  have h3 : (16000 : ℝ) ≤ ((expLow 484 : ℚ) : ℝ) * (101 / 100) := by
    have := (Rat.cast_le (K := ℝ)).mpr h2
    push_cast at this
    exact this
  have e : (9.69 : ℝ) = (((484 : Int) : ℝ)) / 50 + 0.01 := by norm_num
  rw [e, Real.exp_add]
  have h4 := Real.add_one_le_exp (0.01 : ℝ)
  refine h3.trans ?_
  have : (101 : ℝ) / 100 ≤ Real.exp 0.01 := by norm_num at h4 ⊢; exact h4
  exact mul_le_mul h1 this (by norm_num) (Real.exp_pos _).le

/-- The upper bound up to 16 MeV/u. -/
theorem pseRow_value16 (row : List Dec) (hr : pseRowSteady row = true) (w : Int × Nat × Nat × Nat)
    (hw : pseHint16 row w = true) (e q s : ℝ) (he : 10000 ≤ e) (he' : e ≤ 16000) (q1 : q ≤ 2.1131e-6 * e) (q0 : 0 ≤ q)
    (hs : pseRow (row.map Dec.toScalar) e = .ok s) : 1961.13 * s * q ≤ (w.2.2.1 : ℝ) / 1000 := by
  unfold pseRowSteady at hr
  split at hr
  case h_2 => cases hr
  case h_1 a b c d k f g h =>
    simp only [decide_eq_true_eq] at hr
    obtain ⟨ha, hb, -, hc, hd, -, hk, -, -, hg, hh, -⟩ := hr
    obtain ⟨kE, km, hi, u⟩ := w
    simp only [pseHint16, decide_eq_true_eq] at hw
    obtain ⟨w1, w2, w3, w4, w5⟩ := hw
    have hs' : pseRow ([a, b, c, d, k, f, g, h].map (Dec.toScalar (α := ℝ))) e = .ok _ := rfl
    rw [hs] at hs'
    injection hs' with hs'
    simp only [pow_real, log_real, ← Dec.rat_cast] at hs'
    have ha' : (0 : ℝ) < a.rat := by exact_mod_cast ha
    have hc' : (0 : ℝ) < c.rat := by exact_mod_cast hc
    have hk' : (0 : ℝ) < k.rat := by exact_mod_cast hk
    have hg' : (0 : ℝ) < g.rat := by exact_mod_cast hg
    have hh' : (0 : ℝ) < h.rat := by exact_mod_cast hh
    have v1 := (Rat.cast_le (K := ℝ)).mpr w1
    have v2 := (Rat.cast_le (K := ℝ)).mpr w2
    have v3 := (Rat.cast_le (K := ℝ)).mpr w3
    have v4 := (Rat.cast_le (K := ℝ)).mpr w4
    have v5 := (Rat.cast_le (K := ℝ)).mpr w5
    push_cast at v1 v2 v3 v4 v5
    have X1 := (exp_50 kE).2
    have X3 := (exp_50 km).1
    push_cast at X3
    clear w1 w2 w3 w4 w5
    generalize ((expHigh kE : ℚ) : ℝ) = Eh at *
    generalize ((expLow km : ℚ) : ℝ) = M at *
    generalize (a.rat : ℝ) = a at *
    generalize (b.rat : ℝ) = b at *
    generalize (c.rat : ℝ) = c at *
    generalize (d.rat : ℝ) = d at *
    generalize (k.rat : ℝ) = k at *
    generalize (f.rat : ℝ) = f at *
    generalize (g.rat : ℝ) = g at *
    generalize (h.rat : ℝ) = h at *
    have e0 : 0 < e := by linarith
    have l0 : 9.2 ≤ Real.log e := log_e4.1.trans (Real.log_le_log (by norm_num) he)
    have l1 : Real.log e ≤ 9.69 := (Real.log_le_log e0 he').trans log_16
    have lin : (1 - f) * Real.log e ≤ kE / 50 := by
      norm_num at l0 l1
      rcases le_total 0 (1 - f) with h | h <;> nlinarith
    have X0 := Real.exp_pos ((1 - f) * Real.log e)
    have X2 := (Real.exp_le_exp.mpr lin).trans X1
    have ef : e ^ f = e / Real.exp ((1 - f) * Real.log e) := by
      rw [Real.rpow_def_of_pos e0, show Real.log e * f = Real.log e - (1 - f) * Real.log e by ring, Real.exp_sub, Real.exp_log e0]
    have L1 : Real.log (g / e + h * e) ≤ km / 50 := by
      rw [Real.log_le_iff_le_exp (by positivity)]
      refine le_trans ?_ (v3.trans X3)
      gcongr
    have L0 : 0 ≤ Real.log (g / e + h * e) := by
      apply Real.log_nonneg
      have : 0 < g / e := by positivity
      nlinarith
    have sl : 0 < a * e ^ b + c * e ^ d := by
      have := Real.rpow_pos_of_pos e0 b
      have := Real.rpow_pos_of_pos e0 d
      positivity
    rw [ef] at hs'
    generalize a * e ^ b + c * e ^ d = S at *
    generalize Real.exp ((1 - f) * Real.log e) = X at *
    generalize Real.log (g / e + h * e) = Y at *
    have hX : k / (e / X) * Y = k * X * Y / e := by field_simp
    rw [hX] at hs'
    have H0 : 0 ≤ k * X * Y / e := by positivity
    have R1 : S * (k * X * Y / e) / (S + k * X * Y / e) ≤ k * X * Y / e := by rw [div_le_iff₀ (by linarith)]; nlinarith
    have s0 : 0 ≤ s := by rw [hs']; positivity
    have Eh0 : 0 ≤ k * Eh := mul_nonneg hk'.le (X0.le.trans X2)
    have up : s * e ≤ k * Eh * (km / 50) := by
      rw [← hs', le_div_iff₀ e0] at R1
      refine R1.trans ?_
      gcongr
    rw [le_div_iff₀ (by norm_num)]
    refine le_trans ?_ v4
    calc 1961.13 * s * q * 1000 ≤ 1961.14 * s * (2.1131e-6 * e) * 1000 := by
          gcongr
          norm_num
      _ = 1961.14 * 2.1131e-6 * 1000 * (s * e) := by ring
      _ ≤ 1961.14 * 2.1131e-6 * 1000 * (k * Eh * (km / 50)) := mul_le_mul_of_nonneg_left up (by norm_num)
      _ = _ := by norm_num; ring

theorem pseGen_ion (tab : List (List Dec)) (hints : List (Int × Int × Nat × Nat × Nat × Nat × Nat)) (hints' : List (Int × Nat × Nat × Nat))
    (hl : tab.length = 92) (hl' : hints.length = 92) (hl'' : hints'.length = 92) (hr : ∀ r ∈ tab, pseRowSteady r = true)
    (hh : (tab.zip hints).all (fun e => pseHint e.1 e.2) = true) (hh' : (tab.zip hints').all (fun e => pseHint16 e.1 e.2) = true)
    (hg : hintsIon hints hints' = true) (Z : Int) (hZ : 1 ≤ Z) (hZ' : Z ≤ 92) (x : ℝ) (h0 : 10 ≤ x) (h1 : x ≤ 32.5) :
    ∃ s, pseGen tab Z x = .ok s ∧
      (x ≤ 16 → 1.22 * (1961.13 * s * (etaSq x / (1 + etaSq x))) ≤ 3.29 * (Z * (3.774 - Real.log Z / 2))) ∧
      1.17 * (1961.13 * s * (etaSq x / (1 + etaSq x))) ≤ 3.29 * (Z * (4.427 - Real.log Z / 2)) ∧
      (Z ≤ 29 → 3.66 * (Z : ℝ) ≤ 1961.13 * s * (etaSq x / (1 + etaSq x))) ∧
      2.65 * (Z : ℝ) ≤ 1961.13 * s * (etaSq x / (1 + etaSq x)) := by
  obtain ⟨i0, i92⟩ := srimIdx_range Z hZ
  obtain ⟨k, hk⟩ := Int.eq_ofNat_of_zero_le i0
  have hk' : k < tab.length := by omega
  have hkh : k < hints.length := by omega
  have hkh' : k < hints'.length := by omega
  have hrow := rd_nat tab k hk'
  have hs := hr _ (List.getElem_mem hk')
  have hw : pseHint tab[k] hints[k] = true := by
    rw [List.all_eq_true] at hh
    have hz : k < (tab.zip hints).length := by rw [List.length_zip]; omega
    have := hh _ (List.getElem_mem hz)
    rwa [List.getElem_zip] at this
  have hw' : pseHint16 tab[k] hints'[k] = true := by
    rw [List.all_eq_true] at hh'
    have hz : k < (tab.zip hints').length := by rw [List.length_zip]; omega
    have := hh' _ (List.getElem_mem hz)
    rwa [List.getElem_zip] at this
  have kZ : (k : Int) + 1 = Z := by
    unfold srimIdx at hk
    split at hk <;> omega
  have hgk : 122 * (hints'[k].2.2.1 : Int) ≤ 329 * (k + 1) * (3774 - 10 * (hints'[k].2.2.2 : Int)) ∧
        117 * (hints[k].2.2.2.2.2.1 : Int) ≤ 329 * (k + 1) * (4427 - 10 * (hints'[k].2.2.2 : Int)) ∧
        (if k < 29 then 3660 else 2650) * (k + 1) ≤ hints[k].2.2.2.2.2.2 ∧ ((k + 1 : Nat) : ℚ) ≤ expLow hints'[k].2.2.2 := by
    unfold hintsIon at hg
    rw [List.all_eq_true] at hg
    have := hg k (List.mem_range.mpr (by omega))
    rw [List.getElem?_eq_getElem hkh, List.getElem?_eq_getElem hkh'] at this
    exact of_decide_eq_true this
  obtain ⟨g1, g2, g3, g4⟩ := hgk
  obtain ⟨q1, q0⟩ := beta_over_e x h0 h1
  obtain ⟨s, es, b0, b1⟩ := pseRow_value tab[k] hs hints[k] hw (1000 * x) _ (by linarith) (by norm_num at h1; linarith) q1 q0
  have b2 : x ≤ 16 → 1961.13 * s * (etaSq x / (1 + etaSq x)) ≤ (hints'[k].2.2.1 : ℝ) / 1000 := fun h16 =>
    pseRow_value16 tab[k] hs hints'[k] hw' (1000 * x) _ s (by linarith) (by linarith) q1 (le_trans (by positivity) q0) es
  have val : pseGen tab Z x = .ok s := by
    unfold pseGen
    have e25 : (25.0 : ℝ) = 25 := by norm_num
    have e1000 : (1000.0 : ℝ) = 1000 := by norm_num
    rw [hk, e25, e1000]
    have h' : ¬ Scalar.le (1000 * x) 25 = true := fun hh => by have := (le_real _ _).mp hh; linarith
    simp only [hrow, bind_ok, if_neg h', es]
    rfl
  have kR : (Z : ℝ) = k + 1 := by exact_mod_cast kZ.symm
  have hlog : Real.log Z / 2 ≤ (hints'[k].2.2.2 : ℝ) / 100 := by
    have e4 := (Rat.cast_le (K := ℝ)).mpr g4
    push_cast at e4
    have := (exp_50 hints'[k].2.2.2).1
    push_cast at this
    have l1 : Real.log Z ≤ (hints'[k].2.2.2 : ℝ) / 50 := by
      rw [kR, Real.log_le_iff_le_exp (by positivity)]
      exact e4.trans this
    linarith
  have g1' : (122 : ℝ) * hints'[k].2.2.1 ≤ 329 * (k + 1) * (3774 - 10 * hints'[k].2.2.2) := by exact_mod_cast g1
  have g2' : (117 : ℝ) * hints[k].2.2.2.2.2.1 ≤ 329 * (k + 1) * (4427 - 10 * hints'[k].2.2.2) := by exact_mod_cast g2
  have k0 : (0 : ℝ) ≤ k + 1 := by positivity
  refine ⟨s, val, fun h16 => ?_, ?_, fun h29 => ?_, ?_⟩
  · have := b2 h16
    rw [kR] at *
    have := mul_le_mul_of_nonneg_left hlog k0
    norm_num at *
    nlinarith
  · rw [kR] at *
    have := mul_le_mul_of_nonneg_left hlog k0
    norm_num at *
    nlinarith
  · refine le_trans ?_ b0
    rw [if_pos (by omega)] at g3
    have : (3660 : ℝ) * (k + 1) ≤ hints[k].2.2.2.2.2.2 := by exact_mod_cast g3
    rw [kR, le_div_iff₀ (by norm_num)]
    norm_num
    linarith
  · refine le_trans ?_ b0
    have : 2650 * (k + 1) ≤ hints[k].2.2.2.2.2.2 := by split at g3 <;> omega
    have : (2650 : ℝ) * (k + 1) ≤ hints[k].2.2.2.2.2.2 := by exact_mod_cast this
    rw [kR, le_div_iff₀ (by norm_num)]
    norm_num
    linarith

theorem ion_proton (b : Bool) (Z : Int) (hZ : 1 ≤ Z) (hZ' : Z ≤ 92) (x : ℝ) (h0 : 10 ≤ x) (h1 : x ≤ 32.5) :
    ∃ s, (if b then p_se Z else p_se85 Z : ℝ → M ℝ) x = .ok s ∧
      (x ≤ 16 → 1.22 * (1961.13 * s * (etaSq x / (1 + etaSq x))) ≤ 3.29 * (Z * (3.774 - Real.log Z / 2))) ∧
      1.17 * (1961.13 * s * (etaSq x / (1 + etaSq x))) ≤ 3.29 * (Z * (4.427 - Real.log Z / 2)) ∧
      (Z ≤ 29 → 3.66 * (Z : ℝ) ≤ 1961.13 * s * (etaSq x / (1 + etaSq x))) ∧
      2.65 * (Z : ℝ) ≤ 1961.13 * s * (etaSq x / (1 + etaSq x)) := by
  cases b
  · exact pseGen_ion _ _ _ proton_ok.1 proton_hinted.2 proton_hinted16.2 proton_steady proton_hinted.1 proton_hinted16.1 hints_ion.2 Z hZ hZ' x h0 h1
  · exact pseGen_ion _ _ _ pse_95_ok.1 pse_95_hinted.2 pse_95_hinted16.2 pse_95_steady pse_95_hinted.1 pse_95_hinted16.1 hints_ion.1 Z hZ hZ' x h0 h1

end Catima
