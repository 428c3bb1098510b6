import Verif.Lemmas.LogTen
import Verif.Lemmas.LindhardLow
import Verif.Lemmas.RatScalar

/-!
# Helper lemmas: logarithms of the numbers in the Lindhard-Sørensen tables
-/

namespace Catima

/-- The first `n` terms of the series of `artanh x`. -/
def artanhSum (x : ℚ) : Nat → ℚ
  | 0 => 0
  | n + 1 => artanhSum x n + x ^ (2 * n + 1) / (2 * n + 1)

/-- The logarithm of a number between `2^k` and `2^(k+1)`. -/
def logApprox (q : ℚ) (k : Nat) : ℚ :=
  2 * artanhSum ((q - 2 ^ k) / (q + 2 ^ k)) 12 + k * (693147180559945309417 / 1000000000000000000000)

/-- `L` is the logarithm of `q` up to `e`, and `q` is at least 1. -/
def logClose (q L e : ℚ) : Bool :=
  let k := Nat.log2 q.floor.toNat
  decide (2 ^ k ≤ q ∧ q ≤ 2 ^ (k + 1) ∧ k ≤ 100 ∧ logApprox q k - L ≤ e ∧ L - logApprox q k ≤ e)

theorem artanhSum_real (x : ℚ) (n : Nat) : ((artanhSum x n : ℚ) : ℝ) =
    ∑ i ∈ Finset.range n, (x : ℝ) ^ (2 * i + 1) / (2 * i + 1) := by
  induction n with
  | zero => simp [artanhSum]
  | succ n ih => rw [artanhSum, Finset.sum_range_succ, ← ih]; push_cast; ring

theorem log_approx (q : ℚ) (k : Nat) (h1 : 2 ^ k ≤ q) (h2 : q ≤ 2 ^ (k + 1)) (hk : k ≤ 100) :
    |Real.log q - logApprox q k| ≤ 1e-11 := by
  have hp : (0 : ℝ) < 2 ^ k := by positivity
  have h1' : (2 : ℝ) ^ k ≤ q := by exact_mod_cast h1
  have h2' : (q : ℝ) ≤ 2 * 2 ^ k := by
    have : (q : ℝ) ≤ 2 ^ (k + 1) := by exact_mod_cast h2
    rwa [pow_succ'] at this
  obtain ⟨x, hx⟩ : ∃ x : ℝ, x = ((q : ℝ) - 2 ^ k) / (q + 2 ^ k) := ⟨_, rfl⟩
  have hden : (0 : ℝ) < q + 2 ^ k := by linarith
  have hx0 : 0 ≤ x := by rw [hx]; exact div_nonneg (by linarith) hden.le
  have hx1 : x ≤ 1 / 3 := by rw [hx, div_le_iff₀ hden]; linarith
  have hq : (1 + x) / (1 - x) = q / 2 ^ k := by
    rw [hx]
    field_simp
    ring
  have hlog : Real.log ((1 + x) / (1 - x)) = Real.log q - k * Real.log 2 := by
    rw [hq, Real.log_div (by linarith) hp.ne', Real.log_pow]
  have lo := Real.sum_range_le_log_div hx0 (by linarith) 12
  have hi := Real.log_div_le_sum_range_add hx0 (by linarith) 12
  rw [hlog] at lo hi
  have hs : ((logApprox q k : ℚ) : ℝ) = 2 * (∑ i ∈ Finset.range 12, x ^ (2 * i + 1) / (2 * i + 1)) +
      k * 0.693147180559945309417 := by
    unfold logApprox
    push_cast
    rw [artanhSum_real]
    push_cast
    rw [← hx]
    norm_num
  have hr : x ^ (2 * 12 + 1) / (1 - x ^ 2) ≤ 4e-12 := by
    have hx2 : x ^ 2 ≤ 1 / 9 := by nlinarith
    rw [div_le_iff₀ (by linarith)]
    have : x ^ (2 * 12 + 1) ≤ (1 / 3) ^ (2 * 12 + 1) := pow_le_pow_left₀ hx0 hx1 _
    norm_num at this ⊢
    linarith
  have l2 := abs_le.mp log_two_near
  have hkr : (k : ℝ) ≤ 100 := by exact_mod_cast hk
  have hk0 : (0 : ℝ) ≤ k := Nat.cast_nonneg k
  have hkd : |(k : ℝ) * (Real.log 2 - 0.693147180559945309417)| ≤ 1e-14 := by
    rw [abs_mul, abs_of_nonneg hk0]
    calc (k : ℝ) * |Real.log 2 - 0.693147180559945309417| ≤ 100 * 1e-16 :=
          mul_le_mul hkr log_two_near (abs_nonneg _) (by norm_num)
      _ = 1e-14 := by norm_num
  have hkd := abs_le.mp hkd
  rw [hs, abs_le]
  generalize (∑ i ∈ Finset.range 12, x ^ (2 * i + 1) / (2 * i + 1)) = S at *
  generalize Real.log (q : ℝ) = lq at *
  generalize Real.log 2 = l at *
  rw [mul_sub] at hkd
  norm_num at *
  constructor <;> linarith [hkd.1, hkd.2]

theorem logClose_spec {q L e : ℚ} (h : logClose q L e = true) : |Real.log q - L| ≤ e + 1e-11 ∧ 1 ≤ q := by
  unfold logClose at h
  simp only [decide_eq_true_eq] at h
  obtain ⟨h1, h2, hk, h3, h4⟩ := h
  have h := abs_le.mp (log_approx q _ h1 h2 hk)
  have h3' : ((logApprox q (Nat.log2 q.floor.toNat) : ℚ) : ℝ) - L ≤ e := by exact_mod_cast h3
  have h4' : (L : ℝ) - (logApprox q (Nat.log2 q.floor.toNat) : ℚ) ≤ e := by exact_mod_cast h4
  refine ⟨?_, le_trans ?_ h1⟩
  · rw [abs_le]
    constructor <;> linarith [h.1, h.2]
  · exact one_le_pow₀ (by norm_num)

/-- A decimal as a rational number. -/
def Dec.logRat (d : Dec) : ℚ := d.m / 10 ^ d.e

theorem Dec.logRat_real (d : Dec) : ((d.logRat : ℚ) : ℝ) = d.toScalar := by
  rw [Dec.toScalar_real]; unfold Dec.logRat; push_cast; rfl

/-- `log A / 3` of the elements 1 to 108, in units of 1e-11. -/
def logWeights : List Int :=
  [263621469, 46231471665, 64581528545, 73285899858, 79352137810, 82859930639, 87984526219, 92418374051,
    98145158836, 100155904954, 104501687977, 106356069683, 109838381532, 111175114297, 114438056195,
    115592169753, 118940262521, 122919286946, 122202632926, 123027585178, 126856066975, 128947544390,
    131022597184, 131705623859, 133540175889, 134085999866, 135880153303, 135744242813, 138392135103,
    139355328789, 141484341633, 142850524476, 143881407782, 145631379838, 146027530470, 147613638028,
    148271323227, 149100309413, 149585950234, 150443934012, 151053084491, 152124099869, 152800669709,
    153860444870, 154460531673, 155579784306, 156030275246, 157405393248, 158111608867, 159222784802,
    160068396470, 161630012364, 161447696504, 162581048895, 162987819576, 164078831437, 164459674874,
    164749021699, 164936906505, 165715952630, 165871118745, 167101080623, 167454788356, 168594563186,
    168947746427, 169689266726, 170184038049, 170651450307, 170983603537, 171784092721, 172153246157,
    172817752575, 173273656572, 173802193803, 174228631937, 174941128879, 175287498072, 175779982620,
    176101206734, 176708767461, 177333189487, 177789483680, 178074618454, 178074937462, 178234854135,
    180091948656, 180242048451, 180688187087, 180835778596, 181563371712, 181419118085, 182413083833,
    182275421742, 183247682866, 183110414688, 183655723243, 183655723243, 184192387115, 184325279945,
    184981522213, 185111311925, 185240598236, 185625475433, 185497931489, 185625984121, 186131828342,
    185880749198, 186506979894]

theorem logWeights_good : ∀ r : Nat, (hr : r < 108) → ∃ L, logWeights[r]? = some L ∧
    |Real.log (element_atomic_weight ((r : Int) + 1)) / 3 - (L : ℝ) / 10 ^ 11| ≤ 1e-10 := by
  have h : ((element_atomic_weights.drop 1).take 108).length = 108 ∧ logWeights.length = 108 ∧
      ((((element_atomic_weights.drop 1).take 108).zip logWeights).all fun e =>
        logClose e.1.logRat (3 * e.2 / 100000000000) (1 / 10000000000)) = true := by
    decide +kernel
  obtain ⟨h1, h2, h3⟩ := h
  intro r hr
  refine ⟨logWeights[r]'(by rw [h2]; exact hr), List.getElem?_eq_getElem _, ?_⟩
  rw [List.all_eq_true] at h3
  have hz : r < (((element_atomic_weights.drop 1).take 108).zip logWeights).length := by
    rw [List.length_zip, h1, h2]; omega
  have h4 := h3 _ (List.getElem_mem hz)
  rw [List.getElem_zip] at h4
  have h5 := (logClose_spec h4).1
  have hw : (element_atomic_weight ((r : Int) + 1) : ℝ) =
      (((element_atomic_weights.drop 1).take 108)[r]'(by rw [h1]; exact hr)).toScalar := by
    unfold element_atomic_weight
    rw [if_pos ⟨by omega, by omega⟩]
    have hl : (r + 1) < element_atomic_weights.length := by rw [weights_pos.1]; omega
    rw [show ((r : Int) + 1).toNat = r + 1 by omega, List.getElem?_eq_getElem hl]
    simp only [List.getElem_take, List.getElem_drop]
    congr 2
    omega
  rw [hw, ← Dec.logRat_real]
  push_cast at h5
  have h6 := abs_le.mp h5
  rw [abs_le]
  norm_num at h6 ⊢
  constructor <;> linarith [h6.1, h6.2]

/-- `u / T` at the energies 160 to 199 of the table, in units of 1e-13. -/
def ratios : List Int :=
  [21930038938, 20223835468, 18650378242, 17199339319, 15861194298, 14627159793, 13489135785, 12439652456,
    11471821152, 10579289172, 9756198071, 8997145201, 8297148251, 7651612547, 7056300887, 6507305735,
    6001023569, 5534131227, 5103564098, 4706496004, 4340320648, 4002634510, 3691221069, 3404036253,
    3139195024, 2894959003, 2669725062, 2462014799, 2270464834, 2093817862, 1930914398, 1780685169,
    1642144092, 1514381804, 1396559693, 1287904391, 1187702702, 1095296917, 1010080497, 931494095]

/-- The Lindhard-Sørensen correction at these energies without the term `log A / 3`, in units of 1e-11. -/
def ultraValues : List Int :=
  [-3393803811, -11476323291, -19560164855, -27645226029, -35731412252, -43818636272, -51906817584,
    -59995881909, -68085760721, -76176390795, -84267713806, -92359675948, -100452227585, -108545322929,
    -116638919743, -124732979068, -132827464966, -140922344289, -149017586461, -157113163281, -165209048737,
    -173305218837, -181401651454, -189498326178, -197595224185, -205692328115, -213789621956, -221887090939,
    -229984721446, -238082500915, -246180417762, -254278461301, -262376621681, -270474889813, -278573257317,
    -286671716463, -294770260123, -302868881724, -310967575203, -319066334968]

theorem log_u_k : |Real.log ((atomic_mass_unit : ℝ) / 3.05573356675e-3) - 12.62752544635| ≤ 1e-10 := by
  have h : logClose (9314940954 / 10000000 / (305573356675 / 100000000000000)) (1262752544635 / 100000000000)
      (1 / 50000000000) = true := by decide +kernel
  have h := (logClose_spec h).1
  unfold atomic_mass_unit
  norm_num at h ⊢
  rw [abs_le] at h ⊢
  constructor <;> linarith [h.1, h.2]

theorem log_105 : |Real.log 1.05 / 3 - 0.01626338806| ≤ 1e-10 := by
  have h : logClose (105 / 100) (3 * 1626338806 / 100000000000) (1 / 10000000000) = true := by decide +kernel
  have h := (logClose_spec h).1
  norm_num at h ⊢
  rw [abs_le] at h ⊢
  constructor <;> linarith [h.1, h.2]

/-- `log T` at the energy `i` of the table of the corrections. -/
def lsLog (i : Nat) : ℚ := 230258509299404568401799145468 / 100000000000000000000000000000 * 7 * i / 199

theorem lsLog_real (i : Nat) : ((lsLog i : ℚ) : ℝ) = Real.log ((ls_energy_table : EnergyTable ℝ).val i) := by
  rw [EnergyTable.val_eq, Real.log_exp, ls_step]
  unfold lsLog LN10
  push_cast
  norm_num [ls_energy_table]
  ring

theorem ultra_lists : ratios.length = 40 ∧ ultraValues.length = 40 ∧
    ((ratios.zip ultraValues).zipIdx.all fun e =>
      let X : ℚ := e.1.1 / 10000000000000
      let i := 160 + e.2
      logClose (9314940954 / 10000000 / X) (lsLog i) (1 / 1000000000) && decide (0 < X ∧ X ≤ 22 / 10000) &&
        decide (-lsLog i + 1262752544635 / 100000000000 + 3 / 10 - X + X * X / 2 - e.1.2 / 100000000000 ≤ 1 / 10000000000) &&
        decide (e.1.2 / 100000000000 - (-lsLog i + 1262752544635 / 100000000000 + 3 / 10 - X + X * X / 2) ≤ 1 / 10000000000))
      = true := by decide +kernel

/-- The numbers of the lists in terms of the energies of the table. -/
theorem ultra_good (j : Nat) (hj : j < 40) : ∃ G : Int, ultraValues[j]? = some G ∧
    ∃ x, x = (atomic_mass_unit : ℝ) / (ls_energy_table : EnergyTable ℝ).val (160 + j) ∧ 0 < x ∧ x ≤ 2.25e-3 ∧
      |-Real.log ((ls_energy_table : EnergyTable ℝ).val (160 + j)) +
        Real.log ((atomic_mass_unit : ℝ) / 3.05573356675e-3) + 0.3 - x + x ^ 2 / 2 - (G : ℝ) / 10 ^ 11| ≤ 1e-9 := by
  obtain ⟨h1, h2, h3⟩ := ultra_lists
  refine ⟨ultraValues[j]'(by rw [h2]; exact hj), List.getElem?_eq_getElem _, _, rfl, ?_⟩
  rw [List.all_eq_true] at h3
  have hz : j < (ratios.zip ultraValues).zipIdx.length := by
    rw [List.length_zipIdx, List.length_zip, h1, h2]; omega
  have h4 := h3 _ (List.getElem_mem hz)
  simp only [List.getElem_zipIdx, List.getElem_zip, Bool.and_eq_true, decide_eq_true_eq, Nat.zero_add] at h4
  obtain ⟨⟨⟨h4, h5⟩, h6⟩, h7⟩ := h4
  generalize ratios[j]'(by rw [h1]; exact hj) = Xi at h4 h5 h6 h7
  generalize ultraValues[j]'(by rw [h2]; exact hj) = G at h6 h7 ⊢
  obtain ⟨X, hX⟩ : ∃ X : ℚ, X = (Xi : ℚ) / 10000000000000 := ⟨_, rfl⟩
  rw [← hX] at h4 h5 h6 h7
  have h4 := (logClose_spec h4).1
  rw [lsLog_real] at h4
  have hT := EnergyTable.val_pos (ls_energy_table : EnergyTable ℝ) (160 + j)
  have h6' : -((lsLog (160 + j) : ℚ) : ℝ) + 1262752544635 / 100000000000 + 3 / 10 - X + X * X / 2 - G / 100000000000 ≤
    1 / 10000000000 := by
    have := (Rat.cast_le (K := ℝ)).mpr h6
    push_cast at this
    exact this
  have h7' : (G : ℝ) / 100000000000 - (-((lsLog (160 + j) : ℚ) : ℝ) + 1262752544635 / 100000000000 + 3 / 10 - X + X * X / 2) ≤
    1 / 10000000000 := by
    have := (Rat.cast_le (K := ℝ)).mpr h7
    push_cast at this
    exact this
  rw [lsLog_real] at h6' h7'
  have hX0 : (0 : ℝ) < X := by exact_mod_cast h5.1
  have hX1 : (X : ℝ) ≤ 22 / 10000 := by
    have := (Rat.cast_le (K := ℝ)).mpr h5.2
    push_cast at this
    exact this
  generalize (ls_energy_table : EnergyTable ℝ).val (160 + j) = T at *
  have hk := abs_le.mp log_u_k
  generalize Real.log ((atomic_mass_unit : ℝ) / 3.05573356675e-3) = Λ at *
  have hu : (atomic_mass_unit : ℝ) = 9314940954 / 10000000 := by norm_num [atomic_mass_unit]
  have hx : |Real.log ((atomic_mass_unit : ℝ) / T) - Real.log X| ≤ 2e-9 := by
    have e1 : Real.log (((9314940954 / 10000000 / X : ℚ)) : ℝ) = Real.log (atomic_mass_unit : ℝ) - Real.log X := by
      push_cast
      rw [← hu, Real.log_div (by rw [hu]; norm_num) hX0.ne']
    rw [e1] at h4
    rw [Real.log_div (by rw [hu]; norm_num) hT.ne']
    rw [abs_le] at h4 ⊢
    norm_num at h4 ⊢
    constructor <;> linarith [h4.1, h4.2]
  have hxp : 0 < (atomic_mass_unit : ℝ) / T := div_pos (by rw [hu]; norm_num) hT
  generalize (atomic_mass_unit : ℝ) / T = x at *
  have hxx : |x - X| ≤ 1e-11 := by
    have hx := abs_le.mp hx
    have a1 : x ≤ X * Real.exp 2e-9 := by
      rw [← Real.exp_log hxp]
      conv_rhs => rw [← Real.exp_log hX0, ← Real.exp_add]
      exact Real.exp_le_exp.mpr (by linarith [hx.2])
    have a2 : X * Real.exp (-2e-9) ≤ x := by
      rw [← Real.exp_log hxp]
      conv_lhs => rw [← Real.exp_log hX0, ← Real.exp_add]
      exact Real.exp_le_exp.mpr (by linarith [hx.1])
    have b1 : Real.exp (2e-9 : ℝ) ≤ 1 + 3e-9 := by
      have := Real.exp_bound_div_one_sub_of_interval (x := (2e-9 : ℝ)) (by norm_num) (by norm_num)
      refine this.trans ?_
      norm_num
    have b2 := Real.add_one_le_exp (-2e-9 : ℝ)
    rw [abs_le]
    norm_num at a1 a2 b1 b2 ⊢
    constructor <;> nlinarith
  have hxx := abs_le.mp hxx
  refine ⟨hxp, ?_, ?_⟩
  · norm_num at hxx ⊢
    linarith [hxx.2]
  · have hsq : |x ^ 2 / 2 - X * X / 2| ≤ 1e-12 := by
      have e : x ^ 2 / 2 - X * X / 2 = (x - X) * ((x + X) / 2) := by ring
      rw [e, abs_mul]
      have h1 : |x - (X : ℝ)| ≤ 1e-11 := abs_le.mpr hxx
      have h2 : |(x + X) / 2| ≤ 0.1 := by
        rw [abs_of_nonneg (by linarith)]
        norm_num at hxx ⊢
        linarith [hxx.2]
      calc _ ≤ 1e-11 * (0.1 : ℝ) := mul_le_mul h1 h2 (abs_nonneg _) (by norm_num)
        _ = 1e-12 := by norm_num
    have hsq := abs_le.mp hsq
    rw [abs_le]
    norm_num at hk hxx hsq h6' h7' ⊢
    constructor <;> linarith [hk.1, hk.2, hxx.1, hxx.2, hsq.1, hsq.2]

/-- One row of the tables against the lists, in units of 1e-11: below the limit of the closed formula, or equal up to
the printed digits. -/
def ultraRow (ra rh : Nat) (L : Int) : Bool :=
  ultraValues.zipIdx.all fun e =>
    let g := e.1 - L
    let g' := g - 1626338806
    (decide (-200258000000 < g) || decide (-500500 ≤ lsField ra (160 + e.2) - g ∧ lsField ra (160 + e.2) - g ≤ 500500)) &&
    (decide (-200258000000 < g') || decide (-500500 ≤ lsField rh (160 + e.2) - g' ∧ lsField rh (160 + e.2) - g' ≤ 500500))

theorem ultraTables : (((ls_coefficients_a.zip ls_coefficients_ahi).zip logWeights).all fun e =>
    ultraRow e.1.1 e.1.2 e.2) = true := by decide +kernel

/-- At the energy 160 no element has reached the limit. -/
theorem ultra_below : (logWeights.all fun L => decide (-200258000000 < ultraValues.getD 0 0 - L - 1626338806)) = true := by
  decide +kernel

end Catima
