import Verif.Props.Rounding
import Mathlib.Algebra.Order.Ring.Pow
import Mathlib.Tactic.FieldSimp

/-!
# C102, C103: the size of rounding errors
-/

namespace Catima

open FloatModel

variable {F : FloatModel}

/-! ## C102: conversions -/

/-- C102: setting the thickness in centimetres and reading it gives the same number up to three units of the last
place. -/
theorem rounded_thickness_cm (m : Material F.Fl) (l : F.Fl) (hρ : m.rho.val ≠ 0)
    (h1 : 2 ^ (-1022 : ℤ) ≤ |m.rho.val * l.val|) (h2 : 2 ^ (-1021 : ℤ) ≤ |l.val|) :
    |((m.set_thickness_cm l).thickness_cm).val - l.val| ≤ 3 * 2 ^ (-53 : ℤ) * |l.val| := by
  show |F.rd (F.rd (m.rho.val * l.val) / m.rho.val) - l.val| ≤ _
  obtain ⟨δ, d1, d2⟩ := rd_rel (F := F) h1
  have hu := ulp_small
  have hu0 := ulp_pos
  have e : F.rd (m.rho.val * l.val) / m.rho.val = l.val * (1 + δ) := by
    rw [d2]; field_simp
  have d1' := abs_le.mp d1
  have h3 : 2 ^ (-1022 : ℤ) ≤ |l.val * (1 + δ)| := by
    rw [abs_mul, abs_of_pos (show 0 < 1 + δ by linarith)]
    have : (2 : ℝ) ^ (-1021 : ℤ) = 2 ^ (-1022 : ℤ) * 2 := by
      rw [show (-1021 : ℤ) = -1022 + 1 by norm_num, zpow_add₀ (by norm_num), zpow_one]
    have hp : (0 : ℝ) < 2 ^ (-1022 : ℤ) := by positivity
    nlinarith [abs_nonneg l.val]
  obtain ⟨ε, e1, e2⟩ := rd_rel (F := F) h3
  rw [e, e2]
  have e1' := abs_le.mp e1
  rw [show l.val * (1 + δ) * (1 + ε) - l.val = l.val * (δ + ε + δ * ε) by ring, abs_mul, mul_comm]
  apply mul_le_mul_of_nonneg_right _ (abs_nonneg _)
  show _ ≤ 3 * ulp
  have : |δ * ε| ≤ ulp * ulp := by
    rw [abs_mul]; exact mul_le_mul d1 e1 (abs_nonneg _) hu0.le
  have h4 := abs_le.mp this
  have h5 : ulp * ulp ≤ ulp := by nlinarith
  rw [abs_le]
  constructor <;> linarith

/-- Sums of numbers that are not negative: the relative error grows by one unit with every term. -/
theorem rounded_sum (l : List F.Fl) (h : ∀ x ∈ l, x.val = 0 ∨ 2 ^ (-1022 : ℤ) ≤ x.val) :
    let s := l.foldl (fun s x => s + x) (0.0 : F.Fl)
    (l.map Fl.val).sum * (1 - ulp) ^ l.length ≤ s.val ∧ s.val ≤ (l.map Fl.val).sum * (1 + ulp) ^ l.length ∧
    ∀ x ∈ l, x.val ≤ s.val := by
  have hu := ulp_small
  have hu0 := ulp_pos
  have hpos : (0 : ℝ) < 2 ^ (-1022 : ℤ) := by positivity
  induction l using List.reverseRecOn with
  | nil => simp [val_zero]
  | append_singleton l x ih =>
    intro s
    have hs : s = l.foldl (fun s x => s + x) (0.0 : F.Fl) + x := by
      simp only [s, List.foldl_append, List.foldl_cons, List.foldl_nil]
    obtain ⟨i1, i2, i3⟩ := ih fun y hy => h y (List.mem_append_left _ hy)
    set s0 := l.foldl (fun s x => s + x) (0.0 : F.Fl)
    have hS0 : 0 ≤ (l.map Fl.val).sum := by
      apply List.sum_nonneg
      intro y hy
      obtain ⟨z, hz, rfl⟩ := List.mem_map.mp hy
      rcases h z (List.mem_append_left _ hz) with h | h <;> linarith
    have hs0 : 0 ≤ s0.val := le_trans (mul_nonneg hS0 (pow_nonneg (by linarith) _)) i1
    have hx0 : 0 ≤ x.val := by
      rcases h x (List.mem_append_right _ List.mem_cons_self) with h | h <;> linarith
    rw [hs, val_add, List.map_append, List.sum_append, List.length_append]
    simp only [List.map_cons, List.map_nil, List.sum_cons, List.sum_nil, add_zero, List.length_cons,
      List.length_nil, zero_add, pow_succ]
    have hu1 : 1 ≤ (1 + ulp) ^ l.length := one_le_pow₀ (by linarith)
    have hl1 : (1 - ulp) ^ l.length ≤ 1 := pow_le_one₀ (by linarith) (by linarith)
    have hl0 : 0 ≤ (1 - ulp) ^ l.length := pow_nonneg (by linarith) _
    set P := (1 + ulp) ^ l.length
    set Q := (1 - ulp) ^ l.length
    set S := (l.map Fl.val).sum
    have hex : s0.val + x.val ≤ (S + x.val) * P := by nlinarith
    have hel : (S + x.val) * Q ≤ s0.val + x.val := by nlinarith
    have hSx : 0 ≤ S + x.val := by linarith
    refine ⟨?_, ?_, ?_⟩
    · by_cases hb : 2 ^ (-1022 : ℤ) ≤ s0.val + x.val
      · have := (rd_upper (F := F) hb).2
        have := mul_le_mul_of_nonneg_right hel (show 0 ≤ 1 - ulp by linarith)
        nlinarith
      · have hx : x.val = 0 := by
          rcases h x (List.mem_append_right _ List.mem_cons_self) with h | h
          · exact h
          · exfalso; linarith
        rw [hx, add_zero, add_zero, rd_val]
        have : Q * (1 - ulp) ≤ Q := by nlinarith
        nlinarith [mul_le_mul_of_nonneg_left this hS0]
    · by_cases hb : 2 ^ (-1022 : ℤ) ≤ s0.val + x.val
      · have := (rd_upper (F := F) hb).1
        have := mul_le_mul_of_nonneg_right hex (show 0 ≤ 1 + ulp by linarith)
        nlinarith
      · have hx : x.val = 0 := by
          rcases h x (List.mem_append_right _ List.mem_cons_self) with h | h
          · exact h
          · exfalso; linarith
        rw [hx, add_zero, add_zero, rd_val]
        have : P ≤ P * (1 + ulp) := by nlinarith
        nlinarith [mul_le_mul_of_nonneg_left this hS0]
    · intro y hy
      rcases List.mem_append.mp hy with hy | hy
      · exact (i3 y hy).trans (le_rd s0 (by linarith))
      · rw [List.mem_singleton] at hy
        subst hy
        exact le_rd y (by linarith)

/-- C102: the thickness of `n` layers is the sum of their thicknesses with a relative error of at most
`(1 + 2^-53)^n - 1`, and no layer is thicker than the whole. -/
theorem rounded_layers_thickness (L : Layers F.Fl)
    (h : ∀ m ∈ L.materials, m.th.val = 0 ∨ 2 ^ (-1022 : ℤ) ≤ m.th.val) :
    let S := (L.materials.map fun m => m.th.val).sum
    S * (1 - 2 ^ (-53 : ℤ)) ^ L.materials.length ≤ L.thickness.val ∧
    L.thickness.val ≤ S * (1 + 2 ^ (-53 : ℤ)) ^ L.materials.length ∧
    ∀ m ∈ L.materials, m.th.val ≤ L.thickness.val := by
  have hs := rounded_sum (L.materials.map fun m => m.th) (by
    intro x hx
    obtain ⟨m, hm, rfl⟩ := List.mem_map.mp hx
    exact h m hm)
  simp only [List.length_map, List.map_map, List.foldl_map] at hs
  obtain ⟨h1, h2, h3⟩ := hs
  exact ⟨h1, h2, fun m hm => h3 _ (List.mem_map.mpr ⟨m, hm, rfl⟩)⟩

/-- The atoms and the molar mass built from a list with given mass numbers. -/
theorem rounded_ofList_atoms (l : List (F.Fl × Int × F.Fl)) (h : ∀ e ∈ l, 0 < e.1.val) (m : Material F.Fl) :
    l.foldl (fun m e => m.add_element e.1 e.2.1 e.2.2) m =
      { m with
        atoms := m.atoms ++ l.map fun e => ⟨e.1, e.2.1, e.2.2⟩
        molar_mass := (l.map fun e => e.2.2 * e.1).foldl (fun s x => s + x) m.molar_mass } := by
  induction l generalizing m with
  | nil => simp
  | cons e l ih =>
    have h0 : (if e.1 >? 0.0 then e.1 else element_atomic_weight e.2.1) = e.1 := by
      rw [if_pos]
      rw [lt_fl, val_zero]
      exact h e List.mem_cons_self
    have ha : m.add_element e.1 e.2.1 e.2.2 =
        { m with atoms := m.atoms ++ [⟨e.1, e.2.1, e.2.2⟩], molar_mass := m.molar_mass + e.2.2 * e.1 } := by
      unfold Material.add_element
      rw [h0]
    rw [List.foldl_cons, ih fun e he => h e (List.mem_cons_of_mem _ he), ha]
    simp

/-- C102: the weight fractions of a material that is given by numbers of atoms add up to one, with a relative error
of one unit for every component and one more.  (The sum is the exact one of the rounded fractions.) -/
theorem rounded_weights (l : List (F.Fl × Int × F.Fl)) (ρ I : F.Fl) (hl : l ≠ [])
    (h : ∀ e ∈ l, 0 < e.1.val ∧ 1 ≤ e.2.2.val ∧ 2 ^ (-500 : ℤ) ≤ (e.2.2 * e.1).val)
    (hM : (Material.ofList l ρ I).molar_mass.val ≤ 2 ^ (500 : ℤ)) :
    let m := Material.ofList l ρ I
    let W := (m.atoms.map fun t => (m.wfrac t).val).sum
    m.atoms.length = l.length ∧
    (1 - 2 ^ (-53 : ℤ)) / (1 + 2 ^ (-53 : ℤ)) ^ l.length ≤ W ∧
    W ≤ (1 + 2 ^ (-53 : ℤ)) / (1 - 2 ^ (-53 : ℤ)) ^ l.length := by
  have hu := ulp_small
  have hu0 := ulp_pos
  have hof : Material.ofList l ρ I =
      ⟨ρ, 0.0, (l.map fun e => e.2.2 * e.1).foldl (fun s x => s + x) 0.0, I, l.map fun e => ⟨e.1, e.2.1, e.2.2⟩⟩ := by
    unfold Material.ofList
    dsimp only
    rw [rounded_ofList_atoms l fun e he => (h e he).1]
    have hm : ((0.0 : F.Fl) =? 0.0) = true := by rw [beq_fl]
    simp only [hm, Bool.not_true, Bool.false_eq_true, if_false, List.nil_append]
    unfold Material.calculate
    rw [if_neg]
    rw [List.all_eq_true]
    intro hall
    obtain ⟨e, l', rfl⟩ := List.exists_cons_of_ne_nil hl
    have := hall ⟨e.1, e.2.1, e.2.2⟩ (by simp)
    rw [lt_fl, val_one] at this
    have := (h e List.mem_cons_self).2.1
    linarith
  have hs := rounded_sum (l.map fun e => e.2.2 * e.1) (by
    intro x hx
    obtain ⟨e, he, rfl⟩ := List.mem_map.mp hx
    refine Or.inr (le_trans ?_ (h e he).2.2)
    exact zpow_le_zpow_right₀ (by norm_num) (by norm_num))
  rw [hof] at hM ⊢
  simp only at hM ⊢
  simp only [List.length_map, List.map_map] at hs ⊢
  obtain ⟨s1, s2, s3⟩ := hs
  generalize hMd : (l.map fun e => e.2.2 * e.1).foldl (fun s x => s + x) (0.0 : F.Fl) = Mm at hM s1 s2 s3 ⊢
  refine ⟨trivial, ?_⟩
  have hp0 : ∀ e ∈ l, 0 < (e.2.2 * e.1).val := fun e he =>
    lt_of_lt_of_le (by positivity) (h e he).2.2
  have hM0 : 0 < Mm.val := by
    obtain ⟨e, l', rfl⟩ := List.exists_cons_of_ne_nil hl
    exact lt_of_lt_of_le (hp0 e List.mem_cons_self) (s3 _ (by simp))
  -- every weight fraction
  have hw : ∀ e ∈ l, (e.2.2 * e.1).val / Mm.val * (1 - ulp) ≤
      ((⟨ρ, 0.0, Mm, I, l.map fun e => ⟨e.1, e.2.1, e.2.2⟩⟩ : Material F.Fl).wfrac ⟨e.1, e.2.1, e.2.2⟩).val ∧
      ((⟨ρ, 0.0, Mm, I, l.map fun e => ⟨e.1, e.2.1, e.2.2⟩⟩ : Material F.Fl).wfrac ⟨e.1, e.2.1, e.2.2⟩).val ≤
      (e.2.2 * e.1).val / Mm.val * (1 + ulp) := by
    intro e he
    unfold Material.wfrac
    rw [if_neg (by rw [lt_fl, val_one, not_lt]; exact (h e he).2.1)]
    rw [val_div]
    have hb : (2 : ℝ) ^ (-1022 : ℤ) ≤ (e.2.2 * e.1).val / Mm.val := by
      rw [le_div_iff₀ hM0]
      calc (2 : ℝ) ^ (-1022 : ℤ) * Mm.val ≤ 2 ^ (-1022 : ℤ) * 2 ^ (500 : ℤ) :=
            mul_le_mul_of_nonneg_left hM (by positivity)
        _ = 2 ^ (-522 : ℤ) := by rw [← zpow_add₀ (by norm_num)]; norm_num
        _ ≤ 2 ^ (-500 : ℤ) := zpow_le_zpow_right₀ (by norm_num) (by norm_num)
        _ ≤ _ := (h e he).2.2
    exact ⟨(rd_upper (F := F) hb).2, (rd_upper (F := F) hb).1⟩
  have hsum : ∀ (l : List (F.Fl × Int × F.Fl)) (w : F.Fl × Int × F.Fl → ℝ),
      (∀ e ∈ l, (e.2.2 * e.1).val / Mm.val * (1 - ulp) ≤ w e ∧ w e ≤ (e.2.2 * e.1).val / Mm.val * (1 + ulp)) →
      (l.map fun e => (e.2.2 * e.1).val).sum / Mm.val * (1 - ulp) ≤ (l.map w).sum ∧
      (l.map w).sum ≤ (l.map fun e => (e.2.2 * e.1).val).sum / Mm.val * (1 + ulp) := by
    intro l w
    induction l with
    | nil => intro _; simp
    | cons e l ih =>
      intro hh
      obtain ⟨i1, i2⟩ := ih fun e he => hh e (List.mem_cons_of_mem _ he)
      obtain ⟨j1, j2⟩ := hh e List.mem_cons_self
      simp only [List.map_cons, List.sum_cons, add_div, add_mul]
      exact ⟨by linarith, by linarith⟩
  obtain ⟨w1, w2⟩ := hsum l _ hw
  have e1 : (List.map (Fl.val ∘ fun e : F.Fl × Int × F.Fl => e.2.2 * e.1) l).sum =
      (l.map fun e => (e.2.2 * e.1).val).sum := rfl
  rw [e1] at s1 s2
  generalize (l.map fun e => (e.2.2 * e.1).val).sum = S at s1 s2 w1 w2
  have hP : 0 < (1 + ulp) ^ l.length := pow_pos (by linarith) _
  have hQ : 0 < (1 - ulp) ^ l.length := pow_pos (by linarith) _
  have q1 : 1 / (1 + ulp) ^ l.length ≤ S / Mm.val := by
    rw [div_le_div_iff₀ hP hM0, one_mul]; exact s2
  have q2 : S / Mm.val ≤ 1 / (1 - ulp) ^ l.length := by
    rw [div_le_div_iff₀ hM0 hQ, one_mul]; exact s1
  constructor
  · refine le_trans ?_ w1
    show (1 - ulp) / (1 + ulp) ^ l.length ≤ _
    have := mul_le_mul_of_nonneg_right q1 (show 0 ≤ 1 - ulp by linarith)
    rwa [div_mul_eq_mul_div, one_mul] at this
  · refine le_trans w2 ?_
    show _ ≤ (1 + ulp) / (1 - ulp) ^ l.length
    have := mul_le_mul_of_nonneg_right q2 (show 0 ≤ 1 + ulp by linarith)
    rwa [div_mul_eq_mul_div (1 : ℝ), one_mul] at this

/-! ## C103: equally spaced energies -/

/-- C103: the list of energies has as many entries as asked for, begins with `a`, ends with `b`, ascends and
does not leave the interval. -/
theorem rounded_linspace (a b : F.Fl) (n : ℕ) (hn : 2 ≤ n) (hn' : n ≤ 2 ^ 32) (hab : 2 ^ (-900 : ℤ) ≤ b.val - a.val) :
    (linspace_vector a b n).length = n ∧
    (linspace_vector a b n).head? = some a ∧ (linspace_vector a b n).getLast? = some b ∧
    (linspace_vector a b n).Pairwise (fun x y => x.val ≤ y.val) ∧
    ∀ x ∈ linspace_vector a b n, a.val ≤ x.val ∧ x.val ≤ b.val := by
  have hu := ulp_small
  have hu0 := ulp_pos
  have hd0 : 0 < b.val - a.val := lt_of_lt_of_le (by positivity) hab
  have hlt : (a <? b) = true := by rw [lt_fl]; linarith
  obtain ⟨step, hstep⟩ : ∃ s, s = (b - a) / (ofInt ((n - 1 : ℕ) : ℤ) : F.Fl) := ⟨_, rfl⟩
  have he : linspace_vector a b n =
      (List.range (n - 1)).map (fun i : ℕ => a + ofInt (i : ℤ) * step) ++ [b] := by
    unfold linspace_vector
    rw [if_pos ⟨hn, hlt⟩, hstep]
  have hint : ∀ i : ℕ, i ≤ n → (ofInt (i : ℤ) : F.Fl).val = i := by
    intro i hi
    rw [val_ofInt, F.int]
    · push_cast; rfl
    · rw [abs_of_nonneg (by positivity)]
      exact_mod_cast (hi.trans hn').trans (by norm_num)
  have hN : (1 : ℝ) ≤ ((n - 1 : ℕ) : ℝ) := by exact_mod_cast (by omega : 1 ≤ n - 1)
  have hN' : ((n - 1 : ℕ) : ℝ) ≤ 2 ^ 32 := by exact_mod_cast (by omega : n - 1 ≤ 2 ^ 32)
  generalize hNd : ((n - 1 : ℕ) : ℝ) = N at hN hN'
  -- the step
  have hsub := rd_upper (F := F) (x := b.val - a.val)
    (le_trans (zpow_le_zpow_right₀ (by norm_num) (by norm_num)) hab)
  have hsv : step.val = F.rd (F.rd (b.val - a.val) / N) := by
    rw [hstep, val_div, val_sub, hint _ (by omega), hNd]
  have hquot : (2 : ℝ) ^ (-1022 : ℤ) ≤ F.rd (b.val - a.val) / N := by
    rw [le_div_iff₀ (by linarith)]
    have h1 : (2 : ℝ) ^ (-1022 : ℤ) * N ≤ 2 ^ (-1022 : ℤ) * 2 ^ (32 : ℤ) := by
      apply mul_le_mul_of_nonneg_left _ (by positivity)
      exact_mod_cast hN'
    have h2 : (2 : ℝ) ^ (-1022 : ℤ) * 2 ^ (32 : ℤ) = 2 ^ (-990 : ℤ) := by
      rw [← zpow_add₀ (by norm_num)]; norm_num
    have h3 : (2 : ℝ) ^ (-990 : ℤ) ≤ 2 ^ (-900 : ℤ) * (1 / 2) := by
      rw [show (2 : ℝ) ^ (-900 : ℤ) * (1 / 2) = 2 ^ (-901 : ℤ) by
        rw [show (1 / 2 : ℝ) = 2 ^ (-1 : ℤ) by norm_num, ← zpow_add₀ (by norm_num)]; norm_num]
      exact zpow_le_zpow_right₀ (by norm_num) (by norm_num)
    have h4 := hsub.2
    nlinarith
  have hs0 : 0 ≤ step.val := by
    rw [hsv]
    apply rd_nonneg
    exact le_trans (by positivity) hquot
  have hs1 : step.val * N ≤ (b.val - a.val) * (1 + ulp) ^ 2 := by
    have h1 := (rd_upper (F := F) hquot).1
    rw [← hsv, div_mul_eq_mul_div, le_div_iff₀ (by linarith)] at h1
    have h2 := mul_le_mul_of_nonneg_right hsub.1 (show 0 ≤ 1 + ulp by linarith)
    nlinarith
  -- the product
  have hprod : ∀ i : ℕ, i < n - 1 → (ofInt (i : ℤ) * step : F.Fl).val ≤ b.val - a.val := by
    intro i hi
    rw [val_mul, hint i (by omega)]
    have hi' : (i : ℝ) + 1 ≤ N := by rw [← hNd]; exact_mod_cast (by omega : i + 1 ≤ n - 1)
    have hi0 : (0 : ℝ) ≤ i := by positivity
    by_cases hb : (2 : ℝ) ^ (-1022 : ℤ) ≤ i * step.val
    · refine (rd_upper (F := F) hb).1.trans ?_
      have h1 : (i : ℝ) * step.val ≤ (N - 1) * step.val := mul_le_mul_of_nonneg_right (by linarith) hs0
      have h2 : (N - 1) * step.val * N ≤ (N - 1) * ((b.val - a.val) * (1 + ulp) ^ 2) := by
        rw [mul_assoc]; exact mul_le_mul_of_nonneg_left hs1 (by linarith)
      have h3 : (N - 1) * (1 + ulp) ^ 3 ≤ N := by
        have : (1 + ulp) ^ 3 ≤ 1 + 1e-15 := by nlinarith
        nlinarith
      have h4 : i * step.val * (1 + ulp) * N ≤ (b.val - a.val) * N := by
        have h5 := mul_le_mul_of_nonneg_right h1 (show 0 ≤ (1 + ulp) * N by nlinarith)
        have h6 := mul_le_mul_of_nonneg_right h2 (show 0 ≤ 1 + ulp by linarith)
        have h7 := mul_le_mul_of_nonneg_left h3 hd0.le
        nlinarith
      exact le_of_mul_le_mul_right h4 (by linarith)
    · rw [not_le] at hb
      have hle : F.rd (i * step.val) ≤ F.rd (b.val - a.val) := F.mono (by
        have : (2 : ℝ) ^ (-1022 : ℤ) ≤ 2 ^ (-900 : ℤ) := zpow_le_zpow_right₀ (by norm_num) (by norm_num)
        linarith)
      have h1 : F.rd (i * step.val) ≤ F.rd (2 ^ (-1022 : ℤ)) := F.mono hb.le
      have h2 := (rd_upper (F := F) (le_refl ((2 : ℝ) ^ (-1022 : ℤ)))).1
      have h3 : (2 : ℝ) ^ (-1022 : ℤ) * 2 ≤ 2 ^ (-900 : ℤ) := by
        rw [show (2 : ℝ) ^ (-1022 : ℤ) * 2 = 2 ^ (-1021 : ℤ) by
          rw [show (-1021 : ℤ) = -1022 + 1 by norm_num, zpow_add₀ (by norm_num), zpow_one]]
        exact zpow_le_zpow_right₀ (by norm_num) (by norm_num)
      have h4 : (2 : ℝ) ^ (-1022 : ℤ) * (1 + ulp) ≤ 2 ^ (-1022 : ℤ) * 2 :=
        mul_le_mul_of_nonneg_left (by linarith) (by positivity)
      linarith
  have hpn : ∀ i : ℕ, 0 ≤ (ofInt (i : ℤ) * step : F.Fl).val := by
    intro i
    apply val_mul_nonneg _ hs0
    rw [val_ofInt]
    exact rd_nonneg (by positivity)
  have hmem : ∀ i : ℕ, i < n - 1 → a.val ≤ (a + ofInt (i : ℤ) * step).val ∧ (a + ofInt (i : ℤ) * step).val ≤ b.val := by
    intro i hi
    rw [val_add]
    exact ⟨le_rd a (by linarith [hpn i]), rd_le b (by linarith [hprod i hi])⟩
  refine ⟨?_, ?_, ?_, ?_, ?_⟩
  · rw [he]; simp; omega
  · rw [he, List.head?_append]
    obtain ⟨k, hk⟩ : ∃ k, n - 1 = k + 1 := ⟨n - 2, by omega⟩
    rw [hk, List.range_succ_eq_map]
    simp only [List.map_cons, List.head?_cons, Option.some_or]
    congr 1
    apply val_inj
    rw [val_add, val_mul, hint 0 (by omega)]
    push_cast
    rw [zero_mul, rd_zero, add_zero, rd_val]
  · rw [he]; simp
  · rw [he, List.pairwise_append]
    refine ⟨?_, List.pairwise_singleton _ _, ?_⟩
    · rw [List.pairwise_map]
      apply (List.pairwise_lt_range).imp
      intro i j hij
      rw [val_add, val_add]
      apply F.mono
      have : (ofInt (i : ℤ) * step : F.Fl).val ≤ (ofInt (j : ℤ) * step : F.Fl).val := by
        rw [val_mul, val_mul]
        apply F.mono
        apply mul_le_mul_of_nonneg_right _ hs0
        rw [val_ofInt, val_ofInt]
        apply F.mono
        exact_mod_cast hij.le
      linarith
    · intro x hx y hy
      rw [List.mem_singleton] at hy
      obtain ⟨i, hi, rfl⟩ := List.mem_map.mp hx
      rw [hy]
      exact (hmem i (List.mem_range.mp hi)).2
  · intro x hx
    rw [he, List.mem_append, List.mem_singleton] at hx
    rcases hx with hx | rfl
    · obtain ⟨i, hi, rfl⟩ := List.mem_map.mp hx
      exact hmem i (List.mem_range.mp hi)
    · exact ⟨by linarith, le_rfl⟩

/-- Eleven energies from 0 to 100. -/
example : (linspace_vector (ofInt (0 : ℕ) : F.Fl) (ofInt (100 : ℕ)) 11).getLast? = some (ofInt (100 : ℕ)) ∧
    (linspace_vector (ofInt (0 : ℕ) : F.Fl) (ofInt (100 : ℕ)) 11).Pairwise (fun x y => x.val ≤ y.val) := by
  have h := rounded_linspace (ofInt (0 : ℕ) : F.Fl) (ofInt (100 : ℕ)) 11 (by norm_num) (by norm_num) (by
    rw [val_small _ (by norm_num), val_small _ (by norm_num)]
    exact le_trans (zpow_le_zpow_right₀ (by norm_num) (by norm_num : (-900 : ℤ) ≤ 0)) (by norm_num))
  exact ⟨h.2.2.1, h.2.2.2.1⟩

/-- Water, from the numbers of atoms. -/
example : let m := Material.ofList [((ofInt (1 : ℕ) : F.Fl), 1, ofInt (2 : ℕ)), (ofInt (16 : ℕ), 8, ofInt (1 : ℕ))] 1.0 0.0
    (m.atoms.map fun t => (m.wfrac t).val).sum ≤ (1 + 2 ^ (-53 : ℤ)) / (1 - 2 ^ (-53 : ℤ)) ^ 2 := by
  intro m
  have big : ∀ x : ℝ, 1 ≤ x → (2 : ℝ) ^ (-500 : ℤ) ≤ x := fun x hx =>
    le_trans (zpow_le_zpow_right₀ (by norm_num) (by norm_num : (-500 : ℤ) ≤ 0)) (by simpa using hx)
  have v1 := val_small (F := F) 1 (by norm_num)
  have v2 := val_small (F := F) 2 (by norm_num)
  have v16 := val_small (F := F) 16 (by norm_num)
  have p1 : ((ofInt (2 : ℕ) : F.Fl) * ofInt (1 : ℕ)).val = 2 := by
    rw [val_mul, v1, v2]
    simpa using F.int 2 (by norm_num)
  have p2 : ((ofInt (1 : ℕ) : F.Fl) * ofInt (16 : ℕ)).val = 16 := by
    rw [val_mul, v1, v16]
    simpa using F.int 16 (by norm_num)
  refine (rounded_weights _ _ _ (by simp) ?_ ?_).2.2
  · intro e he
    simp only [List.mem_cons, List.not_mem_nil, or_false] at he
    rcases he with rfl | rfl
    · refine ⟨by rw [v1]; norm_num, by rw [v2]; norm_num, ?_⟩
      rw [p1]; exact big 2 (by norm_num)
    · refine ⟨by rw [v16]; norm_num, by rw [v1]; norm_num, ?_⟩
      rw [p2]; exact big 16 (by norm_num)
  · unfold Material.ofList
    dsimp only
    rw [rounded_ofList_atoms _ (by
      intro e he
      simp only [List.mem_cons, List.not_mem_nil, or_false] at he
      rcases he with rfl | rfl
      · rw [v1]; norm_num
      · rw [v16]; norm_num)]
    have hm : ((0.0 : F.Fl) =? 0.0) = true := by rw [beq_fl]
    simp only [hm, Bool.not_true, Bool.false_eq_true, if_false]
    unfold Material.calculate
    rw [if_neg (by
      rw [List.all_eq_true]
      intro hall
      have := hall ⟨ofInt (1 : ℕ), 1, ofInt (2 : ℕ)⟩ (by simp)
      rw [lt_fl, val_one, v2] at this
      norm_num at this)]
    simp only [List.map_cons, List.map_nil, List.foldl_cons, List.foldl_nil]
    rw [val_add, val_add, p1, p2, val_zero]
    have e1 : F.rd (0 + 2) = 2 := by simpa using F.int 2 (by norm_num)
    have e2 : F.rd (2 + 16) = 18 := by
      rw [show (2 + 16 : ℝ) = ((18 : ℤ) : ℝ) by norm_num, F.int 18 (by norm_num)]; norm_num
    rw [e1, e2]
    exact le_trans (by norm_num) (zpow_le_zpow_right₀ (by norm_num : (1 : ℝ) ≤ 2) (by norm_num : (5 : ℤ) ≤ 500))

/-- One centimetre of a material of density 1. -/
example (m : Material F.Fl) (hm : m.rho = 1.0) :
    |((m.set_thickness_cm 1.0).thickness_cm).val - 1| ≤ 3 * 2 ^ (-53 : ℤ) := by
  have h := rounded_thickness_cm m 1.0 (by rw [hm, val_one]; norm_num)
    (by rw [hm, val_one]; norm_num; exact zpow_le_zpow_right₀ (a := (2 : ℝ)) (by norm_num) (by norm_num : (-1022 : ℤ) ≤ 0))
    (by rw [val_one]; norm_num; exact zpow_le_zpow_right₀ (a := (2 : ℝ)) (by norm_num) (by norm_num : (-1021 : ℤ) ≤ 0))
  rw [val_one, abs_one, mul_one] at h
  exact h

/-- Two layers, one of them of thickness 0. -/
example (a b : Material F.Fl) (ha : a.th = 0.0) (hb : b.th = 1.0) :
    b.th.val ≤ (Layers.mk [a, b]).thickness.val := by
  refine (rounded_layers_thickness ⟨[a, b]⟩ ?_).2.2 b (by simp)
  intro m hm
  simp only [List.mem_cons, List.not_mem_nil, or_false] at hm
  rcases hm with rfl | rfl
  · left; rw [ha, val_zero]
  · right
    rw [hb, val_one]
    exact zpow_le_zpow_right₀ (a := (2 : ℝ)) (by norm_num) (by norm_num : (-1022 : ℤ) ≤ 0)

end Catima
