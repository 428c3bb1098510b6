import Verif.Model.Generator
import Verif.Lemmas.LindhardLow

/-!
# What the lookup returns from generated tables
-/

namespace Catima

theorem generator_energy_val (i : Nat) : (generator_energy i : ℝ) = (ls_energy_table : EnergyTable ℝ).val i := by
  rw [EnergyTable.val_eq, ls_step]
  unfold generator_energy
  rw [exp_real, ofInt_real]
  congr 1
  norm_num [ls_energy_table]
  left
  ring

theorem generator_table_get {α : Type} [Scalar α] (f : Projectile α → α) (print : α → α) (mass : Int → α) (z : Int) :
    rd (generator_table f print mass) (z - 1) =
      if 1 ≤ z ∧ z ≤ 108 then .ok (generator_row f print mass z) else .error .outOfBounds := by
  unfold rd generator_table
  have hN : (ATOMIC_WEIGHT_MAXZ - 2).toNat = 108 := rfl
  rw [hN]
  by_cases h : 1 ≤ z ∧ z ≤ 108
  · rw [if_pos h, if_neg (by omega), List.getElem?_map, List.getElem?_range (by omega)]
    simp only [Option.map_some]
    congr 2
    omega
  · rw [if_neg h]
    split
    · rfl
    · rw [List.getElem?_map, List.getElem?_eq_none (by rw [List.length_range]; omega)]
      rfl

theorem ls_spaced : (ls_energy_table : EnergyTable ℝ).Spaced := by
  intro i hi
  have := ls_gap i
  norm_num at this ⊢
  linarith

/-- C106: at an energy of the table and any mass, the lookup returns the straight line through the printed values of the
tabulated function for the natural mass and for 1.05 times the natural mass. -/
theorem generated_lookup_line (ci : Bool) (f : Projectile ℝ → ℝ) (print : ℝ → ℝ) (p : Projectile ℝ) (n : Int)
    (hp : p.Ion n) (hn : n ≤ 108) (i : Nat) (hi : i < 200) (hT : p.T = (ls_energy_table : EnergyTable ℝ).val i) :
    ∃ lo hi, lo = print (f ⟨element_atomic_weight n, n, 0, p.T⟩) ∧
      hi = print (f ⟨element_atomic_weight n * 1.05, n, 0, p.T⟩) ∧
      generated_lookup ci f print p =
        .ok (lo + (hi - lo) * ((p.A - element_atomic_weight n) / (0.05 * element_atomic_weight n))) := by
  have hb := ls_energy_table_bounds
  have hwp := atomic_weight_pos n hp.pos (by omega)
  refine ⟨_, _, rfl, rfl, ?_⟩
  have hrow : ∀ mass : Int → ℝ, (ls_energy_table : EnergyTable ℝ).interpolate ci p.T (generator_row f print mass n) =
      .ok (print (f ⟨mass n, n, 0, p.T⟩)) := by
    intro mass
    have hl : (generator_row f print mass n).length = (ls_energy_table : EnergyTable ℝ).N := by
      unfold generator_row
      rw [List.length_map, List.length_range]
      rfl
    rw [hT, interpolate_knot ci _ hb.1 hb.2.1 hb.2.2 ls_spaced _ hl i hi]
    refine congrArg Except.ok ?_
    unfold generator_row
    rw [List.getElem_map, List.getElem_range, generator_energy_val, ofInt_real]
    norm_num
  unfold generated_lookup
  rw [lsZ_ion hp (by omega), bind_ok]
  unfold lsValueOf
  simp only [generator_table_get, if_pos (⟨hp.pos, hn⟩ : 1 ≤ n ∧ n ≤ 108), bind_ok, hrow]
  refine congrArg Except.ok ?_
  have hm : (generator_mass_hi n : ℝ) = element_atomic_weight n * 1.05 := by
    unfold generator_mass_hi generator_mass
    norm_num
    ring
  rw [hm]
  show print (f ⟨element_atomic_weight n, n, 0, p.T⟩) + _ = _
  congr 1
  show (_ - print (f ⟨element_atomic_weight n, n, 0, p.T⟩)) * _ / _ = _
  rw [mul_div_assoc, div_div, mul_comm (0.05 : ℝ)]

/-- C106: at an energy and a mass of the table, the lookup returns the printed value of the tabulated function for that
projectile, whatever the function and the printing are. -/
theorem generated_lookup_exact (ci : Bool) (f : Projectile ℝ → ℝ) (print : ℝ → ℝ) (p : Projectile ℝ) (n : Int)
    (hp : p.Ion n) (hn : n ≤ 108) (i : Nat) (hi : i < 200) (hT : p.T = (ls_energy_table : EnergyTable ℝ).val i)
    (hA : p.A = element_atomic_weight n ∨ p.A = element_atomic_weight n * 1.05) :
    generated_lookup ci f print p = .ok (print (f ⟨p.A, n, 0, p.T⟩)) := by
  have hwp := atomic_weight_pos n hp.pos (by omega)
  obtain ⟨lo, hi', h1, h2, h3⟩ := generated_lookup_line ci f print p n hp hn i hi hT
  rw [h3]
  refine congrArg Except.ok ?_
  rcases hA with hA | hA
  · rw [hA, sub_self, zero_div, mul_zero, add_zero, h1]
  · have : (p.A - element_atomic_weight n) / (0.05 * element_atomic_weight n) = 1 := by
      rw [hA]
      field_simp
      norm_num
    rw [this, mul_one, add_sub_cancel, h2, hA]

/-- C106 fails for the last two elements: the generator announces `LS_MAX_Z = ATOMIC_WEIGHT_MAXZ` but writes two rows less,
so the lookup of every projectile with `Z ≥ 109` reads behind the tables. -/
theorem generated_lookup_wrong {α : Type} [Scalar α] (ci : Bool) (f : Projectile α → α) (print : α → α) (p : Projectile α)
    (z : Int) (hz : castInt p.Z = .ok z) (h : 109 ≤ z) : generated_lookup ci f print p = .error .outOfBounds := by
  have key : ∀ z' : Int, 109 ≤ z' → lsValueOf ci (rd (generator_table f print generator_mass))
      (rd (generator_table f print generator_mass_hi)) z' p.A p.T = .error .outOfBounds := by
    intro z' h'
    unfold lsValueOf
    simp only [generator_table_get, if_neg (show ¬ (1 ≤ z' ∧ z' ≤ 108) by omega)]
    rfl
  unfold generated_lookup lsZ
  simp only [hz, bind_ok, pure, Except.pure]
  exact key _ (by split <;> omega)

/-- Carbon at 1 MeV/u. -/
example (f : Projectile ℝ → ℝ) (hw : (element_atomic_weight 6 : ℝ) = 12.0107) :
    generated_lookup true f id ⟨12.0107, 6, 6, 1⟩ = .ok (f ⟨12.0107, 6, 0, 1⟩) :=
  generated_lookup_exact true f id ⟨12.0107, 6, 6, 1⟩ 6 ⟨by norm_num, by norm_num, by norm_num, by norm_num⟩ (by norm_num) 0
    (by norm_num) ls_first.symm (Or.inl hw.symm)

/-- Meitnerium. -/
example (f : Projectile ℝ → ℝ) : generated_lookup true f id ⟨278, 109, 109, 1⟩ = .error .outOfBounds :=
  generated_lookup_wrong true f id _ 109 (by
    have := castInt_real 109 (by norm_num) (by norm_num)
    push_cast at this
    exact this) (by norm_num)

end Catima
