import Verif.Props.AngularThin
import Verif.Lemmas.GentleTables
import Verif.Props.HeavierElement

/-!
# C136: what the scattering power depends on
-/

namespace Catima

/-- The scattering power as the formula of Rossi: `Es2 Z² / (X0 (p v)²)`. -/
theorem scattering_power_value (p : Projectile ℝ) (hA : 0 < p.A) (hT : 0 < p.T) (m : Material ℝ) (Es2 : ℝ) :
    angular_scattering_power p m Es2 =
      Es2 * p.Z ^ 2 / (radiation_length m * (p.A * (p.T * (p.T + 2 * atomic_mass_unit)) / (p.T + atomic_mass_unit)) ^ 2) := by
  unfold angular_scattering_power
  rw [if_neg (by rw [le_real]; norm_num; exact hT)]
  show Es2 * (p.Z * p.Z) / (radiation_length m * ((p_from_T p.T p.A * (p_from_T p.T p.A / ((p.T + atomic_mass_unit) * p.A))) *
    (p_from_T p.T p.A * (p_from_T p.T p.A / ((p.T + atomic_mass_unit) * p.A))))) = _
  rw [pv_eq p.T p.A hT hA, sq, sq]

theorem scattering_power_target_value (p : Projectile ℝ) (hA : 0 < p.A) (hT : 0 < p.T) (t : Target ℝ) (Es2 : ℝ) :
    angular_scattering_power_target p t Es2 =
      Es2 * p.Z ^ 2 / (radiation_length_z t.Z t.A * (p.A * (p.T * (p.T + 2 * atomic_mass_unit)) / (p.T + atomic_mass_unit)) ^ 2) := by
  unfold angular_scattering_power_target
  rw [if_neg (by rw [le_real]; norm_num; exact hT)]
  show Es2 * (p.Z * p.Z) / (radiation_length_z t.Z t.A * ((p_from_T p.T p.A * (p_from_T p.T p.A / ((p.T + atomic_mass_unit) * p.A))) *
    (p_from_T p.T p.A * (p_from_T p.T p.A / ((p.T + atomic_mass_unit) * p.A))))) = _
  rw [pv_eq p.T p.A hT hA, sq, sq]

/-- C136: the scattering power of a material is the sum of those of its components, weighted by mass. -/
theorem scattering_power_adds (p : Projectile ℝ) (hA : 0 < p.A) (m : Material ℝ) (Es2 : ℝ) :
    angular_scattering_power p m Es2 = (m.atoms.map fun t => m.wfrac t * angular_scattering_power_target p t Es2).sum := by
  rcases le_or_gt p.T 0 with hT | hT
  · have h0 : (p.T ≤? (0.0 : ℝ)) = true := by rw [le_real]; norm_num; exact hT
    unfold angular_scattering_power angular_scattering_power_target
    rw [if_pos h0]
    simp only [h0, if_true]
    norm_num
  · rw [scattering_power_value p hA hT]
    simp only [scattering_power_target_value p hA hT]
    generalize p.A * (p.T * (p.T + 2 * atomic_mass_unit)) / (p.T + atomic_mass_unit) = q
    unfold radiation_length
    rw [foldl_add_map]
    rw [show (1.0 : ℝ) = 1 by norm_num, show (0.0 : ℝ) = 0 by norm_num, zero_add]
    have : ∀ s : ℝ, Es2 * p.Z ^ 2 / (1 / s * q ^ 2) = s * (Es2 * p.Z ^ 2 / q ^ 2) := fun s => by
      rw [one_div, div_mul_eq_div_div, div_inv_eq_mul]; ring
    rw [this, ← List.sum_map_mul_right]
    congr 1
    refine List.map_congr_left fun t _ => ?_
    rw [div_mul_eq_div_div]
    ring

/-- C136: at one energy per nucleon the scattering power depends on the ion through `(Z/A)²` alone. -/
theorem scattering_rigidity (p q : Projectile ℝ) (hp : 0 < p.A) (hq : 0 < q.A) (hT : p.T = q.T) (m : Material ℝ) (c : Config ℝ) :
    da2dx p m c * (p.A * q.Z) ^ 2 = da2dx q m c * (q.A * p.Z) ^ 2 := by
  unfold da2dx
  rcases le_or_gt q.T 0 with h | h
  · have h0 : (q.T ≤? (0.0 : ℝ)) = true := by rw [le_real]; norm_num; exact h
    unfold angular_scattering_power
    rw [hT, if_pos h0, if_pos h0]
    norm_num
  · rw [scattering_power_value p hp (hT ▸ h), scattering_power_value q hq h, hT]
    have e : ∀ A : ℝ, A * (q.T * (q.T + 2 * atomic_mass_unit)) / (q.T + atomic_mass_unit) =
        A * (q.T * (q.T + 2 * atomic_mass_unit) / (q.T + atomic_mass_unit)) := fun A => mul_div_assoc _ _ _
    rw [e, e]
    have k0 : 0 < q.T * (q.T + 2 * atomic_mass_unit) / (q.T + atomic_mass_unit) := by
      have := amu_pos
      positivity
    generalize q.T * (q.T + 2 * atomic_mass_unit) / (q.T + atomic_mass_unit) = k at *
    rw [mul_pow p.A k, mul_pow q.A k]
    rcases eq_or_ne (radiation_length m) 0 with hX | hX
    · rw [hX]; simp
    · field_simp

theorem Es2_pos (c : Config ℝ) : 0 < Es2_of c := by
  unfold Es2_of
  dsimp only
  split_ifs <;> norm_num [Es_squared, PI, fine_structure_inverted, fine_structure, electron_mass]

/-- C136: the scattering power is positive, falls with the energy, and is smaller for the heavier isotope. -/
theorem scattering_power_order (p q : Projectile ℝ) (hA : 0 < p.A) (hZ : p.Z = q.Z) (hZ0 : p.Z ≠ 0) (m : Material ℝ) (hm : m.Sound)
    (hZm : ∀ t ∈ m.atoms, t.Z ≤ 1000) (c : Config ℝ) (hf : 0 < c.scattering_factor) (hT : 0 < p.T)
    (hAq : p.A ≤ q.A) (hTq : p.T ≤ q.T) (hne : p.A < q.A ∨ p.T < q.T) :
    0 < da2dx q m c ∧ da2dx q m c < da2dx p m c := by
  have hX := radiation_length_material_pos m hm hZm
  have hE := Es2_pos c
  have hu := amu_pos
  have hq : 0 < q.A := lt_of_lt_of_le hA hAq
  have hTq0 : 0 < q.T := lt_of_lt_of_le hT hTq
  unfold da2dx
  rw [scattering_power_value p hA hT, scattering_power_value q hq hTq0, ← hZ]
  set u : ℝ := atomic_mass_unit
  have e : ∀ A T : ℝ, A * (T * (T + 2 * u)) / (T + u) = A * (T * (T + 2 * u) / (T + u)) := fun A T => mul_div_assoc _ _ _
  rw [e, e]
  have hk : ∀ T, 0 < T → 0 < T * (T + 2 * u) / (T + u) := fun T h => by positivity
  have hmono : ∀ S T, 0 < S → S < T → S * (S + 2 * u) / (S + u) < T * (T + 2 * u) / (T + u) := by
    intro S T hS hST
    rw [div_lt_div_iff₀ (by linarith) (by linarith)]
    have : T * (T + 2 * u) * (S + u) - S * (S + 2 * u) * (T + u) = (T - S) * (S * T + S * u + T * u + 2 * u ^ 2) := by ring
    have h2 : 0 < (T - S) * (S * T + S * u + T * u + 2 * u ^ 2) :=
      mul_pos (by linarith) (by have : 0 < T := by linarith
                                positivity)
    linarith
  have hlt : p.A * (p.T * (p.T + 2 * u) / (p.T + u)) < q.A * (q.T * (q.T + 2 * u) / (q.T + u)) := by
    rcases hne with h | h
    · refine lt_of_lt_of_le (mul_lt_mul_of_pos_right h (hk _ hT)) (mul_le_mul_of_nonneg_left ?_ hq.le)
      rcases hTq.eq_or_lt with h' | h'
      · rw [h']
      · exact (hmono _ _ hT h').le
    · exact lt_of_lt_of_le (mul_lt_mul_of_pos_left (hmono _ _ hT h) hA) (mul_le_mul_of_nonneg_right hAq (hk _ hTq0).le)
  have hpos : 0 < p.A * (p.T * (p.T + 2 * u) / (p.T + u)) := mul_pos hA (hk _ hT)
  generalize p.A * (p.T * (p.T + 2 * u) / (p.T + u)) = a at *
  generalize q.A * (q.T * (q.T + 2 * u) / (q.T + u)) = b at *
  have hz : 0 < p.Z ^ 2 := by positivity
  have hb : 0 < b := hpos.trans hlt
  refine ⟨by positivity, ?_⟩
  refine mul_lt_mul_of_pos_left ?_ hf
  refine div_lt_div_of_pos_left (by positivity) (by positivity) ?_
  refine mul_lt_mul_of_pos_left ?_ hX
  exact pow_lt_pow_left₀ hlt hpos.le (by norm_num)

/-- C136: the choice of the formula changes the scattering power by a constant: the scattering constant of Rossi and Greisen, (15 MeV)²
within 0.2 per cent, or the (14.1 MeV)² of Highland. -/
theorem scattering_constant (p : Projectile ℝ) (m : Material ℝ) (c : Config ℝ) :
    (c.scattering = scattering_dhighland ∨ c.scattering = scattering_fermi_rossi →
      ∃ E : ℝ, |E - 15 ^ 2| ≤ 0.002 * 15 ^ 2 ∧ da2dx p m c = c.scattering_factor * angular_scattering_power p m E) ∧
    (c.scattering ≠ scattering_dhighland → c.scattering ≠ scattering_fermi_rossi →
      da2dx p m c = c.scattering_factor * angular_scattering_power p m (14.1 ^ 2)) := by
  constructor
  · intro h
    refine ⟨Es_squared, ?_, ?_⟩
    · rw [abs_le]
      constructor <;> norm_num [Es_squared, PI, fine_structure_inverted, fine_structure, electron_mass]
    · unfold da2dx Es2_of
      dsimp only
      rcases h with h | h
      · rw [if_pos h]; simp
      · rw [if_pos h]
  · intro h1 h2
    unfold da2dx Es2_of
    dsimp only
    rw [if_neg h1, if_neg h2]
    norm_num

/-- Carbon 12 and carbon 14 in water, at 100 and 120 MeV/u. -/
example : 0 < da2dx (⟨14, 6, 6, 120⟩ : Projectile ℝ) ⟨1, 1, 18.015, 0, [⟨1.00794, 1, 2⟩, ⟨15.9994, 8, 1⟩]⟩ .default ∧
    da2dx (⟨14, 6, 6, 120⟩ : Projectile ℝ) ⟨1, 1, 18.015, 0, [⟨1.00794, 1, 2⟩, ⟨15.9994, 8, 1⟩]⟩ .default <
      da2dx (⟨12, 6, 6, 100⟩ : Projectile ℝ) ⟨1, 1, 18.015, 0, [⟨1.00794, 1, 2⟩, ⟨15.9994, 8, 1⟩]⟩ .default := by
  obtain ⟨hc, -⟩ := carbon_water_usual 0 100
  refine scattering_power_order ⟨12, 6, 6, 100⟩ ⟨14, 6, 6, 120⟩ (by norm_num) rfl (by norm_num) _ hc.sound (by simp) .default ?_
    (by norm_num) (by norm_num) (by norm_num) (.inl (by norm_num))
  show (0 : ℝ) < 1.0
  norm_num

/-- Protons and alpha particles: the alpha particle is scattered as half the charge per mass says. -/
example (m : Material ℝ) (c : Config ℝ) : da2dx (⟨1, 1, 1, 100⟩ : Projectile ℝ) m c = 4 * da2dx (⟨4, 2, 2, 100⟩ : Projectile ℝ) m c := by
  have := scattering_rigidity ⟨1, 1, 1, 100⟩ ⟨4, 2, 2, 100⟩ (by norm_num) (by norm_num) rfl m c
  norm_num at this
  linarith

end Catima
