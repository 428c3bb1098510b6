import Verif.Lemmas.Structures

/-!
# Properties of `Material` and `Layers` (C01–C07)
-/

namespace Catima

/-! ## C01 -/

/-- C01: the weight fractions of a stoichiometric material can all be read, are positive and add
up to exactly 1. -/
theorem weight_fractions_sum_to_one {m : Material ℝ} (hm : StoichBuilt m) (hne : m.ncomponents ≠ 0) :
    ∃ ws, weightFractions m = .ok ws ∧ (∀ w ∈ ws, 0 < w) ∧ ws.sum = 1 := by
  obtain ⟨h1, h2⟩ := stoich_inv hm
  have hne' : m.atoms ≠ [] := by
    intro h; simp [Material.ncomponents, h] at hne
  have hM : 0 < m.molar_mass := by
    rw [h2]
    refine sum_pos_of_forall _ _ (fun t ht => ?_) hne'
    have := h1 t ht
    have : 0 < t.stn := by linarith
    have := (h1 t ht).2
    positivity
  refine ⟨_, mapM_rd m.atoms m.wfrac, ?_, ?_⟩
  · intro w hw
    obtain ⟨t, ht, rfl⟩ := List.mem_map.mp hw
    have := h1 t ht
    unfold Material.wfrac
    split <;> rename_i hlt
    · norm_num at hlt; linarith
    · have : 0 < t.stn := by linarith
      have := (h1 t ht).2
      positivity
  · have : m.atoms.map m.wfrac = m.atoms.map fun t => (t.stn * t.A) / m.molar_mass := by
      apply List.map_congr_left
      intro t ht
      have := (h1 t ht).1
      unfold Material.wfrac
      split <;> rename_i hlt
      · norm_num at hlt; linarith
      · rfl
    rw [this, sum_div_const _ (fun t : Target ℝ => t.stn * t.A), ← h2, div_self hM.ne']

/-- Water, `{{1.008,1,2},{15.999,8,1}}`, meets the hypotheses of C01. -/
example : StoichBuilt (Material.ofList [(1.008, 1, 2), (15.999, 8, 1)] 1 0 0) ∧
    (Material.ofList [(1.008, 1, 2), (15.999, 8, 1)] 1 0 0 : Material ℝ).ncomponents ≠ 0 := by
  constructor
  · refine StoichBuilt.list _ _ _ (by simp) ?_
    intro e he
    simp only [List.mem_cons, List.not_mem_nil, or_false] at he
    rcases he with rfl | rfl <;> norm_num [usedMass]
  · norm_num [Material.ofList, Material.add_element, Material.calculate, Material.ncomponents]

/-! ## C02 -/

/-- C02: for a mixture given by weight fractions the molar mass is the harmonic mean; the molar
fractions are positive, sum to 1, and times the mass are the given weight fractions times M. -/
theorem fraction_material {l : List (ℝ × Int × ℝ)} (hl : FractionList l) (rho I : ℝ) :
    (Material.ofList l rho I 0).molar_mass = 1 / (l.map fun e => e.2.2 / usedMass e.1 e.2.1).sum ∧
    0 < (Material.ofList l rho I 0).molar_mass ∧
    weightFractions (Material.ofList l rho I 0) = .ok (l.map fun e => e.2.2) ∧
    ∃ xs, molarFractions (Material.ofList l rho I 0) = .ok xs ∧ (∀ x ∈ xs, 0 < x) ∧ xs.sum = 1 ∧
      List.zipWith (fun x e => x * usedMass e.1 e.2.1) xs l =
        l.map fun e => e.2.2 * (Material.ofList l rho I 0).molar_mass := by
  have key := ofList_fraction hl rho I
  have hS : 0 < (l.map fun e => e.2.2 / usedMass e.1 e.2.1).sum := by
    refine sum_pos_of_forall _ _ (fun e he => ?_) hl.1
    have := hl.2 e he
    have h1 := this.1
    have h2 := this.2.2
    positivity
  set S := (l.map fun e => e.2.2 / usedMass e.1 e.2.1).sum with hSdef
  have hx : (Material.ofList l rho I 0).atoms.map (Material.ofList l rho I 0).mfrac =
      l.map fun e => e.2.2 / usedMass e.1 e.2.1 / S := by
    rw [key]
    simp only [List.map_map]
    apply List.map_congr_left
    intro e he
    have h1 := hl.2 e he
    simp only [Function.comp_apply, Material.mfrac]
    rw [if_pos (by norm_num [h1.2.1])]
    have := h1.2.2
    field_simp
  refine ⟨by rw [key], by rw [key]; positivity, ?_, ?_⟩
  · refine (mapM_rd _ _).trans ?_
    congr 1
    rw [key]
    simp only [List.map_map]
    apply List.map_congr_left
    intro e he
    have h1 := hl.2 e he
    simp only [Function.comp_apply, Material.wfrac]
    rw [if_pos (by norm_num [h1.2.1])]
  · refine ⟨_, mapM_rd _ _, ?_, ?_, ?_⟩
    · rw [hx]
      intro x hx
      obtain ⟨e, he, rfl⟩ := List.mem_map.mp hx
      have h1 := (hl.2 e he).1
      have h2 := (hl.2 e he).2.2
      positivity
    · rw [hx, sum_div_const _ (fun e : ℝ × Int × ℝ => e.2.2 / usedMass e.1 e.2.1), ← hSdef,
        div_self hS.ne']
    · rw [hx, key]
      simp only
      have aux : ∀ l' : List (ℝ × Int × ℝ), (∀ e ∈ l', e ∈ l) →
          List.zipWith (fun x e => x * usedMass e.1 e.2.1)
            (l'.map fun e => e.2.2 / usedMass e.1 e.2.1 / S) l' = l'.map fun e => e.2.2 * (1 / S) := by
        intro l'
        induction l' with
        | nil => simp
        | cons e l' ih =>
          intro h
          have h2 := (hl.2 e (h e (by simp))).2.2
          simp only [List.map_cons, List.zipWith_cons_cons]
          rw [ih (fun e he => h e (by simp [he]))]
          congr 1
          field_simp
      exact aux l (fun _ h => h)

/-- C02, the other way of building: `add_element` never recomputes the molar mass, it adds
`stn * A`, so for a mixture given by weight fractions `M()` is then *not* the harmonic mean. -/
theorem add_element_molar_mass (l : List (ℝ × Int × ℝ)) (rho : ℝ) :
    (l.foldl (fun m e => m.add_element e.1 e.2.1 e.2.2) (Material.default.set_density rho)).molar_mass
      = (l.map fun e => e.2.2 * usedMass e.1 e.2.1).sum := by
  rw [foldl_add_element]
  norm_num [Material.default, Material.set_density]

/-- Air as 75.5 % nitrogen and 24.5 % oxygen meets the hypotheses of C02. -/
example : FractionList [(14.0067, 7, 0.755), (15.9994, 8, 0.245)] := by
  refine ⟨by simp, fun e he => ?_⟩
  simp only [List.mem_cons, List.not_mem_nil, or_false] at he
  rcases he with rfl | rfl <;> norm_num [usedMass]

/-! ## C03 -/

/-- C03: lengths and areal densities round-trip; the density setter keeps `thickness()` and
rescales `thickness_cm()`; no setter touches composition, molar mass or I. -/
theorem thickness_round_trip (m : Material ℝ) (l rho' : ℝ) (hrho : m.rho ≠ 0) :
    (m.set_thickness_cm l).thickness_cm = l ∧
    (m.set_thickness l).th = l ∧
    (m.set_thickness_cm l).th = m.rho * l ∧
    (m.set_density rho').th = m.th ∧
    (rho' ≠ 0 → (m.set_density rho').thickness_cm * rho' = m.thickness_cm * m.rho) ∧
    (∀ m' ∈ [m.set_thickness_cm l, m.set_thickness l, m.set_density rho'],
      m'.atoms = m.atoms ∧ m'.molar_mass = m.molar_mass ∧ m'.i_potential = m.i_potential) := by
  refine ⟨?_, rfl, rfl, rfl, ?_, ?_⟩
  · simp only [Material.thickness_cm, Material.set_thickness_cm]
    field_simp
  · intro h
    simp only [Material.thickness_cm, Material.set_density]
    field_simp
  · intro m' hm'
    simp only [List.mem_cons, List.not_mem_nil, or_false] at hm'
    rcases hm' with rfl | rfl | rfl <;> exact ⟨rfl, rfl, rfl⟩

/-- Water at density 0.9 meets the hypothesis of C03. -/
example : (Material.ofList [(1.008, 1, 2), (15.999, 8, 1)] 0.9 : Material ℝ).rho ≠ 0 := by
  norm_num [Material.ofList, Material.add_element, Material.calculate]

/-! ## C04 -/

/-- C04, the part that holds: equality ignores the thickness, implies equal composition, I and
molar mass (and close densities), and is reflexive and symmetric; it is transitive on materials
of equal density.  Missing from C04: transitivity in general, refuted below. -/
theorem material_eq_partial (a b c : Material ℝ) :
    (∀ t u, (a.set_thickness t).eq (b.set_thickness u) = a.eq b) ∧
    (a.eq b = true → a.atoms = b.atoms ∧ a.i_potential = b.i_potential ∧
      a.molar_mass = b.molar_mass ∧ |a.rho - b.rho| ≤ 1 / 1000000) ∧
    a.eq a = true ∧
    a.eq b = b.eq a ∧
    (a.eq b = true → b.eq c = true → a.rho = b.rho → a.eq c = true) := by
  refine ⟨fun t u => rfl, fun h => ?_, ?_, ?_, ?_⟩
  · have := (material_eq_iff a b).mp h
    exact ⟨this.2.1, this.2.2.1, this.2.2.2, this.1⟩
  · rw [material_eq_iff]; norm_num
  · rw [Bool.eq_iff_iff, material_eq_iff, material_eq_iff, abs_sub_comm]
    tauto
  · intro h1 h2 h3
    rw [material_eq_iff] at h1 h2 ⊢
    rw [h3]
    exact ⟨h2.1, h1.2.1.trans h2.2.1, h1.2.2.1.trans h2.2.2.1, h1.2.2.2.trans h2.2.2.2⟩

/-- C04, transitivity refuted: densities 1, 1 + 0.8e-6 and 1 + 1.6e-6. -/
theorem material_eq_not_transitive :
    ∃ a b c : Material ℝ, a.eq b = true ∧ b.eq c = true ∧ a.eq c = false := by
  refine ⟨Material.default.set_density 1, Material.default.set_density 1.0000008,
    Material.default.set_density 1.0000016, ?_, ?_, ?_⟩
  · rw [material_eq_iff]; norm_num [Material.set_density, abs_le]
  · rw [material_eq_iff]; norm_num [Material.set_density, abs_le]
  · rw [← Bool.not_eq_true, material_eq_iff]
    rintro ⟨h, -⟩
    norm_num [Material.set_density, abs_le] at h

/-! ## C05 -/

set_option linter.unusedSectionVars false

section
variable {α : Type} [Scalar α]

/-- C05, for every number type: materials of `a+b`, of `a+m`, of `add(m)` and of `add(other)`
(`other` a different object, any vector capacity). -/
theorem layers_concat (a b c : Layers α) (m : Material α) (cap : Nat) :
    (a.plus b).materials = a.materials ++ b.materials ∧
    (a.plus b).num = a.num + b.num ∧
    (a.plus b).plus c = a.plus (b.plus c) ∧
    (a.plusMaterial m).materials = a.materials ++ [m] ∧
    (a.add m).materials = a.materials ++ [m] ∧
    Layers.addLayersGen false cap a b = .ok (a.plus b) := by
  have hp : ∀ x y : Layers α, x.plus y = ⟨x.materials ++ y.materials⟩ := by
    intro x y
    simp [Layers.plus, foldl_layers_add, Layers.empty]
  refine ⟨by rw [hp], by simp [hp, Layers.num], by simp [hp], ?_, rfl, ?_⟩
  · simp [Layers.plusMaterial, foldl_layers_add, Layers.empty, Layers.add]
  · have := addLoop_other b.materials a.materials cap 0 (Nat.zero_le _)
    simp only [Nat.sub_zero, List.drop_zero] at this
    simp [Layers.addLayersGen, this, Except.map, hp]

/-- C06, the part that holds: appending an *empty* object to itself does nothing.  Missing from
C06: non-empty objects, refuted below. -/
theorem layers_self_append_partial (l : Layers α) (cap : Nat) (h : l.num = 0) :
    Layers.addLayersGen true cap l l = .ok ⟨l.materials ++ l.materials⟩ := by
  have : l.materials = [] := List.length_eq_zero_iff.mp h
  simp [Layers.addLayersGen, Layers.addLoop, this, Except.map]

/-- C06 refuted: `l.add(l)` uses an invalidated iterator for *every* non-empty `l`, whatever the
capacity of the vector. -/
theorem layers_self_append_undefined (l : Layers α) (cap : Nat) (h : l.num ≠ 0) :
    Layers.addLayersGen true cap l l = .error .invalidated := by
  obtain ⟨m, ms, hms⟩ := List.exists_cons_of_ne_nil
    (show l.materials ≠ [] by intro h'; simp [Layers.num, h'] at h)
  simp [Layers.addLayersGen, Layers.addLoop, hms, Except.map]

/-- Two layers of carbon meet the hypothesis of the refutation of C06. -/
example : (⟨[Material.default.add_element (12.0 : α) 6 1.0, Material.default.add_element 12.0 6 1.0]⟩
    : Layers α).num ≠ 0 := by simp [Layers.num]

end

/-- C05: thicknesses add up over concatenation. -/
theorem layers_thickness_add (a b : Layers ℝ) :
    (a.plus b).thickness = a.thickness + b.thickness ∧
    (a.plus b).thickness_cm = a.thickness_cm + b.thickness_cm ∧
    a.thickness = (a.materials.map fun m => m.th).sum ∧
    a.thickness_cm = (a.materials.map fun m => m.thickness_cm).sum := by
  have hp := (layers_concat a b a Material.default 0).1
  simp only [Layers.thickness, Layers.thickness_cm, hp, foldl_add_map, List.map_append,
    List.sum_append]
  norm_num

/-! ## C07 -/

/-- C07: number densities per component, in and out of range; areal number density; reads of
fractions out of range are undefined. -/
theorem number_densities (m : Material ℝ) (i : Int) :
    ((i < 0 ∨ (m.ncomponents : Int) ≤ i) →
      m.number_density_i i = .ok 0 ∧ m.number_density_cm2_i i = .ok 0 ∧
      m.weight_fraction i = .error .outOfBounds ∧ m.molar_fraction i = .error .outOfBounds) ∧
    (0 ≤ i → i < m.ncomponents → ∃ x w, m.molar_fraction i = .ok x ∧ m.weight_fraction i = .ok w ∧
      m.number_density_i i = .ok (m.number_density * x) ∧
      m.number_density_cm2_i i = .ok (m.number_density_cm2 * x)) ∧
    (m.rho ≠ 0 → m.number_density_cm2 = m.number_density * m.thickness_cm) := by
  refine ⟨?_, ?_, ?_⟩
  · intro h
    have hr : rd m.atoms i = .error .outOfBounds := by
      rcases h with h | h
      · exact rd_neg _ _ h
      · exact rd_ge _ _ h
    have hc : i < 0 ∨ i ≥ (m.atoms.length : Int) := h
    simp only [Material.number_density_i, Material.number_density_cm2_i, Material.weight_fraction,
      Material.molar_fraction, hr, Except.map, if_pos hc]
    norm_num
  · intro h0 h1
    have hc : ¬ (i < 0 ∨ i ≥ (m.atoms.length : Int)) := by
      simp only [Material.ncomponents] at h1; omega
    obtain ⟨t, ht⟩ := (rd_isOk_iff m.atoms i).mpr ⟨h0, h1⟩
    refine ⟨m.mfrac t, m.wfrac t, ?_, ?_, ?_, ?_⟩
    · simp [Material.molar_fraction, ht, Except.map]
    · simp [Material.weight_fraction, ht, Except.map]
    · rw [Material.number_density_i, if_neg hc, Material.molar_fraction, ht]; rfl
    · rw [Material.number_density_cm2_i, if_neg hc, Material.molar_fraction, ht]; rfl
  · intro h
    simp only [Material.number_density_cm2, Material.number_density, Material.thickness_cm]
    rw [div_mul_div_comm, mul_comm m.molar_mass m.rho, mul_right_comm Avogadro m.rho m.th,
      mul_comm m.rho m.molar_mass, mul_div_mul_right _ _ h]

/-- Both cases of C07 occur: index -1 and 2 are outside, index 1 inside water. -/
example : let m : Material ℝ := Material.ofList [(1.008, 1, 2), (15.999, 8, 1)] 0.9
    m.ncomponents = 2 ∧ m.rho ≠ 0 := by
  norm_num [Material.ofList, Material.add_element, Material.calculate, Material.ncomponents]

end Catima
