import Verif.Props.Stopping
import Verif.Props.StoppingPositive
import Verif.Props.LindhardX
import Verif.Props.Structures

/-!
# C120, C121: two ways to define a material, and numbers below one

The manual describes two ways to define a material: a list in the constructor, or calls of `add_element`.  Only the constructor calls
`calculate`, which replaces the molar mass of a mixture given by weight fractions.  And a number below 1 is always taken for a weight
fraction, even beside numbers of atoms.
-/

namespace Catima

/-- The list of components added one by one, as in the manual: `Material m; m.add_element(...); ...; m.density(rho).I(I);` -/
noncomputable def addedOneByOne (l : List (ℝ × Int × ℝ)) (rho I : ℝ) : Material ℝ :=
  ((l.foldl (fun m e => m.add_element e.1 e.2.1 e.2.2) Material.default).set_density rho).set_I I

theorem addedOneByOne_eq (l : List (ℝ × Int × ℝ)) (rho I : ℝ) : addedOneByOne l rho I =
    ⟨rho, 0, (l.map fun e => e.2.2 * usedMass e.1 e.2.1).sum, I, l.map fun e => ⟨usedMass e.1 e.2.1, e.2.1, e.2.2⟩⟩ := by
  unfold addedOneByOne
  rw [foldl_add_element]
  simp only [Material.default, Material.set_density, Material.set_I, List.nil_append]
  norm_num

theorem ofList_atoms {l : List (ℝ × Int × ℝ)} (h : ∃ e ∈ l, 1 ≤ e.2.2) (rho I : ℝ) : Material.ofList l rho I 0 =
    ⟨rho, 0, (l.map fun e => e.2.2 * usedMass e.1 e.2.1).sum, I, l.map fun e => ⟨usedMass e.1 e.2.1, e.2.1, e.2.2⟩⟩ := by
  rw [Material.ofList]
  have h0 : ((0 : ℝ) =? 0.0) = true := by norm_num
  simp only [h0, Bool.not_true, Bool.false_eq_true, if_false]
  rw [foldl_add_element, Material.calculate, if_neg]
  · simp only [List.nil_append]
    norm_num
  · obtain ⟨e, he, h1⟩ := h
    simp only [List.nil_append, List.all_eq_true, List.mem_map]
    intro hall
    have := hall ⟨usedMass e.1 e.2.1, e.2.1, e.2.2⟩ ⟨e, he, rfl⟩
    norm_num at this
    linarith

/-- C120, the part that holds: a material with at least one number of atoms is the same whether its components are given as a list or added
one by one.  Missing: mixtures given by weight fractions only, see `one_by_one_wrong`. -/
theorem one_by_one_partial (l : List (ℝ × Int × ℝ)) (h : ∃ e ∈ l, 1 ≤ e.2.2) (rho I : ℝ) :
    addedOneByOne l rho I = Material.ofList l rho I 0 := by
  rw [addedOneByOne_eq, ofList_atoms h]

/-- Water meets the hypothesis. -/
example : addedOneByOne [(1, 1, 2), (16, 8, 1)] 1 78 = Material.ofList [(1, 1, 2), (16, 8, 1)] 1 78 0 :=
  one_by_one_partial _ ⟨_, List.mem_cons_self, by norm_num⟩ _ _

theorem sum_line (l : List (ℝ × Int × ℝ)) (a b : ℝ) (f : ℝ × Int × ℝ → ℝ) :
    (l.map fun e => e.2.2 * (a - b / f e)).sum = a * (l.map fun e => e.2.2).sum - b * (l.map fun e => e.2.2 / f e).sum := by
  induction l with
  | nil => simp
  | cons e l ih =>
    simp only [List.map_cons, List.sum_cons, ih]
    ring

/-- The arithmetic mean of different masses is larger than the harmonic mean. -/
theorem harmonic_lt {l : List (ℝ × Int × ℝ)} (hl : FractionList l) (h1 : (l.map fun e => e.2.2).sum = 1)
    (hd : ∃ e ∈ l, ∃ e' ∈ l, usedMass e.1 e.2.1 ≠ usedMass e'.1 e'.2.1) :
    1 / (l.map fun e => e.2.2 / usedMass e.1 e.2.1).sum < (l.map fun e => e.2.2 * usedMass e.1 e.2.1).sum := by
  set H := (l.map fun e => e.2.2 / usedMass e.1 e.2.1).sum with hH
  have hH0 : 0 < H := sum_pos_of_forall l _ (fun e he => div_pos (hl.2 e he).1 (hl.2 e he).2.2) hl.1
  have key := sum_line l (2 / H) (1 / H ^ 2) fun e => usedMass e.1 e.2.1
  rw [h1, ← hH] at key
  have e1 : 2 / H * 1 - 1 / H ^ 2 * H = 1 / H := by field_simp; norm_num
  rw [e1] at key
  rw [← key]
  have le : ∀ A : ℝ, 0 < A → A - (2 / H - 1 / H ^ 2 / A) = (A - 1 / H) ^ 2 / A := fun A hA => by field_simp; ring
  refine List.sum_lt_sum _ _ (fun e he => ?_) ?_
  · have := le _ (hl.2 e he).2.2
    have h2 : 0 ≤ (usedMass e.1 e.2.1 - 1 / H) ^ 2 / usedMass e.1 e.2.1 := div_nonneg (sq_nonneg _) (hl.2 e he).2.2.le
    exact mul_le_mul_of_nonneg_left (by linarith) (hl.2 e he).1.le
  · have : ∃ e ∈ l, usedMass e.1 e.2.1 ≠ 1 / H := by
      obtain ⟨e, he, e', he', hne⟩ := hd
      by_cases h : usedMass e.1 e.2.1 = 1 / H
      · exact ⟨e', he', fun h' => hne (h.trans h'.symm)⟩
      · exact ⟨e, he, h⟩
    obtain ⟨e, he, hne⟩ := this
    refine ⟨e, he, ?_⟩
    have h3 := le _ (hl.2 e he).2.2
    have h2 : 0 < (usedMass e.1 e.2.1 - 1 / H) ^ 2 / usedMass e.1 e.2.1 := div_pos (pow_pos_of_ne (sub_ne_zero.mpr hne)) (hl.2 e he).2.2
    exact mul_lt_mul_of_pos_left (by linarith) (hl.2 e he).1
where
  pow_pos_of_ne {x : ℝ} (h : x ≠ 0) : 0 < x ^ 2 := by positivity

/-- C120 is false: for every mixture given by weight fractions that add up to 1, with two different atomic masses, the material built with
`add_element` has a larger molar mass and fewer atoms per volume and per area than the one given as a list; it is not equal to it. -/
theorem one_by_one_wrong (l : List (ℝ × Int × ℝ)) (hl : FractionList l) (h1 : (l.map fun e => e.2.2).sum = 1)
    (hd : ∃ e ∈ l, ∃ e' ∈ l, usedMass e.1 e.2.1 ≠ usedMass e'.1 e'.2.1) (rho I th : ℝ) (hr : 0 < rho) (ht : 0 < th) :
    (Material.ofList l rho I 0).molar_mass < (addedOneByOne l rho I).molar_mass ∧
    (addedOneByOne l rho I).number_density < (Material.ofList l rho I 0).number_density ∧
    ((addedOneByOne l rho I).set_thickness th).number_density_cm2 < ((Material.ofList l rho I 0).set_thickness th).number_density_cm2 ∧
    (addedOneByOne l rho I).eq (Material.ofList l rho I 0) = false := by
  have h := harmonic_lt hl h1 hd
  have hH0 : 0 < (l.map fun e => e.2.2 / usedMass e.1 e.2.1).sum :=
    sum_pos_of_forall l _ (fun e he => div_pos (hl.2 e he).1 (hl.2 e he).2.2) hl.1
  have h0 : 0 < 1 / (l.map fun e => e.2.2 / usedMass e.1 e.2.1).sum := by positivity
  rw [addedOneByOne_eq, ofList_fraction hl]
  have hav : (0 : ℝ) < Avogadro := by norm_num [Avogadro]
  refine ⟨h, ?_, ?_, ?_⟩
  · exact div_lt_div_of_pos_left (mul_pos hav hr) h0 h
  · exact div_lt_div_of_pos_left (mul_pos hav ht) h0 h
  · rw [Bool.eq_false_iff, ne_eq, material_eq_iff]
    rintro ⟨-, -, -, h'⟩
    exact h.ne' h'

/-- Water by weight fractions: the number of molecules is wrong by a factor of more than 2. -/
example : (Material.ofList [(1, 1, 1 / 9), (16, 8, 8 / 9)] 1 0 0 : Material ℝ).number_density >
    2 * (addedOneByOne [(1, 1, 1 / 9), (16, 8, 8 / 9)] 1 0).number_density := by
  have hl : FractionList [(1, 1, 1 / 9), (16, 8, 8 / 9)] := by
    refine ⟨by simp, fun e he => ?_⟩
    simp only [List.mem_cons, List.not_mem_nil, or_false] at he
    rcases he with rfl | rfl <;> norm_num [usedMass]
  rw [addedOneByOne_eq, ofList_fraction hl]
  norm_num [usedMass, Material.number_density, Avogadro]

theorem wfrac_fraction (m : Material ℝ) (t : Target ℝ) (h : t.stn < 1) : m.wfrac t = t.stn := by
  unfold Material.wfrac
  rw [if_pos (by norm_num [h])]

theorem foldlM_congr {β γ : Type} (l : List β) (f g : γ → β → M γ) (h : ∀ s, ∀ t ∈ l, f s t = g s t) (s : γ) :
    l.foldlM f s = l.foldlM g s := by
  induction l generalizing s with
  | nil => rfl
  | cons a l ih =>
    rw [List.foldlM_cons, List.foldlM_cons, h s a (by simp)]
    congr 1
    funext s'
    exact ih (fun s t ht => h s t (by simp [ht])) s'

/-- C120, the part that holds for mixtures given by weight fractions: the molar mass is not used in the stopping power, which is the same
for both ways, and neither is it in the straggling. -/
theorem one_by_one_stopping_partial (l : List (ℝ × Int × ℝ)) (hl : FractionList l) (rho I : ℝ) (env : Env ℝ) (p : Projectile ℝ)
    (c : Config ℝ) : dedx env p (addedOneByOne l rho I) c = dedx env p (Material.ofList l rho I 0) c ∧
      domega2dx env p (addedOneByOne l rho I) c = domega2dx env p (Material.ofList l rho I 0) c := by
  rw [addedOneByOne_eq, ofList_fraction hl]
  set as : List (Target ℝ) := l.map fun e => ⟨usedMass e.1 e.2.1, e.2.1, e.2.2⟩ with has
  have hw : ∀ M M' : ℝ, ∀ t ∈ as, Material.wfrac ⟨rho, 0, M, I, as⟩ t = Material.wfrac ⟨rho, 0, M', I, as⟩ t := fun M M' t ht => by
    obtain ⟨e, he, rfl⟩ := List.mem_map.mp ht
    rw [wfrac_fraction _ _ (hl.2 e he).2.1, wfrac_fraction _ _ (hl.2 e he).2.1]
  have hc : ∀ (M M' : ℝ) f, componentSum ⟨rho, 0, M, I, as⟩ f = componentSum ⟨rho, 0, M', I, as⟩ f := fun M M' f =>
    foldlM_congr as _ _ (fun s t ht => by rw [hw M M' t ht]) _
  have hs : ∀ M M' : ℝ, sezi_dedx_e p ⟨rho, 0, M, I, as⟩ c = sezi_dedx_e p ⟨rho, 0, M', I, as⟩ c := fun M M' => by
    unfold sezi_dedx_e
    simp only
    rw [foldlM_congr as _ _ (fun s t ht => by rw [hw M M' t ht])]
  refine ⟨?_, hc _ _ _⟩
  unfold dedx dedx_n bethek_dedx_e
  simp only
  rw [hc _ (1 / (l.map fun e => e.2.2 / usedMass e.1 e.2.1).sum), hs _ (1 / (l.map fun e => e.2.2 / usedMass e.1 e.2.1).sum),
    hc _ (1 / (l.map fun e => e.2.2 / usedMass e.1 e.2.1).sum) fun t => bethek_dedx_e_target env p t c I]

/-- Air, as in the manual, meets the hypotheses. -/
example : FractionList [(0, 7, 0.755267), (0, 8, 0.231781), (0, 18, 0.012827), (0, 6, 0.000124)] := by
  refine ⟨by simp, fun e he => ?_⟩
  simp only [List.mem_cons, List.not_mem_nil, or_false] at he
  have hz : ∀ z : Int, 1 ≤ z → z < 110 → 0 < usedMass 0 z := fun z h1 h2 => by
    rw [usedMass, if_neg (lt_irrefl _)]
    exact atomic_weight_pos z h1 h2
  rcases he with rfl | rfl | rfl | rfl <;> exact ⟨by norm_num, by norm_num, hz _ (by norm_num) (by norm_num)⟩

/-! ## C121 -/

/-- The same compound with all numbers multiplied by `k`. -/
def scaled (k : ℝ) (l : List (ℝ × Int × ℝ)) : List (ℝ × Int × ℝ) := l.map fun e => (e.1, e.2.1, k * e.2.2)

theorem scaled_sum (k : ℝ) (l : List (ℝ × Int × ℝ)) :
    ((scaled k l).map fun e => e.2.2 * usedMass e.1 e.2.1).sum = k * (l.map fun e => e.2.2 * usedMass e.1 e.2.1).sum := by
  unfold scaled
  induction l with
  | nil => simp
  | cons e l ih =>
    simp only [List.map_cons, List.sum_cons, ih]
    ring

/-- The target of a component. -/
noncomputable def target (e : ℝ × Int × ℝ) : Target ℝ := ⟨usedMass e.1 e.2.1, e.2.1, e.2.2⟩

theorem wfrac_atoms (m : Material ℝ) (t : Target ℝ) (h : 1 ≤ t.stn) : m.wfrac t = t.stn * t.A / m.molar_mass := by
  unfold Material.wfrac
  rw [if_neg (by norm_num [h])]

/-- C121, the part that holds: if all numbers are at least 1, before and after, multiplying the numbers of a formula by a factor changes
neither the stopping power nor the straggling.  Missing: numbers below 1 beside others, see `formula_scaled_wrong`. -/
theorem formula_scaled_partial (l : List (ℝ × Int × ℝ)) (hne : l ≠ []) (k : ℝ) (hk : 0 < k)
    (h : ∀ e ∈ l, 1 ≤ e.2.2 ∧ 1 ≤ k * e.2.2) (rho I : ℝ) (env : Env ℝ) (p : Projectile ℝ) (c : Config ℝ) :
    dedx env p (Material.ofList (scaled k l) rho I 0) c = dedx env p (Material.ofList l rho I 0) c ∧
    domega2dx env p (Material.ofList (scaled k l) rho I 0) c = domega2dx env p (Material.ofList l rho I 0) c := by
  obtain ⟨e0, he0⟩ := List.exists_mem_of_ne_nil l hne
  rw [ofList_atoms (l := l) ⟨e0, he0, (h e0 he0).1⟩,
    ofList_atoms (l := scaled k l) ⟨_, List.mem_map_of_mem he0, (h e0 he0).2⟩, scaled_sum]
  set S := (l.map fun e => e.2.2 * usedMass e.1 e.2.1).sum
  have hm : (scaled k l).map (fun e => (⟨usedMass e.1 e.2.1, e.2.1, e.2.2⟩ : Target ℝ)) =
      l.map fun e => ⟨usedMass e.1 e.2.1, e.2.1, k * e.2.2⟩ := by
    unfold scaled
    rw [List.map_map]
    rfl
  rw [hm]
  have hw : ∀ e ∈ l, Material.wfrac ⟨rho, 0, k * S, I, l.map fun e => ⟨usedMass e.1 e.2.1, e.2.1, k * e.2.2⟩⟩ ⟨usedMass e.1 e.2.1, e.2.1, k * e.2.2⟩ =
      Material.wfrac ⟨rho, 0, S, I, l.map fun e => ⟨usedMass e.1 e.2.1, e.2.1, e.2.2⟩⟩ ⟨usedMass e.1 e.2.1, e.2.1, e.2.2⟩ := fun e he => by
    rw [wfrac_atoms _ _ (h e he).2, wfrac_atoms _ _ (h e he).1]
    show k * e.2.2 * _ / (k * S) = e.2.2 * _ / S
    rw [mul_assoc, mul_div_mul_left _ _ hk.ne']
  have hc : ∀ f : Target ℝ → M ℝ, (∀ A Z s s', f ⟨A, Z, s⟩ = f ⟨A, Z, s'⟩) →
      componentSum ⟨rho, 0, k * S, I, l.map fun e => ⟨usedMass e.1 e.2.1, e.2.1, k * e.2.2⟩⟩ f =
      componentSum ⟨rho, 0, S, I, l.map fun e => ⟨usedMass e.1 e.2.1, e.2.1, e.2.2⟩⟩ f := fun f hf => by
    unfold componentSum
    simp only
    rw [List.foldlM_map, List.foldlM_map]
    exact foldlM_congr l _ _ (fun s e he => by rw [hw e he, hf _ _ (k * e.2.2) e.2.2]) _
  have hs : sezi_dedx_e p ⟨rho, 0, k * S, I, l.map fun e => ⟨usedMass e.1 e.2.1, e.2.1, k * e.2.2⟩⟩ c =
      sezi_dedx_e p ⟨rho, 0, S, I, l.map fun e => ⟨usedMass e.1 e.2.1, e.2.1, e.2.2⟩⟩ c := by
    unfold sezi_dedx_e
    simp only
    rw [List.foldlM_map, List.foldlM_map, foldlM_congr l _ _ (fun s e he => by rw [hw e he])]
  refine ⟨?_, hc _ fun _ _ _ _ => rfl⟩
  unfold dedx dedx_n bethek_dedx_e
  simp only
  rw [hc _ fun _ _ _ _ => rfl, hs, hc (fun t => bethek_dedx_e_target env p t c I) fun _ _ _ _ => rfl]

/-- H2O and H4O2. -/
example (env : Env ℝ) (p : Projectile ℝ) (c : Config ℝ) :
    dedx env p (Material.ofList [(0, 1, 2 * 2), (0, 8, 2 * 1)] 1 78 0) c = dedx env p (Material.ofList [(0, 1, 2), (0, 8, 1)] 1 78 0) c := by
  refine (formula_scaled_partial [(0, 1, 2), (0, 8, 1)] (by simp) 2 (by norm_num) (fun e he => ?_) 1 78 env p c).1
  simp only [List.mem_cons, List.not_mem_nil, or_false] at he
  rcases he with rfl | rfl <;> norm_num

theorem Computable.only {p : Projectile ℝ} {n : Int} {m : Material ℝ} {c : Config ℝ} (h : Computable p n m c) (t : Target ℝ) (ht : t ∈ m.atoms) :
    Computable p n (m.only t) c :=
  ⟨h.ion, h.small, ⟨by simp [Material.only], by simpa [Material.only] using h.sound.Z t ht, by simpa [Material.only] using h.sound.A t ht,
    by simp [Material.only], by simpa [Material.only] using h.sound.A t ht⟩, by simpa [Material.only] using h.known t ht, h.charge⟩

theorem Usual.only {p : Projectile ℝ} {n : Int} {m : Material ℝ} (h : Usual p n m) (t : Target ℝ) (ht : t ∈ m.atoms) : Usual p n (m.only t) :=
  ⟨h.mass, by simpa [Material.only] using h.excitation t ht⟩

/-- The weight fractions of a composition with numbers below 1 beside others are not smaller than they should be. -/
theorem mixed_weights (l : List (ℝ × Int × ℝ)) (h0 : ∀ e ∈ l, 0 < e.2.2 ∧ 0 < usedMass e.1 e.2.1) (hne : l ≠ [])
    (hM : ∀ e ∈ l, e.2.2 < 1 → usedMass e.1 e.2.1 < (l.map fun e => e.2.2 * usedMass e.1 e.2.1).sum) (m : Material ℝ)
    (hm : m.molar_mass = (l.map fun e => e.2.2 * usedMass e.1 e.2.1).sum) (e : ℝ × Int × ℝ) (he : e ∈ l) :
    e.2.2 * usedMass e.1 e.2.1 / m.molar_mass ≤ m.wfrac (target e) ∧
      (e.2.2 < 1 → e.2.2 * usedMass e.1 e.2.1 / m.molar_mass < m.wfrac (target e)) := by
  have hS0 : 0 < m.molar_mass := hm ▸ sum_pos_of_forall l _ (fun e he => mul_pos (h0 e he).1 (h0 e he).2) hne
  have lt : e.2.2 < 1 → e.2.2 * usedMass e.1 e.2.1 / m.molar_mass < m.wfrac (target e) := fun hlt => by
    rw [wfrac_fraction _ _ hlt, div_lt_iff₀ hS0, hm]
    exact mul_lt_mul_of_pos_left (hM e he hlt) (h0 e he).1
  refine ⟨?_, lt⟩
  rcases lt_or_ge e.2.2 1 with h | h
  · exact (lt h).le
  · rw [wfrac_atoms _ _ h]
    exact le_refl _

/-- C121 is false: if a formula contains numbers below 1 beside numbers of atoms, and the elements with the numbers below 1 are lighter than the
formula unit, then its weight fractions add up to more than 1, and the stopping power is larger than for the formula multiplied by a factor that
makes all numbers at least 1, for every ion at every energy. -/
theorem formula_scaled_wrong (l : List (ℝ × Int × ℝ)) (h : ∃ e ∈ l, 1 ≤ e.2.2) (h' : ∃ e ∈ l, e.2.2 < 1)
    (h0 : ∀ e ∈ l, 0 < e.2.2 ∧ 0 < usedMass e.1 e.2.1 ∧ 1 ≤ e.2.1 ∧ e.2.1 ≤ 120)
    (hM : ∀ e ∈ l, e.2.2 < 1 → usedMass e.1 e.2.1 < (l.map fun e => e.2.2 * usedMass e.1 e.2.1).sum) (k : ℝ) (hk0 : 0 < k)
    (hk : ∀ e ∈ l, 1 ≤ k * e.2.2) (rho : ℝ) :
    (∃ ws, weightFractions (Material.ofList l rho 0 0) = .ok ws ∧ 1 < ws.sum) ∧
    ∀ (env : Env ℝ) (p : Projectile ℝ) (n : Int) (c : Config ℝ), p.Ion n → n ≤ 108 → p.A ≤ 5 * element_atomic_weight n →
      (c.z_effective = 1 ∨ c.z_effective = 0 ∧ 0 ≤ p.Q) → 0 < p.T → LindhardReadable p.T →
      ∃ v v', dedx env p (Material.ofList l rho 0 0) c = .ok v ∧ dedx env p (Material.ofList (scaled k l) rho 0 0) c = .ok v' ∧ v' < v := by
  obtain ⟨e1, he1, h1⟩ := h
  have hne : l ≠ [] := List.ne_nil_of_mem he1
  have hpos : ∀ e ∈ l, 0 < e.2.2 ∧ 0 < usedMass e.1 e.2.1 := fun e he => ⟨(h0 e he).1, (h0 e he).2.1⟩
  rw [ofList_atoms (l := l) ⟨e1, he1, h1⟩, ofList_atoms (l := scaled k l) ⟨_, List.mem_map_of_mem he1, hk e1 he1⟩, scaled_sum]
  have hms : (scaled k l).map (fun e => (⟨usedMass e.1 e.2.1, e.2.1, e.2.2⟩ : Target ℝ)) =
      l.map fun e => ⟨usedMass e.1 e.2.1, e.2.1, k * e.2.2⟩ := by
    unfold scaled
    rw [List.map_map]
    rfl
  rw [hms]
  have hS0 : 0 < (l.map fun e => e.2.2 * usedMass e.1 e.2.1).sum :=
    sum_pos_of_forall l _ (fun e he => mul_pos (hpos e he).1 (hpos e he).2) hne
  set S := (l.map fun e => e.2.2 * usedMass e.1 e.2.1).sum with hS
  set m : Material ℝ := ⟨rho, 0, S, 0, l.map fun e => ⟨usedMass e.1 e.2.1, e.2.1, e.2.2⟩⟩ with hm
  have hwt := mixed_weights l hpos hne hM m rfl
  obtain ⟨e2, he2, h2⟩ := h'
  constructor
  · refine ⟨_, mapM_rd _ _, ?_⟩
    have one : (1 : ℝ) = (l.map fun e => e.2.2 * usedMass e.1 e.2.1 / S).sum := by
      rw [sum_div_const l (fun e => e.2.2 * usedMass e.1 e.2.1), ← hS, div_self hS0.ne']
    rw [one, List.map_map]
    exact List.sum_lt_sum _ _ (fun e he => (hwt e he).1) ⟨e2, he2, (hwt e2 he2).2 h2⟩
  · intro env p n c hp hn hA hz hT hr
    have hsound : m.Sound := by
      refine ⟨by simpa [hm] using hne, fun t ht => ?_, fun t ht => ?_, fun t ht => ?_, hS0⟩ <;>
      · obtain ⟨e, he, rfl⟩ := List.mem_map.mp ht
        first | exact (h0 e he).2.2.1 | exact (h0 e he).2.1 | exact (h0 e he).1
    have hcomp : Computable p n m c := ⟨hp, hn, hsound, fun t ht => by
      obtain ⟨e, he, rfl⟩ := List.mem_map.mp ht
      exact (h0 e he).2.2.2, hz⟩
    have husual : Usual p n m := ⟨hA, fun t ht => by
      obtain ⟨e, he, rfl⟩ := List.mem_map.mp ht
      exact ⟨fun h => absurd h (lt_irrefl _), fun _ => (h0 e he).2.2.2⟩⟩
    -- the stopping powers of the elements
    obtain ⟨g, hg⟩ := exists_values l (fun e => dedx env p (m.only (target e)) c) (fun v => 0 < v) fun e he =>
      stopping_positive env p n _ c (hcomp.only _ (List.mem_map_of_mem he)) (husual.only _ (List.mem_map_of_mem he)) hT hr
    have e1' := stopping_additive env p m c (fun t ht => (hsound.A t ht).ne') _ (l.map g) (mapM_rd _ _) (by
      show (l.map _).mapM _ = _
      rw [List.mapM_map]
      exact mapM_ok' l _ _ fun e he => (hg e he).1)
    have e2' := stopping_additive env p ⟨rho, 0, k * S, 0, l.map fun e => ⟨usedMass e.1 e.2.1, e.2.1, k * e.2.2⟩⟩ c (fun t ht => by
      obtain ⟨e, he, rfl⟩ := List.mem_map.mp ht
      exact (hpos e he).2.ne') _ (l.map g) (mapM_rd _ _) (by
      show (l.map _).mapM _ = _
      rw [List.mapM_map]
      exact mapM_ok' l _ _ fun e he => (hg e he).1)
    refine ⟨_, _, e1', e2', ?_⟩
    rw [show m.atoms = l.map target from rfl, List.map_map, List.map_map, zipWith_map_sum, zipWith_map_sum]
    have hw : ∀ e ∈ l, Material.wfrac ⟨rho, 0, k * S, 0, l.map fun e => ⟨usedMass e.1 e.2.1, e.2.1, k * e.2.2⟩⟩ ⟨usedMass e.1 e.2.1, e.2.1, k * e.2.2⟩ =
        e.2.2 * usedMass e.1 e.2.1 / S := fun e he => by
      rw [wfrac_atoms _ _ (hk e he)]
      show k * e.2.2 * _ / (k * S) = e.2.2 * _ / S
      rw [mul_assoc, mul_div_mul_left _ _ hk0.ne']
    refine List.sum_lt_sum _ _ (fun e he => ?_) ⟨e2, he2, ?_⟩
    · simp only [Function.comp_apply]
      rw [hw e he]
      exact mul_le_mul_of_nonneg_right (hwt e he).1 (hg e he).2.le
    · simp only [Function.comp_apply]
      rw [hw e2 he2]
      exact mul_lt_mul_of_pos_right ((hwt e2 he2).2 h2) (hg e2 he2).2

/-- Indium gallium arsenide, In(0.53)Ga(0.47)As, meets the hypotheses, and so do carbon ions of 100 MeV/u. -/
example : ∃ v v', dedx ⟨false, true, true, true, ⟨0, 0⟩⟩ ⟨12, 6, 6, 100⟩ (Material.ofList [(114.82, 49, 0.53), (69.72, 31, 0.47), (74.92, 33, 1)] 5.5 0 0 : Material ℝ) .default = .ok v ∧
    dedx ⟨false, true, true, true, ⟨0, 0⟩⟩ ⟨12, 6, 6, 100⟩ (Material.ofList [(114.82, 49, 100 * 0.53), (69.72, 31, 100 * 0.47), (74.92, 33, 100 * 1)] 5.5 0 0 : Material ℝ) .default = .ok v' ∧ v' < v := by
  have h := (formula_scaled_wrong [(114.82, 49, 0.53), (69.72, 31, 0.47), (74.92, 33, 1)] ⟨(74.92, 33, 1), by simp, by norm_num⟩
    ⟨(114.82, 49, 0.53), by simp, by norm_num⟩ (fun e he => by
      simp only [List.mem_cons, List.not_mem_nil, or_false] at he
      rcases he with rfl | rfl | rfl <;> norm_num [usedMass]) (fun e he => by
      simp only [List.mem_cons, List.not_mem_nil, or_false] at he
      rcases he with rfl | rfl | rfl <;> norm_num [usedMass]) 100 (by norm_num) (fun e he => by
      simp only [List.mem_cons, List.not_mem_nil, or_false] at he
      rcases he with rfl | rfl | rfl <;> norm_num) 5.5).2
  exact h _ ⟨12, 6, 6, 100⟩ 6 .default (carbon_water_usual 6 100).1.ion (by norm_num) (carbon_water_usual 6 100).2.mass (.inl rfl) (by norm_num)
    (.inl (below_top 100 (by norm_num)))

/-- Its weight fractions add up to 1.44. -/
example : ∃ ws, weightFractions (Material.ofList [(114.82, 49, 0.53), (69.72, 31, 0.47), (74.92, 33, 1)] 5.5 0 0 : Material ℝ) = .ok ws ∧
    1.44 < ws.sum := by
  rw [ofList_atoms ⟨(74.92, 33, 1), by simp, by norm_num⟩]
  refine ⟨_, mapM_rd _ _, ?_⟩
  norm_num [Material.wfrac, usedMass]

end Catima
