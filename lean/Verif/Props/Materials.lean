import Verif.Props.Data
import Verif.Spec.Stopping
import Verif.Spec.Substances

/-!
# C72-C74, C87: the predefined materials
-/

namespace Catima

/-! ## C72 -/

/-- What C72 says about a compound, evaluated with rationals. -/
def soundCheck (m : Material ℚ) : Bool :=
  decide (m.atoms ≠ []) && decide (0 < m.rho) && decide (m.th = 0) && decide (m.i_potential = 0) &&
  decide (0 < m.molar_mass) &&
  m.atoms.all (fun t => decide (1 ≤ t.Z ∧ t.Z ≤ 98) && decide (0 < t.A) && decide (0 < t.stn)) &&
  (m.atoms.all (fun t => decide (t.stn < 1)) &&
      decide (|(m.atoms.map Target.stn).sum - 1| ≤ 4 / 1000) ||
    m.atoms.all (fun t => decide (1 ≤ t.stn) && decide (t.stn.den = 1)) &&
      decide (m.molar_mass = (m.atoms.map fun t => t.stn * t.A).sum))

theorem compounds_checked : ∀ k : Fin 149,
    soundCheck (@get_material ℚ ratScalar ((k.val : Int) + 201)) = true := by decide +kernel

theorem elements_checked : ∀ k : Fin 98,
    soundCheck (@get_material ℚ ratScalar ((k.val : Int) + 1)) = true := by decide +kernel

theorem ids_checked : compound_rows.all (fun r => decide (201 ≤ r.id ∧ r.id ≤ 349)) = true := by
  decide +kernel

theorem cast_map_sum (l : List (Target ℚ)) (f : Target ℚ → ℚ) (g : Target ℝ → ℝ)
    (h : ∀ t, (f t : ℝ) = g t.cast) :
    (((l.map f).sum : ℚ) : ℝ) = ((l.map Target.cast).map g).sum := by
  induction l with
  | nil => simp
  | cons t l ih => simp only [List.map_cons, List.sum_cons, Rat.cast_add, ih, h]

/-- C72: every element 1 to 98 and every compound 201 to 349 of the database describes real matter: it
has components with atomic numbers up to 98, positive masses and amounts, a positive density and molar
mass; the amounts are either all weight fractions that sum to 1 within 0.4 % or all numbers of atoms,
and in the latter case the molar mass is the sum of the masses of these atoms. -/
theorem material_sound (id : Int) (h : 1 ≤ id ∧ id ≤ 98 ∨ 201 ≤ id ∧ id ≤ 349) (m : Material ℝ)
    (hm : m = get_material id) :
    m.Sound ∧ 0 < m.rho ∧ m.th = 0 ∧ m.i_potential = 0 ∧ (∀ t ∈ m.atoms, t.Z ≤ 98) ∧
    ((∀ t ∈ m.atoms, t.stn < 1) ∧ |(m.atoms.map Target.stn).sum - 1| ≤ 0.004 ∨
      (∀ t ∈ m.atoms, ∃ n : ℕ, 1 ≤ n ∧ t.stn = n) ∧
        m.molar_mass = (m.atoms.map fun t => t.stn * t.A).sum) := by
  have hc : soundCheck (@get_material ℚ ratScalar id) = true := by
    rcases h with h | h
    · have := elements_checked ⟨(id - 1).toNat, by omega⟩
      have e : (((id - 1).toNat : ℕ) : Int) + 1 = id := by omega
      simp only [e] at this
      exact this
    · have := compounds_checked ⟨(id - 201).toNat, by omega⟩
      have e : (((id - 201).toNat : ℕ) : Int) + 201 = id := by omega
      simp only [e] at this
      exact this
  rw [← cast_get_material] at hm
  generalize @get_material ℚ ratScalar id = q at hc hm
  subst hm
  unfold soundCheck at hc
  simp only [Bool.and_eq_true, Bool.or_eq_true, decide_eq_true_iff, List.all_eq_true] at hc
  obtain ⟨⟨⟨⟨⟨⟨c1, c2⟩, c3⟩, c4⟩, c5⟩, c6⟩, c7⟩ := hc
  have hmem : ∀ t ∈ q.cast.atoms, ∃ s ∈ q.atoms, t = s.cast := by
    intro t ht
    obtain ⟨s, hs, rfl⟩ := List.mem_map.mp ht
    exact ⟨s, hs, rfl⟩
  refine ⟨⟨?_, ?_, ?_, ?_, ?_⟩, ?_, ?_, ?_, ?_, ?_⟩
  · intro h0
    exact c1 (List.map_eq_nil_iff.mp h0)
  · intro t ht
    obtain ⟨s, hs, rfl⟩ := hmem t ht
    exact (c6 s hs).1.1.1
  · intro t ht
    obtain ⟨s, hs, rfl⟩ := hmem t ht
    show (0 : ℝ) < (s.A : ℝ)
    exact_mod_cast (c6 s hs).1.2
  · intro t ht
    obtain ⟨s, hs, rfl⟩ := hmem t ht
    show (0 : ℝ) < (s.stn : ℝ)
    exact_mod_cast (c6 s hs).2
  · show (0 : ℝ) < (q.molar_mass : ℝ)
    exact_mod_cast c5
  · show (0 : ℝ) < (q.rho : ℝ)
    exact_mod_cast c2
  · show (q.th : ℝ) = 0
    exact_mod_cast c3
  · show (q.i_potential : ℝ) = 0
    exact_mod_cast c4
  · intro t ht
    obtain ⟨s, hs, rfl⟩ := hmem t ht
    exact (c6 s hs).1.1.2
  · rcases c7 with ⟨d1, d2⟩ | ⟨d1, d2⟩
    · left
      refine ⟨?_, ?_⟩
      · intro t ht
        obtain ⟨s, hs, rfl⟩ := hmem t ht
        show (s.stn : ℝ) < 1
        exact_mod_cast d1 s hs
      · have e := cast_map_sum q.atoms Target.stn Target.stn (fun _ => rfl)
        show |((q.atoms.map Target.cast).map Target.stn).sum - 1| ≤ 0.004
        rw [← e]
        have : ((|(q.atoms.map Target.stn).sum - 1| : ℚ) : ℝ) ≤ ((4 / 1000 : ℚ) : ℝ) := by
          exact_mod_cast d2
        push_cast at this
        norm_num at this ⊢
        exact this
    · right
      refine ⟨?_, ?_⟩
      · intro t ht
        obtain ⟨s, hs, rfl⟩ := hmem t ht
        obtain ⟨e1, e2⟩ := d1 s hs
        have hnum : s.stn = (s.stn.num : ℚ) := (Rat.den_eq_one_iff _).mp e2 |>.symm
        have h1 : 1 ≤ s.stn.num := by
          rw [hnum] at e1
          exact_mod_cast e1
        refine ⟨s.stn.num.toNat, by omega, ?_⟩
        show (s.stn : ℝ) = _
        have : ((s.stn.num.toNat : ℕ) : ℤ) = s.stn.num := Int.toNat_of_nonneg (by omega)
        calc (s.stn : ℝ) = ((s.stn.num : ℚ) : ℝ) := by rw [← hnum]
          _ = ((s.stn.num : ℤ) : ℝ) := by push_cast; rfl
          _ = (((s.stn.num.toNat : ℕ) : ℤ) : ℝ) := by rw [this]
          _ = _ := by push_cast; rfl
      · show (q.molar_mass : ℝ) = ((q.atoms.map Target.cast).map fun t => t.stn * t.A).sum
        rw [← cast_map_sum q.atoms (fun t => t.stn * t.A) (fun t => t.stn * t.A)
          (fun t => by push_cast; rfl), d2]

/-- C72: all other identifiers give the empty material. -/
theorem material_unknown (id : Int) (h : ¬ (1 ≤ id ∧ id ≤ 98 ∨ 201 ≤ id ∧ id ≤ 349)) :
    (get_material id : Material ℝ).atoms = [] := by
  unfold get_material
  rw [if_neg (by omega)]
  unfold get_compound
  have : compound_rows.find? (fun r => r.id = id) = none := by
    rw [List.find?_eq_none]
    intro r hr
    have := List.all_eq_true.mp ids_checked r hr
    rw [decide_eq_true_iff] at this
    intro h1
    rw [decide_eq_true_iff] at h1
    omega
  rw [this]
  rfl

/-- C72: elements are pure and natural. -/
theorem material_element (id : Int) (h : 1 ≤ id ∧ id ≤ 98) : (get_material id : Material ℝ).atoms =
    [⟨element_atomic_weight id, id, 1⟩] ∧ (get_material id : Material ℝ).rho = element_density id := by
  unfold get_material
  rw [if_pos (by omega)]
  unfold Material.ofElement Material.add_element
  have : ¬ (Scalar.gt (0.0 : ℝ) 0.0 = true) := by
    show ¬ (Scalar.lt (0.0 : ℝ) 0.0 = true)
    rw [lt_real]; exact lt_irrefl _
  dsimp only
  rw [if_neg this]
  refine ⟨?_, rfl⟩
  show [_] = _
  norm_num

/-! ## C73 -/

/-- The name of a predefined compound (the enumerator in material_database.h). -/
def materialName (id : Int) : Option String := (compound_rows.find? fun r => r.id = id).map CompoundRow.name

/-- Amount of the element `z` in a material. -/
noncomputable def Material.amount (m : Material ℝ) (z : Int) : ℝ :=
  ((m.atoms.filter fun t => t.Z = z).map Target.stn).sum

/-- Words that read like formulas but are names: a counting gas and polyvinyl chloride. -/
def notFormulas : List String := ["P10", "PVC"]

def amountQ (m : Material ℚ) (z : Int) : ℚ := ((m.atoms.filter fun t => t.Z = z).map Target.stn).sum

def formulaCheck (id : Int) : Bool :=
  match materialName id with
  | none => true
  | some name => match formula name with
    | none => true
    | some l =>
      decide (name ∈ notFormulas) || decide (name = "Na2CO3") ||
      (let m := @get_material ℚ ratScalar id
       ((l.map Prod.fst) ++ m.atoms.map Target.Z).all fun z => decide (amountQ m z = countOf z l))

theorem formulas_checked : ∀ k : Fin 149, formulaCheck ((k.val : Int) + 201) = true := by decide +kernel

theorem cast_amount (m : Material ℚ) (z : Int) : ((amountQ m z : ℚ) : ℝ) = m.cast.amount z := by
  unfold amountQ Material.amount
  rw [cast_map_sum _ Target.stn Target.stn (fun _ => rfl)]
  congr 2
  show _ = (m.atoms.map Target.cast).filter _
  rw [List.filter_map]
  rfl

/-- C73: a predefined material whose name is a chemical formula has the composition denoted by the
formula, except `Na2CO3`. -/
theorem formula_names_partial (id : Int) (name : String) (hn : materialName id = some name)
    (hf : name ∉ notFormulas) (hne : name ≠ "Na2CO3") (l : List (Int × Nat)) (hl : formula name = some l)
    (z : Int) : (get_material id : Material ℝ).amount z = countOf z l := by
  have hr : 201 ≤ id ∧ id ≤ 349 := by
    unfold materialName at hn
    obtain ⟨r, hr, -⟩ := Option.map_eq_some_iff.mp hn
    have h1 := List.all_eq_true.mp ids_checked r (List.mem_of_find?_eq_some hr)
    have h2 := List.find?_some hr
    rw [decide_eq_true_iff] at h1 h2
    omega
  have hc := formulas_checked ⟨(id - 201).toNat, by omega⟩
  have e : (((id - 201).toNat : ℕ) : Int) + 201 = id := by omega
  simp only [e] at hc
  unfold formulaCheck at hc
  rw [hn] at hc
  dsimp only at hc
  rw [hl] at hc
  simp only [Bool.or_eq_true, decide_eq_true_iff, List.all_eq_true] at hc
  rcases hc with (hc | hc) | hc
  · exact absurd hc hf
  · exact absurd hc hne
  rw [← cast_get_material, ← cast_amount]
  generalize @get_material ℚ ratScalar id = m at hc
  by_cases hz : z ∈ (l.map Prod.fst) ++ m.atoms.map Target.Z
  · rw [hc z hz]
    push_cast
    rfl
  · rw [List.mem_append, not_or] at hz
    have h1 : (l.filter fun x => decide (x.1 = z)) = [] := by
      rw [List.filter_eq_nil_iff]
      intro x hx h
      rw [decide_eq_true_iff] at h
      exact hz.1 (List.mem_map.mpr ⟨x, hx, h⟩)
    have h2 : (m.atoms.filter fun t => decide (t.Z = z)) = [] := by
      rw [List.filter_eq_nil_iff]
      intro x hx h
      rw [decide_eq_true_iff] at h
      exact hz.2 (List.mem_map.mpr ⟨x, hx, h⟩)
    unfold amountQ countOf
    rw [h1, h2]
    simp

/-- C73 covers 47 materials, for example aluminium oxide. -/
example : materialName 234 = some "Al2O3" ∧ "Al2O3" ∉ notFormulas ∧
    formula "Al2O3" = some [(13, 2), (8, 3)] := by decide +kernel

/-- C73, refuted: `Na2CO3` has one sodium atom instead of two. -/
theorem sodium_carbonate_wrong : materialName 307 = some "Na2CO3" ∧
    formula "Na2CO3" = some [(11, 2), (6, 1), (8, 3)] ∧ (get_material 307 : Material ℝ).amount 11 = 1 := by
  refine ⟨by decide +kernel, by decide +kernel, ?_⟩
  rw [← cast_get_material, ← cast_amount]
  have : amountQ (@get_material ℚ ratScalar 307) 11 = 1 := by decide +kernel
  rw [this]
  norm_num

/-! ## C87 -/

/-- Weight fraction of the element `z` in a material. -/
noncomputable def Material.weight (m : Material ℝ) (z : Int) : ℝ :=
  ((m.atoms.filter fun t => t.Z = z).map m.wfrac).sum

/-- Weight fraction of the element `z` in a substance with natural isotopes. -/
noncomputable def formulaWeight (l : List (Int × Nat)) (z : Int) : ℝ :=
  countOf z l * element_atomic_weight z / (l.map fun x => (x.2 : ℝ) * element_atomic_weight x.1).sum

def weightQ (m : Material ℚ) (z : Int) : ℚ :=
  ((m.atoms.filter fun t => t.Z = z).map (@Material.wfrac ℚ ratScalar m)).sum

def formulaWeightQ (l : List (Int × Nat)) (z : Int) : ℚ :=
  countOf z l * @element_atomic_weight ℚ ratScalar z /
    (l.map fun x => (x.2 : ℚ) * @element_atomic_weight ℚ ratScalar x.1).sum

def substanceCheck (s : String × String) : Bool :=
  match compound_rows.find? (fun r => r.name = s.1), formula s.2 with
  | some r, some l =>
    decide (s.1 = "Polyolefin") || decide (s.1 = "Suprasil") ||
    (let m := @get_material ℚ ratScalar r.id
     ((l.map Prod.fst) ++ m.atoms.map Target.Z).all fun z =>
      decide (|weightQ m z - formulaWeightQ l z| ≤ 3 / 100000))
  | _, _ => false

theorem substances_checked : substances.all substanceCheck = true := by decide +kernel

theorem names_unique : (compound_rows.map CompoundRow.name).Nodup := by decide +kernel
theorem ids_unique : (compound_rows.map CompoundRow.id).Nodup := by decide +kernel

theorem cast_weightQ (m : Material ℚ) (z : Int) : ((weightQ m z : ℚ) : ℝ) = m.cast.weight z := by
  unfold weightQ Material.weight
  have h1 : ((@OfScientific.ofScientific ℚ ratScalar.toOfScientific 10 true 1 : ℚ) : ℝ) = 1.0 := cast_sci _ _ _
  rw [cast_map_sum _ (@Material.wfrac ℚ ratScalar m) m.cast.wfrac]
  · congr 2
    show _ = (m.atoms.map Target.cast).filter _
    rw [List.filter_map]
    rfl
  · intro t
    unfold Material.wfrac
    have hl := cast_lt t.stn (@OfScientific.ofScientific ℚ ratScalar.toOfScientific 10 true 1)
    rw [h1] at hl
    show _ = if Scalar.lt (t.stn : ℝ) 1.0 = true then (t.stn : ℝ) else t.stn * t.A / m.molar_mass
    rw [hl]
    split
    · rfl
    · push_cast
      rfl

theorem cast_formulaWeightQ (l : List (Int × Nat)) (z : Int) :
    ((formulaWeightQ l z : ℚ) : ℝ) = formulaWeight l z := by
  unfold formulaWeightQ formulaWeight
  rw [Rat.cast_div, Rat.cast_mul, cast_weight]
  congr 1
  induction l with
  | nil => simp
  | cons x l ih =>
    simp only [List.map_cons, List.sum_cons, Rat.cast_add, ih, Rat.cast_mul, cast_weight, Rat.cast_natCast]

/-- C87: a predefined material named after a chemical substance consists of that substance: the weight
fraction of every element agrees within 3e-5; except `Polyolefin` and `Suprasil`. -/
theorem substance_names_partial (s : String × String) (hs : s ∈ substances) (h1 : s.1 ≠ "Polyolefin")
    (h2 : s.1 ≠ "Suprasil") : ∃ id l, materialName id = some s.1 ∧ formula s.2 = some l ∧
      ∀ z, |(get_material id : Material ℝ).weight z - formulaWeight l z| ≤ 3e-5 := by
  have hc := List.all_eq_true.mp substances_checked s hs
  unfold substanceCheck at hc
  split at hc
  · rename_i r l hr hl
    simp only [Bool.or_eq_true, decide_eq_true_iff, List.all_eq_true] at hc
    rcases hc with (hc | hc) | hc
    · exact absurd hc h1
    · exact absurd hc h2
    refine ⟨r.id, l, ?_, hl, fun z => ?_⟩
    · have hname := List.find?_some hr
      rw [decide_eq_true_iff] at hname
      have hmem := List.mem_of_find?_eq_some hr
      unfold materialName
      have : compound_rows.find? (fun r' => decide (r'.id = r.id)) = some r := by
        rw [List.find?_eq_some_iff_append]
        obtain ⟨as, bs, e⟩ := List.append_of_mem hmem
        refine ⟨by simp, as, bs, e, ?_⟩
        intro a ha
        have hnd := ids_unique
        rw [e, List.map_append, List.map_cons, List.nodup_append] at hnd
        have := hnd.2.2 a.id (List.mem_map.mpr ⟨a, ha, rfl⟩) r.id (by simp)
        simpa using this
      rw [this]
      simp [hname]
    · rw [← cast_get_material, ← cast_weightQ, ← cast_formulaWeightQ]
      generalize @get_material ℚ ratScalar r.id = m at hc
      by_cases hz : z ∈ (l.map Prod.fst) ++ m.atoms.map Target.Z
      · have := hc z hz
        have h3 : ((|weightQ m z - formulaWeightQ l z| : ℚ) : ℝ) ≤ ((3 / 100000 : ℚ) : ℝ) := by
          exact_mod_cast this
        push_cast at h3
        norm_num at h3 ⊢
        exact h3
      · rw [List.mem_append, not_or] at hz
        have e1 : (l.filter fun x => decide (x.1 = z)) = [] := by
          rw [List.filter_eq_nil_iff]
          intro x hx h
          rw [decide_eq_true_iff] at h
          exact hz.1 (List.mem_map.mpr ⟨x, hx, h⟩)
        have e2 : (m.atoms.filter fun t => decide (t.Z = z)) = [] := by
          rw [List.filter_eq_nil_iff]
          intro x hx h
          rw [decide_eq_true_iff] at h
          exact hz.2 (List.mem_map.mpr ⟨x, hx, h⟩)
        unfold weightQ formulaWeightQ countOf
        rw [e1, e2]
        norm_num
  · cases hc

/-- C87, refuted: "Polyolefin" contains oxygen and no carbon; "Suprasil" (pure fused silica) contains
boron. -/
theorem substance_names_wrong :
    materialName 217 = some "Polyolefin" ∧ (get_material 217 : Material ℝ).amount 8 = 8 ∧
      (get_material 217 : Material ℝ).amount 6 = 0 ∧
    materialName 219 = some "Suprasil" ∧ 0 < (get_material 219 : Material ℝ).amount 5 := by
  have a1 : amountQ (@get_material ℚ ratScalar 217) 8 = 8 := by decide +kernel
  have a2 : amountQ (@get_material ℚ ratScalar 217) 6 = 0 := by decide +kernel
  have a3 : 0 < amountQ (@get_material ℚ ratScalar 219) 5 := by decide +kernel
  refine ⟨by decide +kernel, ?_, ?_, by decide +kernel, ?_⟩
  · rw [← cast_get_material, ← cast_amount, a1]; norm_num
  · rw [← cast_get_material, ← cast_amount, a2]; norm_num
  · rw [← cast_get_material, ← cast_amount]; exact_mod_cast a3

/-! ## C74 -/

theorem cast_match (a b : Material ℚ) :
    mocadi_material_match a.cast b.cast = @mocadi_material_match ℚ ratScalar a b := by
  unfold mocadi_material_match
  have h6 : ((@OfScientific.ofScientific ℚ ratScalar.toOfScientific 10 true 7 : ℚ) : ℝ) = 1.0e-6 :=
    cast_sci _ _ _
  congr 1
  · congr 1
    · congr 1
      · show (!(Scalar.lt 1.0e-6 (Scalar.fabs ((a.rho : ℝ) - b.rho)))) = _
        rw [← Rat.cast_sub, cast_fabs, ← h6, cast_lt]
      · simp only [Material.cast, List.length_map]
    · show ((a.atoms.map Target.cast).zip (b.atoms.map Target.cast)).all _ = _
      rw [List.zip_map, List.all_map]
      congr 1
      funext x
      show (((Scalar.beq (x.1.stn : ℝ) x.2.stn) && (Scalar.beq (x.1.A : ℝ) x.2.A)) && (x.1.Z == x.2.Z)) = _
      rw [cast_beq, cast_beq]
      rfl
  · exact cast_beq _ _

theorem cast_materialdb_id (m : Material ℚ) : materialdb_id m.cast = @materialdb_id ℚ ratScalar m := by
  unfold materialdb_id
  have : (fun i => mocadi_material_match (get_material i) m.cast) =
      fun i => @mocadi_material_match ℚ ratScalar (@get_material ℚ ratScalar i) m := by
    funext i
    rw [← cast_get_material, cast_match]
  rw [this]

set_option maxRecDepth 10000 in
theorem dbids_checked : ∀ k : Fin 147,
    @materialdb_id ℚ ratScalar (@get_material ℚ ratScalar ((k.val : Int) + 201)) =
      if k.val = 50 then 201 else (k.val : Int) + 201 := by decide +kernel

/-- C74: `materialdb_id` finds the compounds 201 to 347 except 251. -/
theorem materialdb_inverse_partial (id : Int) (h : 201 ≤ id ∧ id ≤ 347) (h1 : id ≠ 251) :
    materialdb_id (get_material id : Material ℝ) = id := by
  rw [← cast_get_material, cast_materialdb_id]
  have := dbids_checked ⟨(id - 201).toNat, by omega⟩
  have e : (((id - 201).toNat : ℕ) : Int) + 201 = id := by omega
  simp only [e] at this
  rw [this, if_neg (by omega)]

/-- C74, refuted: the scintillator BC_400 (251) is reported as Plastics (201), which has the same
composition and density; Brass (348) and RW3 (349) are not found. -/
theorem materialdb_inverse_wrong : materialdb_id (get_material 251 : Material ℝ) = 201 ∧
    materialdb_id (get_material 348 : Material ℝ) = 0 ∧ materialdb_id (get_material 349 : Material ℝ) = 0 := by
  refine ⟨?_, ?_, ?_⟩
  · rw [← cast_get_material, cast_materialdb_id]; decide +kernel
  · rw [← cast_get_material, cast_materialdb_id]; decide +kernel
  · rw [← cast_get_material, cast_materialdb_id]; decide +kernel

theorem match_iff (a b : Material ℝ) : mocadi_material_match a b = true ↔
    |a.rho - b.rho| ≤ 1e-6 ∧ a.atoms = b.atoms ∧ a.molar_mass = b.molar_mass := by
  unfold mocadi_material_match
  have hz : ∀ l l' : List (Target ℝ), l.length = l'.length →
      ((l.zip l').all (fun x => Material.atomEq x.1 x.2) = true ↔ l = l') := by
    intro l
    induction l with
    | nil => intro l' h; cases l' with
      | nil => simp
      | cons _ _ => cases h
    | cons t l ih =>
      intro l' h
      cases l' with
      | nil => cases h
      | cons t' l' =>
        rw [List.zip_cons_cons, List.all_cons, Bool.and_eq_true, ih l' (by simpa using h), List.cons.injEq]
        have : Material.atomEq t t' = true ↔ t = t' := by
          unfold Material.atomEq
          simp only [Bool.and_eq_true, beq_real, beq_iff_eq]
          cases t; cases t'
          simp only [Target.mk.injEq]
          tauto
        rw [this]
  simp only [Bool.and_eq_true, beq_iff_eq, beq_real]
  have hr : (!(Scalar.gt (Scalar.fabs (a.rho - b.rho)) 1.0e-6)) = true ↔ |a.rho - b.rho| ≤ 1e-6 := by
    rw [Bool.not_eq_true']
    show Scalar.lt _ _ = false ↔ _
    rw [lt_real_false, fabs_real]
    norm_num
  rw [hr]
  constructor
  · rintro ⟨⟨⟨h1, h2⟩, h3⟩, h4⟩
    exact ⟨h1, (hz _ _ h2).mp h3, h4⟩
  · rintro ⟨h1, h2, h3⟩
    exact ⟨⟨⟨h1, congrArg _ h2⟩, (hz _ _ (congrArg _ h2)).mpr h2⟩, h3⟩

/-- C74: for every material, the result is the least identifier from 201 to 347 of a compound with the
same components and molar mass and a density within 1e-6 g/cm³, and 0 if there is none. -/
theorem materialdb_id_spec (m : Material ℝ) (i : Int) : materialdb_id m = i ↔
    (∃ f : Int → Prop, (∀ j, f j ↔ |(get_material j : Material ℝ).rho - m.rho| ≤ 1e-6 ∧
        (get_material j : Material ℝ).atoms = m.atoms ∧
        (get_material j : Material ℝ).molar_mass = m.molar_mass) ∧
      ((201 ≤ i ∧ i ≤ 347 ∧ f i ∧ ∀ j, 201 ≤ j → j < i → ¬ f j) ∨
       (i = 0 ∧ ∀ j, 201 ≤ j → j ≤ 347 → ¬ f j))) := by
  unfold materialdb_id
  have hmem : ∀ j : Int, j ∈ (List.range 147).map (fun (k : Nat) => (201 : Int) + k) ↔ 201 ≤ j ∧ j ≤ 347 := by
    intro j
    rw [List.mem_map]
    constructor
    · rintro ⟨k, hk, rfl⟩
      rw [List.mem_range] at hk
      omega
    · rintro ⟨h1, h2⟩
      exact ⟨(j - 201).toNat, List.mem_range.mpr (by omega), by omega⟩
  have hsorted : ((List.range 147).map (fun (k : Nat) => (201 : Int) + k)).Pairwise (· < ·) := by
    rw [List.pairwise_map]
    exact List.pairwise_lt_range.imp fun h => by omega
  have key : ∀ (l : List Int), l.Pairwise (· < ·) → (∀ j ∈ l, j ≠ 0) → ∀ (P : Int → Bool),
      ((match l.find? P with | some i => i | none => 0) = i ↔
        (i ∈ l ∧ P i = true ∧ ∀ j ∈ l, j < i → P j = false) ∨ (i = 0 ∧ ∀ j ∈ l, P j = false)) := by
    intro l hl h0 P
    cases hf : l.find? P with
    | none =>
      have hall : ∀ j ∈ l, P j = false := by
        intro j hj
        have := List.find?_eq_none.mp hf j hj
        simpa using this
      constructor
      · rintro rfl
        exact .inr ⟨rfl, hall⟩
      · rintro (⟨h1, h2, -⟩ | ⟨rfl, -⟩)
        · rw [hall i h1] at h2; cases h2
        · rfl
    | some k =>
      have hP := List.find?_some hf
      have hk := List.mem_of_find?_eq_some hf
      have hmin : ∀ j ∈ l, j < k → P j = false := by
        rw [List.find?_eq_some_iff_append] at hf
        obtain ⟨-, as, bs, e, has⟩ := hf
        intro j hj hjk
        rw [e, List.mem_append, List.mem_cons] at hj
        rcases hj with hj | rfl | hj
        · simpa using has j hj
        · exact absurd hjk (lt_irrefl _)
        · rw [e, List.pairwise_append, List.pairwise_cons] at hl
          have := hl.2.1.1 j hj
          omega
      constructor
      · rintro rfl
        exact .inl ⟨hk, hP, hmin⟩
      · rintro (⟨h1, h2, h3⟩ | ⟨rfl, h2⟩)
        · show k = i
          rcases lt_trichotomy k i with h | h | h
          · rw [h3 k hk h] at hP; cases hP
          · exact h
          · rw [hmin i h1 h] at h2; cases h2
        · rw [h2 k hk] at hP; cases hP
  refine (key _ hsorted (fun j hj => by rw [hmem] at hj; omega)
    (fun j => mocadi_material_match (get_material j) m)).trans ?_
  have hiff : ∀ j, mocadi_material_match (get_material j : Material ℝ) m = false ↔
      ¬ (|(get_material j : Material ℝ).rho - m.rho| ≤ 1e-6 ∧
        (get_material j : Material ℝ).atoms = m.atoms ∧
        (get_material j : Material ℝ).molar_mass = m.molar_mass) := by
    intro j
    rw [← match_iff, Bool.not_eq_true]
  constructor
  · rintro (⟨h1, h2, h3⟩ | ⟨rfl, h2⟩)
    · rw [hmem] at h1
      refine ⟨_, fun _ => Iff.rfl, .inl ⟨h1.1, h1.2, (match_iff _ _).mp h2, fun j hj hji => ?_⟩⟩
      exact (hiff j).mp (h3 j ((hmem j).mpr ⟨hj, by omega⟩) hji)
    · refine ⟨_, fun _ => Iff.rfl, .inr ⟨rfl, fun j hj hj' => ?_⟩⟩
      exact (hiff j).mp (h2 j ((hmem j).mpr ⟨hj, hj'⟩))
  · rintro ⟨f, hf, ⟨h1, h2, h3, h4⟩ | ⟨rfl, h2⟩⟩
    · refine .inl ⟨(hmem i).mpr ⟨h1, h2⟩, (match_iff _ _).mpr ((hf i).mp h3), fun j hj hji => ?_⟩
      rw [hiff, ← hf]
      exact h4 j ((hmem j).mp hj).1 hji
    · refine .inr ⟨rfl, fun j hj => ?_⟩
      rw [hiff, ← hf]
      exact h2 j ((hmem j).mp hj).1 ((hmem j).mp hj).2

end Catima
