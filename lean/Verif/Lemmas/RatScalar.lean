import Verif.Lemmas.RealScalar
import Verif.Model.MaterialDB
import Mathlib.Data.Rat.Cast.Order
import Mathlib.Data.Rat.Cast.OfScientific

/-!
# Helper lemmas: rational evaluation of the material tables

The material tables are evaluated exactly with rationals in the kernel and transported to `ℝ`.  Only
the ring operations, comparisons and `fabs` of this instance are used.
-/

namespace Catima

/-- Rational arithmetic; the transcendental operations are placeholders and are not used. -/
@[reducible] def ratScalar : Scalar ℚ where
  toAdd := inferInstance
  toSub := inferInstance
  toMul := inferInstance
  toDiv := inferInstance
  toNeg := inferInstance
  toOfScientific := inferInstance
  lt a b := decide (a < b)
  le a b := decide (a ≤ b)
  beq a b := decide (a = b)
  ofInt i := (i : ℚ)
  toInt _ := none
  lround _ := 0
  floor x := x
  exp x := x
  log x := x
  log1p x := x
  log10 x := x
  sqrt x := x
  fabs x := if x < 0 then -x else x
  pow x _ := x

/-- A target with rational numbers read as a target with real numbers. -/
noncomputable def Target.cast (t : Target ℚ) : Target ℝ := ⟨t.A, t.Z, t.stn⟩

/-- A material with rational numbers read as a material with real numbers. -/
noncomputable def Material.cast (m : Material ℚ) : Material ℝ :=
  ⟨m.rho, m.th, m.molar_mass, m.i_potential, m.atoms.map Target.cast⟩

theorem cast_sci (m : Nat) (s : Bool) (e : Nat) :
    ((OfScientific.ofScientific m s e : ℚ) : ℝ) = OfScientific.ofScientific m s e :=
  Rat.cast_ofScientific m s e

theorem cast_dec (d : Dec) : ((@Dec.toScalar ℚ ratScalar d : ℚ) : ℝ) = d.toScalar := by
  unfold Dec.toScalar
  split
  · rw [Rat.cast_neg]
    exact congrArg Neg.neg (cast_sci _ _ _)
  · exact cast_sci _ _ _

theorem cast_weight (z : Int) :
    ((@element_atomic_weight ℚ ratScalar z : ℚ) : ℝ) = element_atomic_weight z := by
  unfold element_atomic_weight
  split
  · split
    · exact cast_dec _
    · exact cast_sci _ _ _
  · exact cast_sci _ _ _

theorem cast_density (z : Int) : ((@element_density ℚ ratScalar z : ℚ) : ℝ) = element_density z := by
  unfold element_density
  split
  · split
    · exact cast_dec _
    · exact cast_sci _ _ _
  · exact cast_sci _ _ _

theorem cast_lt (a b : ℚ) : Scalar.lt (a : ℝ) b = @Scalar.lt ℚ ratScalar a b := by
  rw [Bool.eq_iff_iff, lt_real]
  show _ ↔ decide (a < b) = true
  rw [decide_eq_true_iff]
  exact Rat.cast_lt

theorem cast_beq (a b : ℚ) : Scalar.beq (a : ℝ) b = @Scalar.beq ℚ ratScalar a b := by
  rw [Bool.eq_iff_iff, beq_real]
  show _ ↔ decide (a = b) = true
  rw [decide_eq_true_iff]
  exact Rat.cast_inj

theorem cast_fabs (a : ℚ) : Scalar.fabs (a : ℝ) = ((@Scalar.fabs ℚ ratScalar a : ℚ) : ℝ) := by
  rw [fabs_real]
  show |(a : ℝ)| = ((if a < 0 then -a else a : ℚ) : ℝ)
  split
  · rename_i h
    rw [abs_of_neg (by exact_mod_cast h)]; push_cast; rfl
  · rename_i h
    rw [abs_of_nonneg (by exact_mod_cast not_lt.mp h)]

theorem Material.cast_add_element (m : Material ℚ) (a : ℚ) (z : Int) (stn : ℚ) :
    (@Material.add_element ℚ ratScalar m a z stn).cast = m.cast.add_element a z stn := by
  have hw := cast_weight z
  have h0 : ((@OfScientific.ofScientific ℚ ratScalar.toOfScientific 0 true 1 : ℚ) : ℝ) = 0.0 := cast_sci _ _ _
  have hl := cast_lt (@OfScientific.ofScientific ℚ ratScalar.toOfScientific 0 true 1) a
  rw [h0] at hl
  unfold Material.add_element
  dsimp only
  have ha : (((if @Scalar.gt ℚ ratScalar a (@OfScientific.ofScientific ℚ ratScalar.toOfScientific 0 true 1)
      = true then a else @element_atomic_weight ℚ ratScalar z : ℚ)) : ℝ) =
      if Scalar.gt (a : ℝ) 0.0 = true then (a : ℝ) else element_atomic_weight z := by
    show (((if @Scalar.lt ℚ ratScalar (@OfScientific.ofScientific ℚ ratScalar.toOfScientific 0 true 1) a
      = true then a else @element_atomic_weight ℚ ratScalar z : ℚ)) : ℝ) =
      if Scalar.lt 0.0 (a : ℝ) = true then (a : ℝ) else element_atomic_weight z
    rw [hl]
    split
    · rfl
    · exact hw
  rw [← ha]
  simp only [Material.cast, List.map_append, List.map_cons, List.map_nil, Target.cast]
  congr 1
  push_cast
  rfl

theorem cast_foldl_add (l : List (Dec × Int × Dec)) (m : Material ℚ) :
    ((l.map fun a => (@Dec.toScalar ℚ ratScalar a.1, a.2.1, @Dec.toScalar ℚ ratScalar a.2.2)).foldl
      (fun m e => @Material.add_element ℚ ratScalar m e.1 e.2.1 e.2.2) m).cast =
    (l.map fun a => ((a.1.toScalar : ℝ), a.2.1, (a.2.2.toScalar : ℝ))).foldl
      (fun m e => m.add_element e.1 e.2.1 e.2.2) m.cast := by
  induction l generalizing m with
  | nil => rfl
  | cons a l ih =>
    simp only [List.map_cons, List.foldl_cons]
    rw [ih, Material.cast_add_element, cast_dec, cast_dec]

theorem cast_foldl_sum (l : List (Target ℚ)) (s : ℚ) :
    ((l.foldl (fun s e => s + e.stn / e.A) s : ℚ) : ℝ) =
      (l.map Target.cast).foldl (fun s e => s + e.stn / e.A) (s : ℝ) := by
  induction l generalizing s with
  | nil => rfl
  | cons a l ih =>
    simp only [List.map_cons, List.foldl_cons]
    rw [ih]
    congr 1
    push_cast
    rfl

theorem Material.cast_calculate (m : Material ℚ) :
    (@Material.calculate ℚ ratScalar m).cast = m.cast.calculate := by
  have h1 : ((@OfScientific.ofScientific ℚ ratScalar.toOfScientific 10 true 1 : ℚ) : ℝ) = 1.0 := cast_sci _ _ _
  have h0 : ((@OfScientific.ofScientific ℚ ratScalar.toOfScientific 0 true 1 : ℚ) : ℝ) = 0.0 := cast_sci _ _ _
  unfold Material.calculate
  have hall : (m.cast.atoms.all fun t => Scalar.lt t.stn 1.0) =
      m.atoms.all fun t => @Scalar.lt ℚ ratScalar t.stn
        (@OfScientific.ofScientific ℚ ratScalar.toOfScientific 10 true 1) := by
    show ((m.atoms.map Target.cast).all fun t => Scalar.lt t.stn 1.0) = _
    rw [List.all_map]
    congr 1
    funext t
    show Scalar.lt (t.stn : ℝ) 1.0 = _
    rw [← h1, cast_lt]
  rw [hall]
  split
  · show Material.mk _ _ _ _ _ = Material.mk _ _ _ _ _
    congr 1
    have e := cast_foldl_sum m.atoms (@OfScientific.ofScientific ℚ ratScalar.toOfScientific 0 true 1)
    rw [h0] at e
    show ((_ / _ : ℚ) : ℝ) = 1.0 / (m.atoms.map Target.cast).foldl (fun s e => s + e.stn / e.A) (0.0 : ℝ)
    rw [Rat.cast_div, ← e, ← h1]
  · rfl

theorem CompoundRow.cast_material (r : CompoundRow) :
    (@CompoundRow.material ℚ ratScalar r).cast = r.material := by
  have h0 : ((@OfScientific.ofScientific ℚ ratScalar.toOfScientific 0 true 1 : ℚ) : ℝ) = 0.0 := cast_sci _ _ _
  unfold CompoundRow.material Material.ofList
  dsimp only
  rw [if_neg, if_neg]
  · rw [Material.cast_calculate, cast_foldl_add]
    congr 2
    show Material.mk _ _ _ _ _ = Material.mk _ _ _ _ _
    rw [cast_dec]
    congr 1
  · simp
  · have : @Scalar.beq ℚ ratScalar (@OfScientific.ofScientific ℚ ratScalar.toOfScientific 0 true 1)
        (@OfScientific.ofScientific ℚ ratScalar.toOfScientific 0 true 1) = true := decide_eq_true rfl
    rw [this]; simp

theorem cast_get_compound (id : Int) : (@get_compound ℚ ratScalar id).cast = get_compound id := by
  unfold get_compound
  cases compound_rows.find? (fun r => r.id = id) with
  | some r => exact r.cast_material
  | none =>
    show Material.mk _ _ _ _ _ = Material.mk _ _ _ _ _
    congr 1

theorem cast_get_material (id : Int) : (@get_material ℚ ratScalar id).cast = get_material id := by
  unfold get_material
  split
  · unfold Material.ofElement
    rw [Material.cast_add_element]
    have h0 : ((@OfScientific.ofScientific ℚ ratScalar.toOfScientific 0 true 1 : ℚ) : ℝ) = 0.0 := cast_sci _ _ _
    have h1 : ((@OfScientific.ofScientific ℚ ratScalar.toOfScientific 10 true 1 : ℚ) : ℝ) = 1.0 := cast_sci _ _ _
    rw [h0, h1]
    congr 1
    show Material.mk _ _ _ _ _ = Material.mk _ _ _ _ _
    rw [cast_density, h0]
    rfl
  · exact cast_get_compound id

end Catima
