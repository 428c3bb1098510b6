import Verif.Lemmas.Basic
import Verif.Spec.Structures
import Mathlib.Algebra.BigOperators.Group.List.Basic
import Mathlib.Tactic.FieldSimp
import Mathlib.Tactic.Linarith

/-!
# Lemmas about `Material` and `Layers`
-/

namespace Catima

theorem add_element_real (m : Material ℝ) (a : ℝ) (z : Int) (n : ℝ) :
    m.add_element a z n = { m with
      atoms := m.atoms ++ [⟨usedMass a z, z, n⟩]
      molar_mass := m.molar_mass + n * usedMass a z } := by
  simp only [Material.add_element, usedMass]
  norm_num [Scalar.gt]

/-- The list constructor collects the components and adds up the masses. -/
theorem foldl_add_element (l : List (ℝ × Int × ℝ)) (m : Material ℝ) :
    l.foldl (fun m e => m.add_element e.1 e.2.1 e.2.2) m =
      { m with
        atoms := m.atoms ++ l.map (fun e => (⟨usedMass e.1 e.2.1, e.2.1, e.2.2⟩ : Target ℝ))
        molar_mass := m.molar_mass + (l.map (fun e => e.2.2 * usedMass e.1 e.2.1)).sum } := by
  induction l generalizing m with
  | nil => simp
  | cons e l ih =>
    rw [List.foldl_cons, ih, add_element_real]
    simp [add_assoc]

theorem sum_pos_of_forall {β : Type} (l : List β) (f : β → ℝ) (h : ∀ x ∈ l, 0 < f x) (hne : l ≠ []) :
    0 < (l.map f).sum :=
  List.sum_pos _ (by simpa using h) (by simpa using hne)

theorem sum_div_const {β : Type} (l : List β) (f : β → ℝ) (c : ℝ) :
    (l.map fun x => f x / c).sum = (l.map f).sum / c := by
  induction l with
  | nil => simp
  | cons x l ih => simp [ih, add_div]

/-- Invariant of `StoichBuilt`. -/
theorem stoich_inv {m : Material ℝ} (hm : StoichBuilt m) :
    (∀ t ∈ m.atoms, 1 ≤ t.stn ∧ 0 < t.A) ∧
      m.molar_mass = (m.atoms.map fun t => t.stn * t.A).sum := by
  induction hm with
  | default => simp [Material.default]; norm_num
  | element a z rho th I h =>
    rw [Material.ofElement, add_element_real]
    norm_num [h]
  | list l rho I hne h =>
    have key : Material.ofList l rho I 0 =
        l.foldl (fun m e => m.add_element e.1 e.2.1 e.2.2) ⟨rho, 0.0, 0.0, I, []⟩ := by
      rw [Material.ofList]
      have h0 : ((0 : ℝ) =? 0.0) = true := by norm_num
      simp only [h0, Bool.not_true, Bool.false_eq_true, if_false]
      rw [Material.calculate, if_neg]
      obtain ⟨e, l', rfl⟩ := List.exists_cons_of_ne_nil hne
      rw [foldl_add_element]
      have := (h e (by simp)).1
      simp only [List.all_eq_true]
      intro hall
      have := hall ⟨usedMass e.1 e.2.1, e.2.1, e.2.2⟩ (by simp)
      norm_num at this
      linarith
    rw [key, foldl_add_element]
    constructor
    · intro t ht
      simp only [List.nil_append, List.mem_map] at ht
      obtain ⟨e, he, rfl⟩ := ht
      exact h e he
    · norm_num [Function.comp_def]
  | add hm a z n hn h ih =>
    rw [add_element_real]
    refine ⟨?_, by simp [ih.2]⟩
    intro t ht
    simp only [List.mem_append, List.mem_singleton] at ht
    rcases ht with ht | rfl
    · exact ih.1 t ht
    · exact ⟨hn, h⟩
  | density hm v ih => exact ih
  | thickness hm v ih => exact ih
  | thickness_cm hm v ih => exact ih
  | I hm v ih => exact ih

theorem foldl_add_eq (l : List ℝ) (a : ℝ) : l.foldl (· + ·) a = a + l.sum := by
  induction l generalizing a with
  | nil => simp
  | cons x l ih => rw [List.foldl_cons, ih, List.sum_cons]; ring

theorem foldl_add_map {β : Type} (l : List β) (f : β → ℝ) (a : ℝ) :
    l.foldl (fun s e => s + f e) a = a + (l.map f).sum := by
  rw [← foldl_add_eq, List.foldl_map]

theorem ofList_fraction {l : List (ℝ × Int × ℝ)} (hl : FractionList l) (rho I : ℝ) :
    Material.ofList l rho I 0 =
      ⟨rho, 0, 1 / (l.map fun e => e.2.2 / usedMass e.1 e.2.1).sum, I,
        l.map fun e => ⟨usedMass e.1 e.2.1, e.2.1, e.2.2⟩⟩ := by
  rw [Material.ofList]
  have h0 : ((0 : ℝ) =? 0.0) = true := by norm_num
  simp only [h0, Bool.not_true, Bool.false_eq_true, if_false]
  rw [foldl_add_element, Material.calculate, if_pos]
  · simp only [foldl_add_map, List.nil_append, List.map_map, Function.comp_def]
    norm_num
  · simp only [List.nil_append, List.all_eq_true, List.mem_map]
    rintro t ⟨e, he, rfl⟩
    have := (hl.2 e he).2.1
    norm_num [this]

theorem atomEq_real (a b : Target ℝ) : Material.atomEq a b = true ↔ a = b := by
  cases a; cases b
  simp only [Material.atomEq, Bool.and_eq_true, beq_real, beq_iff_eq, Target.mk.injEq]
  tauto

theorem zip_all_eq (as bs : List (Target ℝ)) (h : as.length = bs.length) :
    ((as.zip bs).all fun x => Material.atomEq x.1 x.2) = true ↔ as = bs := by
  induction as generalizing bs with
  | nil => cases bs <;> simp at h ⊢
  | cons a as ih =>
    cases bs with
    | nil => simp at h
    | cons b bs =>
      simp only [List.length_cons, Nat.add_right_cancel_iff] at h
      simp only [List.zip_cons_cons, List.all_cons, Bool.and_eq_true, atomEq_real, ih bs h,
        List.cons.injEq]

/-- Equality of materials over the reals: close densities, everything else except the thickness
identical. -/
theorem material_eq_iff (a b : Material ℝ) : a.eq b = true ↔
    |a.rho - b.rho| ≤ 1 / 1000000 ∧ a.atoms = b.atoms ∧ a.i_potential = b.i_potential ∧
      a.molar_mass = b.molar_mass := by
  unfold Material.eq
  simp only [Bool.and_eq_true, Bool.not_eq_true', beq_iff_eq, beq_real, Scalar.gt, lt_real_false,
    fabs_real]
  constructor
  · rintro ⟨⟨⟨⟨h1, h2⟩, h3⟩, h4⟩, h5⟩
    exact ⟨by norm_num at h1 ⊢; exact h1, (zip_all_eq _ _ h2).mp h4, h3, h5⟩
  · rintro ⟨h1, h2, h3, h4⟩
    exact ⟨⟨⟨⟨by norm_num at h1 ⊢; exact h1, by rw [h2]⟩, h3⟩, (zip_all_eq _ _ (by rw [h2])).mpr h2⟩, h4⟩

theorem foldl_layers_add {α : Type} (ms : List (Material α)) (l : Layers α) :
    ms.foldl Layers.add l = ⟨l.materials ++ ms⟩ := by
  induction ms generalizing l with
  | nil => simp
  | cons m ms ih => simp [ih, Layers.add]

theorem addLoop_other {α : Type} (src dst : List (Material α)) (cap k : Nat) (hk : k ≤ src.length) :
    Layers.addLoop false (src.length - k + 1) src dst cap ⟨k, true⟩ ⟨src.length, true⟩ =
      .ok (dst ++ src.drop k) := by
  induction h : src.length - k generalizing dst cap k with
  | zero =>
    have : k = src.length := by omega
    subst this
    simp [Layers.addLoop]
  | succ n ih =>
    have hk' : k < src.length := by omega
    unfold Layers.addLoop
    have hne : k ≠ src.length := by omega
    simp only [Bool.and_self, Bool.not_true, Bool.false_eq_true, if_false, hne,
      List.getElem?_eq_getElem hk', Bool.false_and, Bool.not_false]
    rw [ih _ _ (k + 1) (by omega) (by omega), List.append_assoc, List.singleton_append,
      List.drop_eq_getElem_cons hk']

end Catima
