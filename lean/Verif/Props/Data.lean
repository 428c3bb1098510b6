import Verif.Lemmas.RatScalar
import Verif.Lemmas.Run
import Verif.Lemmas.Srim
import Verif.Model.Abundance
import Verif.Model.Calculations
import Mathlib.Tactic.IntervalCases

/-!
# C70-C75: the data tables
-/

namespace Catima

/-! ## C70, C71: natural isotopes -/

/-- The entries of the isotope tables of the element `z`. -/
def isotopeList (z : Nat) : List (Nat × Dec) :=
  let lo := abundance_z_index.getD (z - 1) 0
  let hi := abundance_z_index.getD z 313
  ((isotopes_a.zip isotopes_abundance).drop lo).take (hi - lo)

/-- `get_isotope` before conversion of the decimal. -/
def isotopeDec (z i : Int) : M (Int × Dec) := do
  let num ← get_isotopes_num z
  if num = 0 ∨ i + 1 > num then return (0, ⟨0, 1⟩)
  let idx ← rd abundance_z_index (z - 1)
  let a ← rd isotopes_a (idx + i)
  let x ← rd isotopes_abundance (idx + i)
  return (a, x)

def okEq {β : Type} [DecidableEq β] (x : M β) (y : β) : Bool :=
  match x with
  | .ok v => decide (v = y)
  | .error _ => false

theorem okEq_iff {β : Type} [DecidableEq β] (x : M β) (y : β) : okEq x y = true ↔ x = .ok y := by
  cases x with
  | error _ => simp [okEq]
  | ok v => simp [okEq]

/-- Everything C70 says about one element, in a form the kernel evaluates. -/
def isotopeCheck (z : Nat) : Bool :=
  let l := isotopeList z
  okEq (get_isotopes_num z) l.length && decide (0 < l.length) &&
  (List.range l.length).all (fun i => okEq (isotopeDec z i) ((l.getD i (0, 0)).1, (l.getD i (0, 0)).2)
    && okEq (get_isotope_a z i) ((l.getD i (0, 0)).1)) &&
  decide (l.map Prod.fst).Nodup && l.all (fun x => decide (z ≤ x.1 ∧ x.1 ≤ 3 * z)) &&
  l.all (fun x => decide (0 < x.2.m)) &&
  decide ((l.map fun x => @Dec.toScalar ℚ ratScalar x.2).Pairwise fun a b => b ≤ a) &&
  decide ((l.map fun x => @Dec.toScalar ℚ ratScalar x.2).sum = 1)

theorem isotopes_checked : ∀ z : Fin 109, isotopeCheck (z.val + 1) = true := by decide +kernel

theorem get_isotope_eq (z i : Int) :
    (get_isotope z i : M (Int × ℝ)) = (isotopeDec z i).map fun x => (x.1, x.2.toScalar) := by
  unfold get_isotope isotopeDec
  cases get_isotopes_num z with
  | error e => rfl
  | ok num =>
    simp only [bind_ok]
    split
    · show (Except.ok _ : M (Int × ℝ)) = Except.ok _
      congr 2
    · cases rd abundance_z_index (z - 1) with
      | error e => rfl
      | ok idx =>
        simp only [bind_ok]
        cases rd isotopes_a (idx + i) with
        | error e => rfl
        | ok a =>
          simp only [bind_ok]
          unfold rdDec
          cases rd isotopes_abundance (idx + i) with
          | error e => rfl
          | ok x => rfl

theorem get_abundance_eq (z i : Int) (x : Int × Dec) (h : isotopeDec z i = .ok x) :
    (get_abundance z i : M ℝ) = .ok x.2.toScalar := by
  unfold get_abundance
  unfold isotopeDec at h
  rw [ok_bind] at h
  obtain ⟨num, hn, h⟩ := h
  rw [hn, bind_ok]
  by_cases hc : num = 0 ∨ i + 1 > num
  · rw [if_pos hc] at h ⊢
    cases h
    rfl
  · rw [if_neg hc] at h ⊢
    simp only [ok_bind] at h
    obtain ⟨idx, h1, a, h2, y, h3, h4⟩ := h
    cases h4
    rw [h1, bind_ok]
    unfold rdDec
    rw [h3]
    rfl

theorem cast_list_sum (l : List (Nat × Dec)) :
    (((l.map fun x => @Dec.toScalar ℚ ratScalar x.2).sum : ℚ) : ℝ) =
      (l.map fun x => (x.2.toScalar : ℝ)).sum := by
  induction l with
  | nil => simp
  | cons x l ih =>
    simp only [List.map_cons, List.sum_cons, Rat.cast_add, ih, cast_dec]

/-- C70: every element from hydrogen to meitnerium has a non-empty list of isotopes, which the lookup
functions return entry by entry; the mass numbers are distinct and plausible, the abundances positive, in
decreasing order, and they sum to exactly 1. -/
theorem isotope_tables (z : Nat) (h1 : 1 ≤ z) (h2 : z ≤ 109) : ∃ l : List (Nat × ℝ), l ≠ [] ∧
    get_isotopes_num z = .ok (l.length : Int) ∧
    (∀ (i : Nat) (hi : i < l.length), get_isotope z i = .ok ((l[i].1 : Int), l[i].2) ∧
      get_isotope_a z i = .ok (l[i].1 : Int) ∧ get_abundance z i = .ok l[i].2) ∧
    (l.map Prod.fst).Nodup ∧ (∀ x ∈ l, z ≤ x.1 ∧ x.1 ≤ 3 * z ∧ 0 < x.2) ∧
    (l.map Prod.snd).Pairwise (fun a b => b ≤ a) ∧ (l.map Prod.snd).sum = 1 := by
  have h := isotopes_checked ⟨z - 1, by omega⟩
  have e : z - 1 + 1 = z := by omega
  simp only [e] at h
  unfold isotopeCheck at h
  simp only [Bool.and_eq_true, decide_eq_true_iff, List.all_eq_true, okEq_iff, List.mem_range] at h
  obtain ⟨⟨⟨⟨⟨⟨⟨a1, a2⟩, a3⟩, a4⟩, a5⟩, a6⟩, a7⟩, a8⟩ := h
  refine ⟨(isotopeList z).map fun x => (x.1, x.2.toScalar), ?_, ?_, ?_, ?_, ?_, ?_, ?_⟩
  · intro h0
    rw [List.map_eq_nil_iff] at h0
    rw [h0] at a2
    simp at a2
  · rw [List.length_map]; exact a1
  · intro i hi
    rw [List.length_map] at hi
    obtain ⟨b1, b2⟩ := a3 i hi
    have eg : (isotopeList z).getD i (0, 0) = (isotopeList z)[i] := by
      rw [List.getD_eq_getElem?_getD, List.getElem?_eq_getElem hi]; rfl
    rw [eg] at b1 b2
    simp only [List.getElem_map]
    refine ⟨?_, b2, get_abundance_eq z i _ b1⟩
    rw [get_isotope_eq, b1]
    rfl
  · rw [List.map_map]; exact a4
  · intro x hx
    obtain ⟨y, hy, rfl⟩ := List.mem_map.mp hx
    refine ⟨(a5 y hy).1, (a5 y hy).2, Dec.toScalar_pos _ (a6 y hy)⟩
  · rw [List.map_map]
    rw [List.pairwise_map] at a7 ⊢
    refine a7.imp fun {x y} hxy => ?_
    show (y.2.toScalar : ℝ) ≤ x.2.toScalar
    rw [← cast_dec, ← cast_dec]
    exact_mod_cast hxy
  · rw [List.map_map]
    have := cast_list_sum (isotopeList z)
    rw [a8, Rat.cast_one] at this
    exact this.symm

/-- C70: the lists of all elements together are the whole table, in order: no entry is shared or
unreachable. -/
theorem isotope_partition :
    ((List.range 109).map fun k => isotopeList (k + 1)).flatten = isotopes_a.zip isotopes_abundance ∧
    isotopes_a.length = 313 ∧ isotopes_abundance.length = 313 := by decide +kernel

/-- C71: for every atomic number and every non-negative index that does not denote an isotope the
lookups return 0. -/
theorem isotope_rejected_partial (z i : Int)
    (h : z < 1 ∨ 109 < z ∨ ∀ n, get_isotopes_num z = .ok n → n ≤ i) :
    get_isotope_a z i = .ok 0 ∧ (get_abundance z i : M ℝ) = .ok 0 ∧
      (get_isotope z i : M (Int × ℝ)) = .ok (0, 0) := by
  have hd : isotopeDec z i = .ok (0, ⟨0, 1⟩) ∧ get_isotope_a z i = .ok 0 := by
    by_cases hz : z < 1 ∨ z > abundance_z_max
    · have hn : get_isotopes_num z = .ok 0 := by unfold get_isotopes_num; rw [if_pos hz]
      unfold isotopeDec get_isotope_a
      rw [hn]
      exact ⟨rfl, rfl⟩
    · unfold abundance_z_max at hz
      push Not at hz
      obtain ⟨l, -, hn, -⟩ := isotope_tables z.toNat (by omega) (by omega)
      rw [Int.toNat_of_nonneg (by omega)] at hn
      have hle : (l.length : Int) ≤ i := by
        rcases h with h | h | h
        · omega
        · omega
        · exact h _ hn
      unfold isotopeDec get_isotope_a
      rw [hn]
      simp only [bind_ok]
      have : (l.length : Int) = 0 ∨ i + 1 > l.length := .inr (by omega)
      rw [if_pos this, if_pos this]
      exact ⟨rfl, rfl⟩
  have e0 : ((⟨0, 1⟩ : Dec).toScalar : ℝ) = 0 := by
    unfold Dec.toScalar; norm_num
  refine ⟨hd.2, ?_, ?_⟩
  · rw [get_abundance_eq z i _ hd.1, e0]
  · rw [get_isotope_eq, hd.1]
    show (Except.ok ((0 : Int), ((⟨0, 1⟩ : Dec).toScalar : ℝ)) : M (Int × ℝ)) = _
    rw [e0]

/-- C71, refuted: a negative index is not rejected.  For helium it gives deuterium, an isotope of
hydrogen; for hydrogen it reads outside the table. -/
theorem isotope_negative_index :
    get_isotope_a 2 (-1) = .ok 2 ∧ get_isotope_a 1 (-1) = .error .outOfBounds := by
  decide +kernel

/-! ## C75: element data -/

theorem weights_checked : ∀ z : Fin 109,
    0 < @element_atomic_weight ℚ ratScalar (z.val + 1) := by decide +kernel
theorem densities_checked : ∀ z : Fin 98,
    0 < @element_density ℚ ratScalar (z.val + 1) := by decide +kernel

/-- C75: atomic weights. -/
theorem element_weight_range (z : Int) :
    (1 ≤ z ∧ z ≤ 109 ↔ 0 < (element_atomic_weight z : ℝ)) ∧
    (¬ (1 ≤ z ∧ z ≤ 109) → (element_atomic_weight z : ℝ) = 0) := by
  have hz : ¬ (1 ≤ z ∧ z ≤ 109) → (element_atomic_weight z : ℝ) = 0 := by
    intro h
    unfold element_atomic_weight
    rw [if_neg (by omega)]
    norm_num
  refine ⟨⟨fun h => ?_, fun h => ?_⟩, hz⟩
  · have := weights_checked ⟨(z - 1).toNat, by omega⟩
    have e : (((z - 1).toNat : ℕ) : Int) + 1 = z := by omega
    simp only [e] at this
    rw [← cast_weight]
    exact_mod_cast this
  · by_contra hc
    rw [hz hc] at h
    exact lt_irrefl _ h

/-- C75: densities. -/
theorem element_density_range (z : Int) :
    (1 ≤ z ∧ z ≤ 98 ↔ 0 < (element_density z : ℝ)) ∧
    (¬ (1 ≤ z ∧ z ≤ 98) → (element_density z : ℝ) = 0) := by
  have hz : ¬ (1 ≤ z ∧ z ≤ 98) → (element_density z : ℝ) = 0 := by
    intro h
    unfold element_density
    rw [if_neg (by omega)]
    norm_num
  refine ⟨⟨fun h => ?_, fun h => ?_⟩, hz⟩
  · have := densities_checked ⟨(z - 1).toNat, by omega⟩
    have e : (((z - 1).toNat : ℕ) : Int) + 1 = z := by omega
    simp only [e] at this
    rw [← cast_density]
    exact_mod_cast this
  · by_contra hc
    rw [hz hc] at h
    exact lt_irrefl _ h

theorem ipot_checked : ∀ z : Fin 120, 0 < @ipot ℚ ratScalar (z.val + 1) := by decide +kernel

theorem cast_ipot (z : Int) : ((@ipot ℚ ratScalar z : ℚ) : ℝ) = ipot z := by
  unfold ipot
  split
  · exact cast_sci _ _ _
  · split
    · exact cast_dec _
    · exact cast_sci _ _ _

/-- C75: mean excitation energies. -/
theorem ipot_range (z : Int) :
    (1 ≤ z ∧ z ≤ 120 ↔ 0 < (ipot z : ℝ)) ∧ (¬ (1 ≤ z ∧ z ≤ 120) → (ipot z : ℝ) = 0) := by
  have hz : ¬ (1 ≤ z ∧ z ≤ 120) → (ipot z : ℝ) = 0 := by
    intro h
    unfold ipot
    rw [if_pos (by omega)]
    norm_num
  refine ⟨⟨fun h => ?_, fun h => ?_⟩, hz⟩
  · have := ipot_checked ⟨(z - 1).toNat, by omega⟩
    have e : (((z - 1).toNat : ℕ) : Int) + 1 = z := by omega
    simp only [e] at this
    rw [← cast_ipot]
    exact_mod_cast this
  · by_contra hc
    rw [hz hc] at h
    exact lt_irrefl _ h

end Catima
