import Verif.Lemmas.Bethe

/-!
# Differences of neighbouring entries in the tables of the Lindhard-Sorensen correction
-/

namespace Catima

/-- Field `j` of a packed row with its offset. -/
def lsRaw (row j : Nat) : Nat := (row >>> (40 * j)) % 2 ^ 40

theorem lsRaw_field (row j : Nat) : lsField row j = (lsRaw row j : Int) - 2 ^ 39 := by
  unfold lsField lsRaw; push_cast; rfl

/-- The LS tables for masses from 0 to three times the atomic weight (-20 and 40 are the extreme values of `da/0.05`),
in units of 1e-11: bounds of the differences of neighbours. -/
def lsRowSteady (ra rh : Nat) : Bool :=
  (List.range 171).all fun k =>
    let B : Nat := if k ≤ 6 then 4840000000 else if k ≤ 119 then 9700000000 else 169400000000
    Nat.ble (21 * lsRaw ra (k + 29) + 20 * lsRaw rh (k + 28)) (B + (21 * lsRaw ra (k + 28) + 20 * lsRaw rh (k + 29))) &&
    Nat.ble (21 * lsRaw ra (k + 28) + 20 * lsRaw rh (k + 29)) (B + (21 * lsRaw ra (k + 29) + 20 * lsRaw rh (k + 28))) &&
    Nat.ble (39 * lsRaw ra (k + 28) + 40 * lsRaw rh (k + 29)) (B + (39 * lsRaw ra (k + 29) + 40 * lsRaw rh (k + 28))) &&
    Nat.ble (39 * lsRaw ra (k + 29) + 40 * lsRaw rh (k + 28)) (B + (39 * lsRaw ra (k + 28) + 40 * lsRaw rh (k + 29)))

/-- Bounds of the values; 549755813888 is `2^39`. -/
def lsRowRange (ra rh : Nat) : Bool :=
  (List.range 121).all fun k =>
    let L : Nat := if k ≤ 5 then 222000000000 else 194300000000
    Nat.ble (549755813888 + 20 * lsRaw rh (k + 28)) (L + 21 * lsRaw ra (k + 28)) &&
    Nat.ble (549755813888 + 39 * lsRaw ra (k + 28)) (L + 40 * lsRaw rh (k + 28)) &&
    (Nat.ble 16 k || (Nat.ble (21 * lsRaw ra (k + 28)) (300000000 + 549755813888 + 20 * lsRaw rh (k + 28)) &&
      Nat.ble (40 * lsRaw rh (k + 28)) (300000000 + 549755813888 + 39 * lsRaw ra (k + 28))))

theorem lsTables_steady : ∀ r, (hr : r < 108) →
    lsRowSteady (ls_coefficients_a[r]'(by rw [ls_lengths.1]; exact hr))
      (ls_coefficients_ahi[r]'(by rw [ls_lengths.2.1]; exact hr)) = true ∧
    lsRowRange (ls_coefficients_a[r]'(by rw [ls_lengths.1]; exact hr))
      (ls_coefficients_ahi[r]'(by rw [ls_lengths.2.1]; exact hr)) = true := by
  have h : ((ls_coefficients_a.zip ls_coefficients_ahi).all fun e => lsRowSteady e.1 e.2 && lsRowRange e.1 e.2) = true := by
    decide +kernel
  intro r hr
  rw [List.all_eq_true] at h
  have hz : r < (ls_coefficients_a.zip ls_coefficients_ahi).length := by
    rw [List.length_zip, ls_lengths.1, ls_lengths.2.1]; omega
  have := h _ (List.getElem_mem hz)
  rw [List.getElem_zip, Bool.and_eq_true] at this
  exact this

theorem lsRow_steady {ra rh : Nat} (h : lsRowSteady ra rh = true) (j : Nat) (h1 : 28 ≤ j) (h2 : j < 199) :
    ∃ B : Int, (B = if j ≤ 34 then 4840000000 else if j ≤ 147 then 9700000000 else 169400000000) ∧
    -B ≤ lsField ra (j + 1) - lsField ra j - 20 * (lsField rh (j + 1) - lsField ra (j + 1) - (lsField rh j - lsField ra j)) ∧
    lsField ra (j + 1) - lsField ra j - 20 * (lsField rh (j + 1) - lsField ra (j + 1) - (lsField rh j - lsField ra j)) ≤ B ∧
    -B ≤ lsField ra (j + 1) - lsField ra j + 40 * (lsField rh (j + 1) - lsField ra (j + 1) - (lsField rh j - lsField ra j)) ∧
    lsField ra (j + 1) - lsField ra j + 40 * (lsField rh (j + 1) - lsField ra (j + 1) - (lsField rh j - lsField ra j)) ≤ B := by
  unfold lsRowSteady at h
  rw [List.all_eq_true] at h
  have h := h (j - 28) (List.mem_range.mpr (by omega))
  simp only [Bool.and_eq_true, Nat.ble_eq, show j - 28 + 28 = j by omega, show j - 28 + 29 = j + 1 by omega] at h
  refine ⟨_, rfl, ?_⟩
  simp only [lsRaw_field]
  generalize lsRaw ra j = a at *
  generalize lsRaw rh j = b at *
  generalize lsRaw ra (j + 1) = a' at *
  generalize lsRaw rh (j + 1) = b' at *
  have e1 : (j - 28 ≤ 6 ↔ j ≤ 34) ∧ (j - 28 ≤ 119 ↔ j ≤ 147) := by omega
  simp only [e1.1, e1.2] at h
  split_ifs at h ⊢ <;> omega

theorem lsRow_range {ra rh : Nat} (h : lsRowRange ra rh = true) (j : Nat) (h1 : 28 ≤ j) (h2 : j ≤ 148) :
    -222000000000 ≤ lsField ra j - 20 * (lsField rh j - lsField ra j) ∧ -222000000000 ≤ lsField ra j + 40 * (lsField rh j - lsField ra j) ∧
    (34 ≤ j → -194300000000 ≤ lsField ra j - 20 * (lsField rh j - lsField ra j) ∧
      -194300000000 ≤ lsField ra j + 40 * (lsField rh j - lsField ra j)) ∧
    (j ≤ 43 → lsField ra j - 20 * (lsField rh j - lsField ra j) ≤ 300000000 ∧ lsField ra j + 40 * (lsField rh j - lsField ra j) ≤ 300000000) := by
  unfold lsRowRange at h
  rw [List.all_eq_true] at h
  have h := h (j - 28) (List.mem_range.mpr (by omega))
  simp only [Bool.and_eq_true, Bool.or_eq_true, Nat.ble_eq, show j - 28 + 28 = j by omega] at h
  simp only [lsRaw_field]
  generalize lsRaw ra j = a at *
  generalize lsRaw rh j = b at *
  have e1 : (j - 28 ≤ 5 ↔ j ≤ 33) := by omega
  simp only [e1] at h
  split_ifs at h ⊢ <;> omega

end Catima
