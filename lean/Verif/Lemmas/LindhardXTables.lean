import Verif.Lemmas.Bethe

/-!
# The tables of the X correction
-/

namespace Catima

/-- The X tables below 100 GeV/u: what the lookup returns at the knots is positive for masses from
0 to three times the atomic weight (20 and 40 are the extreme values of `da/0.05`), and neighbouring
entries are of comparable size. -/
def xRowGood (ra rh : Nat) : Bool :=
  (List.range 143).all fun j =>
    let a := lsField ra j
    let h := lsField rh j
    let a' := lsField ra (j + 1)
    let h' := lsField rh (j + 1)
    decide (0 < a - 20 * (h - a) ∧ 0 < a + 40 * (h - a) ∧
      0 < a' - 20 * (h' - a') ∧ 0 < a' + 40 * (h' - a') ∧
      a' - 20 * (h' - a') ≤ 10 ^ 12 * (a - 20 * (h - a)) ∧
      a' + 40 * (h' - a') ≤ 10 ^ 12 * (a + 40 * (h - a)))

theorem xTables_good : ∀ r, (hr : r < 108) →
    xRowGood (ls_X_coefficients_a[r]'(by rw [ls_lengths.2.2.1]; exact hr))
      (ls_X_coefficients_ahi[r]'(by rw [ls_lengths.2.2.2]; exact hr)) = true := by
  have h : ((ls_X_coefficients_a.zip ls_X_coefficients_ahi).all fun e => xRowGood e.1 e.2) = true := by
    decide +kernel
  intro r hr
  rw [List.all_eq_true] at h
  have hz : r < (ls_X_coefficients_a.zip ls_X_coefficients_ahi).length := by
    rw [List.length_zip, ls_lengths.2.2.1, ls_lengths.2.2.2]; omega
  have := h _ (List.getElem_mem hz)
  rwa [List.getElem_zip] at this

/-- The entries of both tables are non-negative. -/
theorem xTables_nonneg : ∀ r, (hr : r < 108) → ∀ j < 200,
    0 ≤ lsField (ls_X_coefficients_a[r]'(by rw [ls_lengths.2.2.1]; exact hr)) j ∧
    0 ≤ lsField (ls_X_coefficients_ahi[r]'(by rw [ls_lengths.2.2.2]; exact hr)) j := by
  have h : ((ls_X_coefficients_a.zip ls_X_coefficients_ahi).all fun e =>
      (List.range 200).all fun j => decide (0 ≤ lsField e.1 j ∧ 0 ≤ lsField e.2 j)) = true := by
    decide +kernel
  intro r hr j hj
  rw [List.all_eq_true] at h
  have hz : r < (ls_X_coefficients_a.zip ls_X_coefficients_ahi).length := by
    rw [List.length_zip, ls_lengths.2.2.1, ls_lengths.2.2.2]; omega
  have := h _ (List.getElem_mem hz)
  rw [List.getElem_zip, List.all_eq_true] at this
  simpa using this j (List.mem_range.mpr hj)

end Catima
