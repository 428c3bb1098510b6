import Verif.Lemmas.Bethe

/-!
# The tables of the Lindhard-Sorensen correction
-/

namespace Catima

/-- The LS tables: what the lookup returns at the knots for masses from 0 to five times the atomic
weight (-20 and 80 are the extreme values of `da/0.05`), in units of 1e-11. -/
def lsRowGood (ra rh : Nat) : Bool :=
  (List.range 200).all fun j =>
    let a := lsField ra j
    let h := lsField rh j
    decide (-650000000000 ≤ a - 20 * (h - a) ∧ -650000000000 ≤ a + 80 * (h - a) ∧
      a - 20 * (h - a) ≤ 300000000000 ∧ a + 80 * (h - a) ≤ 300000000000 ∧
      (28 ≤ j → j ≤ 148 → -222900000000 ≤ a - 20 * (h - a) ∧ -222900000000 ≤ a + 80 * (h - a)))

theorem lsTables_good : ∀ r, (hr : r < 108) →
    lsRowGood (ls_coefficients_a[r]'(by rw [ls_lengths.1]; exact hr))
      (ls_coefficients_ahi[r]'(by rw [ls_lengths.2.1]; exact hr)) = true := by
  have h : ((ls_coefficients_a.zip ls_coefficients_ahi).all fun e => lsRowGood e.1 e.2) = true := by
    decide +kernel
  intro r hr
  rw [List.all_eq_true] at h
  have hz : r < (ls_coefficients_a.zip ls_coefficients_ahi).length := by
    rw [List.length_zip, ls_lengths.1, ls_lengths.2.1]; omega
  have := h _ (List.getElem_mem hz)
  rwa [List.getElem_zip] at this

end Catima
