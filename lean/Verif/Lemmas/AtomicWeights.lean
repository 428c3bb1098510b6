import Verif.Lemmas.Srim

/-!
# The atomic weights are positive
-/

namespace Catima

theorem weights_pos : element_atomic_weights.length = 110 ∧
    ∀ d ∈ element_atomic_weights.drop 1, 0 < d.m := by decide +kernel

theorem atomic_weight_pos (n : Int) (h0 : 1 ≤ n) (h1 : n < 110) : (0 : ℝ) < element_atomic_weight n := by
  unfold element_atomic_weight
  rw [if_pos ⟨by omega, h1⟩]
  have hl : n.toNat < element_atomic_weights.length := by rw [weights_pos.1]; omega
  rw [List.getElem?_eq_getElem hl]
  apply Dec.toScalar_pos
  apply weights_pos.2
  obtain ⟨k, hk⟩ : ∃ k : Nat, n.toNat = 1 + k := ⟨n.toNat - 1, by omega⟩
  rw [List.mem_iff_getElem]
  refine ⟨k, by rw [List.length_drop]; omega, ?_⟩
  rw [List.getElem_drop]
  congr 1
  omega

end Catima
