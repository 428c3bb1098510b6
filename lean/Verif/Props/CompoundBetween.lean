import Verif.Props.Stopping
import Verif.Props.Structures

/-!
# C38: the values of a compound lie between those of its elements
-/

namespace Catima

/-- Wherever the values of the single elements lie in an interval, the value of the compound exists and lies in it. -/
def BetweenElements (m : Material ℝ) (F : Material ℝ → M ℝ) : Prop :=
  ∀ a b, (∀ t ∈ m.atoms, ∃ v, F (m.only t) = .ok v ∧ a ≤ v ∧ v ≤ b) → ∃ v, F m = .ok v ∧ a ≤ v ∧ v ≤ b

theorem between_of_additive {m : Material ℝ} (hm : StoichBuilt m) (hne : m.ncomponents ≠ 0) (F : Material ℝ → M ℝ)
    (hF : ∀ ws vs, weightFractions m = .ok ws → (m.atoms.mapM fun t => F (m.only t)) = .ok vs → F m = .ok (List.zipWith (· * ·) ws vs).sum) :
    BetweenElements m F := by
  intro a b h
  obtain ⟨ws, h1, h2, h3⟩ := weight_fractions_sum_to_one hm hne
  have hv : ∀ l : List (Target ℝ), (∀ t ∈ l, ∃ v, F (m.only t) = .ok v ∧ a ≤ v ∧ v ≤ b) →
      ∃ vs, (l.mapM fun t => F (m.only t)) = .ok vs ∧ vs.length = l.length ∧ ∀ v ∈ vs, a ≤ v ∧ v ≤ b := by
    intro l
    induction l with
    | nil => exact fun _ => ⟨[], rfl, rfl, by simp⟩
    | cons t l ih =>
      intro h
      obtain ⟨v, k1, k2⟩ := h t (by simp)
      obtain ⟨vs, i1, i2, i3⟩ := ih fun t ht => h t (by simp [ht])
      refine ⟨v :: vs, ?_, by simp [i2], ?_⟩
      · rw [List.mapM_cons, k1, i1]; rfl
      · intro x hx
        rcases List.mem_cons.mp hx with rfl | hx
        · exact k2
        · exact i3 x hx
  obtain ⟨vs, i1, i2, i3⟩ := hv m.atoms h
  have hl : ws.length = vs.length := by
    have hw : weightFractions m = .ok (m.atoms.map m.wfrac) := mapM_rd m.atoms m.wfrac
    rw [hw] at h1
    cases h1
    rw [List.length_map, i2]
  exact ⟨_, hF ws vs h1 i1, weighted_between ws vs hl (fun w hw => (h2 w hw).le) h3 a b i3⟩

/-- C38: for a material given by stoichiometric numbers, nuclear, low-energy, Bethe and total stopping power and the energy-loss straggling lie
between the smallest and the largest value of its elements. -/
theorem compound_between {m : Material ℝ} (hm : StoichBuilt m) (hne : m.ncomponents ≠ 0) (env : Env ℝ) (p : Projectile ℝ) (c : Config ℝ) :
    BetweenElements m (dedx_n env.debug p) ∧ BetweenElements m (fun m => sezi_dedx_e p m c) ∧
    BetweenElements m (fun m => bethek_dedx_e env p m c) ∧ BetweenElements m (fun m => dedx env p m c) ∧
    BetweenElements m (fun m => domega2dx env p m c) := by
  have hA : ∀ t ∈ m.atoms, t.A ≠ 0 := fun t ht => ((stoich_inv hm).1 t ht).2.ne'
  refine ⟨between_of_additive hm hne _ fun ws vs h1 h2 => ?_, between_of_additive hm hne _ fun ws vs h1 h2 => ?_,
    between_of_additive hm hne _ fun ws vs h1 h2 => ?_, between_of_additive hm hne _ fun ws vs h1 h2 => ?_,
    between_of_additive hm hne _ fun ws vs h1 h2 => ?_⟩
  · rw [nuclear_additive _ _ _ hA, h1, h2]; rfl
  · rw [sezi_additive _ _ _ hA, h1, h2]; rfl
  · rw [bethe_additive _ _ _ _ hA, h1, h2]; rfl
  · exact stopping_additive env p m c hA ws vs h1 h2
  · rw [straggling_additive _ _ _ _ hA, h1, h2]; rfl

/-- Water; and the elements do have values: nuclear stopping of carbon ions of 1 MeV/u. -/
example : ∃ m : Material ℝ, StoichBuilt m ∧ m.ncomponents = 2 ∧ ∃ a b, ∀ t ∈ m.atoms,
    ∃ v, dedx_n false ⟨12, 6, 6, 1⟩ (m.only t) = .ok v ∧ a ≤ v ∧ v ≤ b := by
  have hb : StoichBuilt (Material.ofList [(1.008, 1, 2), (15.999, 8, 1)] 1 0 0) := by
    refine StoichBuilt.list _ _ _ (by simp) ?_
    intro e he
    simp only [List.mem_cons, List.not_mem_nil, or_false] at he
    rcases he with rfl | rfl <;> norm_num [usedMass]
  have ha : (Material.ofList [(1.008, 1, 2), (15.999, 8, 1)] 1 0 0 : Material ℝ).atoms = [⟨1.008, 1, 2⟩, ⟨15.999, 8, 1⟩] := by
    norm_num [Material.ofList, Material.add_element, Material.calculate]
  generalize (Material.ofList [(1.008, 1, 2), (15.999, 8, 1)] 1 0 0 : Material ℝ) = m at hb ha
  have hv (t : Target ℝ) (hA : 0 < t.A) (hZ : 1 ≤ t.Z) : ∃ v, dedx_n false ⟨12, 6, 6, 1⟩ (m.only t) = .ok v ∧ 0 ≤ v := by
    obtain ⟨v, h1, h2, -⟩ := nuclear_nonneg false ⟨12, 6, 6, 1⟩ (by norm_num) (by norm_num) (m.only t)
      ⟨by simp [Material.only], by simpa [Material.only] using hZ, by simpa [Material.only] using hA, by simp [Material.only],
        by simpa [Material.only] using hA⟩
    exact ⟨v, h1, h2⟩
  obtain ⟨v1, h1, k1⟩ := hv ⟨1.008, 1, 2⟩ (by norm_num) (by norm_num)
  obtain ⟨v2, h2, k2⟩ := hv ⟨15.999, 8, 1⟩ (by norm_num) (by norm_num)
  refine ⟨m, hb, by simp [Material.ncomponents, ha], 0, max v1 v2, ?_⟩
  rw [ha]
  intro t ht
  simp only [List.mem_cons, List.not_mem_nil, or_false] at ht
  rcases ht with rfl | rfl
  · exact ⟨v1, h1, k1, le_max_left _ _⟩
  · exact ⟨v2, h2, k2, le_max_right _ _⟩

end Catima
