import Verif.Props.CalculatorJson
import Verif.Props.LayerEnergies

/-!
# C118: for usual ions and materials the calculator prints its table, and in it ions lose energy
-/

namespace Catima

theorem calcLoop_runs (env : Env ℝ) (hdbg : env.debug = false) (hj : SmallJunk env.junk) (p : Projectile ℝ) (n : Int) (l : Layers ℝ)
    (c : Config ℝ) (hA : p.A ≠ 0) (h : ∀ m ∈ l.materials, UsualIon p n m .default ∧ 1e-5 ≤ m.th) (es : List ℝ)
    (he : ∀ e ∈ es, 0 ≤ e ∧ e + 2e-13 * l.materials.length ≤ 9.9e6) (w : World ℝ) (hw : Started env w) :
    ∃ rs w', calcLoop env p l c es w = .ok (rs, w') ∧
      ∀ x ∈ rs, x.2.results.length = l.materials.length ∧ Slowing x.1 x.2.results := by
  induction es generalizing w with
  | nil => exact ⟨[], w, rfl, by simp⟩
  | cons e es ih =>
    have hcfg : w.default_config = .default := by
      have : w.fresh.default_config = .default := by rw [hw.1]; rfl
      exact this
    obtain ⟨e0, e1⟩ := he e (by simp)
    have hr : ReachableW env w := by
      obtain ⟨-, cs, -, h⟩ := hw
      exact ⟨cs, h⟩
    obtain ⟨mr, w1, h1, h2, h3, -⟩ := layers_slow_down env hdbg hj w hr (p.withT e) n .init l .default
      (fun m hm => ⟨(h m hm).1.withT e, hcfg ▸ ((h m hm).1.withT e).computable, nonDefault_of_mass _ hA _ _,
        fun h => absurd h (by decide), (h m hm).2⟩) e0 e1
    obtain ⟨rs, w2, h4, h5⟩ := ih (fun x hx => he x (by simp [hx])) w1 (started_call env w w1 hw _ _ _ h1)
    refine ⟨(e, mr) :: rs, w2, ?_, ?_⟩
    · unfold calcLoop
      refine api_bind.mpr ⟨_, _, rfl, api_bind.mpr ⟨_, _, ?_, api_bind.mpr ⟨_, _, h4, rfl⟩⟩⟩
      rw [hcfg]
      exact h1
    · intro x hx
      rcases List.mem_cons.mp hx with rfl | hx
      · exact ⟨h2, h3⟩
      · exact h5 x hx

/-- C118: for a document as described with an ion from hydrogen to uranium and layers of usual materials, in builds without
assertions and with at most 0.02 in the uninitialised cells, the calculator prints the results; for each energy there is one
result for each layer, and the energy never increases from layer to layer. -/
theorem documented_input_computed (env : Env ℝ) (hdbg : env.debug = false) (hj : SmallJunk env.junk) (stod : String → Option ℝ) (j : Json ℝ)
    (A Z : ℝ) (n : Int) (es : List ℝ) (ms : List (Material ℝ)) (h : Documented stod j A Z es ms) (hm : ms ≠ []) (he : es ≠ [])
    (hs : ∀ l v, j = .obj l → HasEntry l "energy" v → NotShort v es)
    (hu : ∀ m ∈ ms, UsualIon ⟨A, Z, 0, 0⟩ n m .default ∧ 1e-5 ≤ m.th) (hE : ∀ e ∈ es, 0 ≤ e ∧ e + 2e-13 * ms.length ≤ 9.9e6) :
    ∃ rs w', calculatorFile env stod (.parsed j) .init = .ok (.results A Z (ms.map fun m => (m.rho, m.th)) rs 1, w') ∧
      rs.map Prod.fst = es ∧ ∀ x ∈ rs, x.2.results.length = ms.length ∧ Slowing x.1 x.2.results := by
  have hA : A ≠ 0 := by
    obtain ⟨m, hm⟩ := List.exists_mem_of_ne_nil ms hm
    exact (hu m hm).1.computable.ion.A.ne'
  obtain ⟨hy, hres⟩ := documented_input_partial env stod j A Z es ms h hA hm he hs
  obtain ⟨rs, w', hr, hx⟩ := calcLoop_runs env hdbg hj ⟨A, Z, 0, 0⟩ n ⟨ms⟩ (jsonConfig j) hA hu es hE .init ⟨rfl, [], by simp, rfl⟩
  have hrun : calculatorFile env stod (.parsed j) .init = .ok (.results A Z (ms.map fun m => (m.rho, m.th)) rs 1, w') := by
    unfold calculatorFile
    refine api_bind.mpr ⟨some (⟨A, Z, 0, 0⟩, es, ms), .init, api_pureM.mpr ⟨hy, rfl⟩, ?_⟩
    dsimp only
    rw [if_neg (by simpa using hm), if_neg (by simpa using he)]
    exact api_bind.mpr ⟨_, _, hr, rfl⟩
  obtain ⟨rs', h1, h2, -⟩ := hres _ _ hrun
  cases h1
  exact ⟨rs, w', hrun, h2, hx⟩

/-- The example of the documentation: carbon ions of 100, 200, ..., 1000 MeV/u in 1 g/cm² of carbon. -/
example (env : Env ℝ) (hdbg : env.debug = false) (hj : SmallJunk env.junk) (stod : String → Option ℝ) : ∃ rs w',
    calculatorFile env stod (.parsed docExample) .init = .ok (.results 11.99671 6 [(2.0, 1.0)] rs 1, w') ∧ rs.length = 10 ∧
      ∀ x ∈ rs, x.2.results.length = 1 := by
  obtain ⟨hd, hs⟩ := docExample_documented stod
  have hatoms : (Material.ofElement (12 : ℝ) 6 2.0 1.0).atoms = [⟨12, 6, 1⟩] := by
    unfold Material.ofElement Material.add_element
    have e : (if ((12 : ℝ) >? 0.0) = true then (12 : ℝ) else element_atomic_weight 6) = 12 := by
      rw [if_pos]
      show Scalar.lt (0.0 : ℝ) 12 = true
      rw [lt_real]; norm_num
    rw [e]
    show [] ++ _ = _
    norm_num
  have hmass : (Material.ofElement (12 : ℝ) 6 2.0 1.0).molar_mass = 12 := by
    unfold Material.ofElement Material.add_element
    have e : (if ((12 : ℝ) >? 0.0) = true then (12 : ℝ) else element_atomic_weight 6) = 12 := by
      rw [if_pos]
      show Scalar.lt (0.0 : ℝ) 12 = true
      rw [lt_real]; norm_num
    rw [e]
    show (0.0 : ℝ) + 1.0 * 12 = _
    norm_num
  have hw : (element_atomic_weight 6 : ℝ) = 12.0107 := by
    have : (element_atomic_weight 6 : ℝ) = (Dec.toScalar ⟨120107, 4⟩ : ℝ) := rfl
    rw [this, Dec.toScalar_real]; norm_num
  have hC : Computable (⟨11.99671, 6, 0, 0⟩ : Projectile ℝ) 6 { Material.ofElement 12 6 2.0 1.0 with i_potential := 0 } .default :=
    { ion := ⟨by norm_num, by norm_num, by norm_num, by norm_num⟩
      small := by norm_num
      sound := by
        refine ⟨?_, ?_, ?_, ?_, ?_⟩ <;> simp [hatoms, hmass]
      known := by simp [hatoms]
      charge := .inl rfl }
  obtain ⟨rs, w', h1, h2, h3⟩ := documented_input_computed env hdbg hj stod docExample 11.99671 6 6 _ _ hd (by simp) (by simp) hs
    (by
      intro m hm
      rw [List.mem_singleton] at hm
      subst hm
      refine ⟨.inr (.inr ⟨hC, by norm_num, by norm_num, by norm_num, by rw [hw]; norm_num, rfl, ?_, by norm_num, ?_, by norm_num, by norm_num, ?_⟩), ?_⟩
      · simp [hatoms, TypicalI]
      · simp [hatoms]
      · simp [hatoms]
      · show (1e-5 : ℝ) ≤ 1.0
        norm_num)
    (by
      intro e he
      simp only [List.mem_map, List.mem_range] at he
      obtain ⟨i, hi, rfl⟩ := he
      have : (i : ℝ) < 10 := by exact_mod_cast hi
      have : (0 : ℝ) ≤ i := Nat.cast_nonneg _
      constructor
      · positivity
      · push_cast
        norm_num
        linarith)
  refine ⟨rs, w', h1, ?_, fun x hx => (h3 x hx).1⟩
  have := congrArg List.length h2
  simpa using this

end Catima
