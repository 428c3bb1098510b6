import Verif.Lemmas.Straggling
import Verif.Props.Materials
import Verif.Lemmas.View

/-!
# C76-C78: the C interface
-/

namespace Catima

/-! ## C78 -/

/-- C78: `make_material` builds the compound with that identifier for `tz > 200` and otherwise a single
element with the given mass (the natural one if `ta ≤ 0`); with the given thickness, and the given
density if it is positive, else that of the database. -/
theorem make_material_cases (ta tz th rho : ℝ) (z : Int) (hz : castInt tz = .ok z) :
    ∃ m, make_material ta tz th rho = .ok m ∧ m.th = th ∧
      m.rho = (if 0 < rho then rho else (get_material z : Material ℝ).rho) ∧
      (200 < tz → m.atoms = (get_material z : Material ℝ).atoms ∧
        m.molar_mass = (get_material z : Material ℝ).molar_mass ∧
        m.i_potential = (get_material z : Material ℝ).i_potential) ∧
      (tz ≤ 200 → ∃ A, A = (if 0 < ta then ta else element_atomic_weight z) ∧
        m.atoms = [⟨A, z, 1⟩] ∧ m.molar_mass = A ∧ m.i_potential = 0) := by
  unfold make_material
  rw [hz, bind_ok]
  dsimp only
  have hel : (Material.default.add_element ta z 1.0 : Material ℝ).atoms =
      [⟨if 0 < ta then ta else element_atomic_weight z, z, 1⟩] ∧
      (Material.default.add_element ta z 1.0 : Material ℝ).molar_mass =
        (if 0 < ta then ta else element_atomic_weight z) ∧
      (Material.default.add_element ta z 1.0 : Material ℝ).i_potential = 0 := by
    have e : (if (ta >? 0.0) = true then ta else element_atomic_weight z) =
        if 0 < ta then ta else element_atomic_weight z := by
      have : (ta >? 0.0) = true ↔ 0 < ta := by
        show Scalar.lt (0.0 : ℝ) ta = true ↔ _
        rw [lt_real]; norm_num
      simp only [this]
    unfold Material.add_element
    rw [e]
    refine ⟨?_, ?_, ?_⟩
    · show [] ++ _ = _
      norm_num
    · show (0.0 : ℝ) + 1.0 * _ = _
      norm_num
    · show (0.0 : ℝ) = 0
      norm_num
  have h200 : (tz >? 200.0) = true ↔ 200 < tz := by
    show Scalar.lt (200.0 : ℝ) tz = true ↔ _
    rw [lt_real]; norm_num
  have hrho : (rho ≤? 0.0) = true ↔ ¬ 0 < rho := by
    rw [le_real, not_lt]; norm_num
  simp only [h200, hrho]
  by_cases h1 : 0 < rho <;> by_cases h2 : 200 < tz
  all_goals
    simp only [h1, h2, not_true_eq_false, not_false_eq_true, if_true, if_false]
    refine ⟨_, rfl, rfl, rfl, fun h => ?_, fun h => ?_⟩
  · exact ⟨rfl, rfl, rfl⟩
  · exact absurd h2 (not_lt.mpr h)
  · exact h.elim
  · exact ⟨_, rfl, hel⟩
  · exact ⟨rfl, rfl, rfl⟩
  · exact absurd h2 (not_lt.mpr h)
  · exact h.elim
  · exact ⟨_, rfl, hel⟩

/-- C78 for copper and for water (compound 206). -/
example : castInt (29 : ℝ) = .ok 29 ∧ castInt (206 : ℝ) = .ok 206 :=
  ⟨by exact_mod_cast castInt_real 29 (by norm_num) (by norm_num),
   by exact_mod_cast castInt_real 206 (by norm_num) (by norm_num)⟩

/-! ## C76 -/

/-- The material that the C functions without thickness and density use for copper. -/
theorem copper_material : ∃ m : Material ℝ, make_material 0 29 0.0 (-1.0) = .ok m ∧
    m.atoms = [⟨element_atomic_weight 29, 29, 1⟩] ∧ m.molar_mass = element_atomic_weight 29 ∧
    0 < (element_atomic_weight 29 : ℝ) := by
  obtain ⟨m, h1, -, -, -, h2⟩ := make_material_cases 0 29 0.0 (-1.0) 29
    (by exact_mod_cast castInt_real 29 (by norm_num) (by norm_num))
  obtain ⟨A, hA, h3, h4, -⟩ := h2 (by norm_num)
  rw [if_neg (lt_irrefl _)] at hA
  subst hA
  exact ⟨m, h1, h3, h4, atomic_weight_pos 29 (by norm_num) (by norm_num)⟩

theorem copper_computable (m : Material ℝ) (ha : m.atoms = [⟨element_atomic_weight 29, 29, 1⟩])
    (hM : m.molar_mass = element_atomic_weight 29) (hw : 0 < (element_atomic_weight 29 : ℝ))
    (T : ℝ) (c : Config ℝ) (hc : c.z_effective = 1 ∨ c.z_effective = 0) :
    Computable ⟨1.00794, 1, 1, T⟩ 1 m c where
  ion := ⟨by norm_num, by norm_num, by norm_num, by norm_num⟩
  small := by norm_num
  sound := by
    constructor
    · rw [ha]; simp
    · rw [ha]; simp
    · rw [ha]; simpa using hw
    · rw [ha]; simp
    · rw [hM]; exact hw
  known := by rw [ha]; simp
  charge := hc.imp id fun h => ⟨h, by norm_num⟩

theorem proton_nonDefault (T : ℝ) (m : Material ℝ) (c : Config ℝ) :
    NonDefault (⟨1.00794, 1, 1, T⟩ : Projectile ℝ) m c := by
  unfold NonDefault Key.eq Projectile.eq
  have : Scalar.beq (0.0 : ℝ) 1.00794 = false := by rw [beq_real_false]; norm_num
  have e : (Key.default : Key ℝ).p.A = 0.0 := rfl
  rw [e]
  dsimp only
  rw [this]
  rfl

/-- The range table starts with 0 and a positive entry. -/
theorem range_first_entries (env : Env ℝ) (p : Projectile ℝ) (n : Int) (m : Material ℝ) (c : Config ℝ)
    (h : Computable p n m c) (d : DataPoint ℝ) (hd : calculate_DataPoint env p m c = .ok d) :
    d.range[0]? = some 0 ∧ ∃ v, d.range[1]? = some v ∧ 0 < v := by
  have hb := energy_table_bounds
  have ord : ∀ k, (energy_table : EnergyTable ℝ).val k < (energy_table : EnergyTable ℝ).val (k + 1) :=
    fun k => (EnergyTable.val_lt_iff _ hb.1 hb.2.1 k (k + 1)).mpr (by omega)
  have hdef : ∀ k < 599, ∃ I, integrator.integrate (fdedx env p m c) ((energy_table : EnergyTable ℝ).val k)
      ((energy_table : EnergyTable ℝ).val (k + 1)) = .ok I := fun k hk =>
    integrator_defined _ _ _ (ord k).le fun x hx => by
      obtain ⟨-, -, -, -, h0, hr⟩ := inner_grid k hk x hx
      obtain ⟨v, hv⟩ := h.dedx env x h0 hr
      unfold fdedx
      rw [hv]
      exact ⟨_, rfl⟩
  choose! I hI using hdef
  obtain ⟨J, hJ, hJ0⟩ := integrator_pos (fdedx env p m c) _ _ (ord 0) fun x hx => by
    obtain ⟨-, h9, -, -, h0, -⟩ := inner_grid 0 (by norm_num) x hx
    norm_num at h9
    obtain ⟨s, hs, hs0⟩ := stopping_positive_low env (p.withT x) n (withT_ion h.ion x) m h.sound c h0
      (by show x ≤ 10; linarith [energy_val_one])
    unfold fdedx
    rw [hs]
    exact ⟨_, rfl, div_pos (by norm_num) hs0⟩
  rw [hI 0 (by norm_num)] at hJ
  cases hJ
  obtain ⟨-, hz, hst⟩ := table_step p.A _ _ (data_point_parts env p m c d hd).1 I hI
  obtain ⟨a, b, ha, hb', hab⟩ := hst 0 (by norm_num)
  refine ⟨hz, b, hb', ?_⟩
  rw [hz] at ha
  have := Option.some.inj ha
  have := mul_pos h.ion.A hJ0
  linarith

/-- An interpolator of the library takes the values of its table at the energies of the table. -/
theorem library_knot (env : Env ℝ) (y : List ℝ) (hy : y.length = 600) (i : Nat) (hi : i < 600) (v : ℝ)
    (hv : y[i]? = some v) : ∃ s, newSpline env y = .ok s ∧
      s.evaluate ((energy_table : EnergyTable ℝ).val i) = .ok v := by
  obtain ⟨s, hs, hk⟩ := spline_knots env.junk _ _ (library_table_ordered env.calcIndex) y hy
  refine ⟨s, hs, ?_⟩
  have := hk i hi
  rw [List.getElem?_eq_getElem (by omega)] at hv
  rw [Option.some.inj hv] at this
  exact this

/-- What `range` answers at an energy of the table. -/
theorem range_at_knot (env : Env ℝ) (w : World ℝ) (hr : ReachableW env w) (p : Projectile ℝ) (n : Int)
    (t : Material ℝ) (c : Config ℝ) (h : Computable p n t c) (hk : NonDefault p t c) (i : Nat)
    (hi : i < 600) (hT : p.T = (energy_table : EnergyTable ℝ).val i) :
    ∃ d v, calculate_DataPoint env p t c = .ok d ∧ d.range[i]? = some v ∧
      (Call.range p t c).respond env w = .ok (.num v) := by
  obtain ⟨d, w', d0, hg, -, -, hd0, hs, -, hl, -⟩ := get_view env w hr p n t c h hk
  obtain ⟨s, hs1, hs2⟩ := library_knot env d0.range hl i hi (d0.range[i]'(by omega))
    (List.getElem?_eq_getElem (by omega))
  refine ⟨d0, _, hd0, List.getElem?_eq_getElem (by omega), ?_⟩
  unfold Call.respond
  have : (Call.range p t c).run env w = .ok (.num (d0.range[i]'(by omega)), w') := by
    show (do return Response.num (← Catima.range env p t c) : Api ℝ (Response ℝ)) w = _
    rw [api_bind]
    refine ⟨_, _, ?_, rfl⟩
    unfold Catima.range
    rw [api_bind]
    refine ⟨_, _, hg, ?_⟩
    rw [api_pureM]
    refine ⟨?_, rfl⟩
    rw [hs, hs1, bind_ok, hT]
    exact hs2
  rw [this]
  rfl

/-- C76, what is computed: the result of `catima_range` does not depend on the energy. -/
theorem catima_range_constant (env : Env ℝ) (w : World ℝ) (pa : ℝ) (pz : Int) (T T' ta tz : ℝ) :
    (Call.c_range pa pz T ta tz).respond env w = (Call.c_range pa pz T' ta tz).respond env w := rfl

/-- C76, refuted: for protons in copper, `catima_range(1.00794, 1, T, 0, 29)` is not the range of a
proton of energy `T`, for some `T`. -/
theorem catima_range_wrong (env : Env ℝ) : ∃ m : Material ℝ, make_material 0 29 0.0 (-1.0) = .ok m ∧
    ¬ ∀ T, 0 < T → (Call.c_range 1.00794 1 T 0 29).respond env .init =
      (Call.range ⟨1.00794, 1, 1, T⟩ m .default).respond env .init := by
  obtain ⟨m, hm, ha, hM, hw⟩ := copper_material
  refine ⟨m, hm, fun hall => ?_⟩
  have hb := energy_table_bounds
  have hpos : ∀ i, 0 < (energy_table : EnergyTable ℝ).val i := fun i => by
    rw [EnergyTable.val_eq]; exact Real.exp_pos _
  have hC := fun T => copper_computable m ha hM hw T .default (.inl rfl)
  obtain ⟨d, v, hd, hv, hr⟩ := range_at_knot env .init ⟨[], rfl⟩ _ 1 m .default
    (hC ((energy_table : EnergyTable ℝ).val 0)) (proton_nonDefault _ m _) 0 (by norm_num) rfl
  obtain ⟨d', v', hd', hv', hr'⟩ := range_at_knot env .init ⟨[], rfl⟩ _ 1 m .default
    (hC ((energy_table : EnergyTable ℝ).val 1)) (proton_nonDefault _ m _) 1 (by norm_num) rfl
  have h0 := hall _ (hpos 0)
  have h1 := hall _ (hpos 1)
  rw [catima_range_constant env .init 1.00794 1 _ ((energy_table : EnergyTable ℝ).val 0), h0, hr, hr'] at h1
  obtain ⟨e0, -⟩ := range_first_entries env _ 1 m _ (hC _) d hd
  obtain ⟨-, u, e1, hu⟩ := range_first_entries env _ 1 m _ (hC _) d' hd'
  rw [hv] at e0
  rw [hv'] at e1
  cases Option.some.inj e0
  cases Option.some.inj e1
  have := Response.num.inj (Except.ok.inj h1)
  linarith

/-! ## C77 -/

section
variable {α : Type} [Scalar α]

/-- The functions of `cwrapper.h` and assignments to `catima_defaults`. -/
def Call.isC : Call α → Prop
  | .c_calculate .. | .c_Eout .. | .c_range .. | .c_range_straggling ..
  | .c_angular_straggling_from_E .. | .c_energy_straggling_from_E .. | .c_nonreaction_rate ..
  | .set_c_defaults _ => True
  | _ => False

/-- The functions that take over `catima_defaults`. -/
def Call.setsDefaults : Call α → Prop
  | .c_calculate .. | .c_Eout .. | .c_range .. | .c_range_straggling .. => True
  | _ => False

theorem isC_within (call : Call α) (h : call.isC) (F : α → Prop) :
    call.Within (fun _ _ _ => True) F := by
  cases call <;> first | exact h.elim | simp [Call.Within]

/-- During a program that uses only the C interface, the default configuration keeps its initial values
except for the effective charge. -/
theorem c_history_config (env : Env α) (cs : List (Call α)) (hcs : ∀ c ∈ cs, c.isC) (w : World α)
    (hr : runCalls env cs .init = .ok w) :
    w.default_config = { (Config.default : Config α) with z_effective := w.default_config.z_effective } := by
  refine runCalls_preserves env Call.isC (fun w => w.default_config =
    { (Config.default : Config α) with z_effective := w.default_config.z_effective }) ?_ cs _ _ hcs rfl hr
  intro call w r hq hP hrun
  refine call_preserves env (fun _ => True) (fun w => w.default_config =
    { (Config.default : Config α) with z_effective := w.default_config.z_effective }) (fun _ _ => trivial)
    (fun _ _ _ _ _ h _ _ => h) (fun _ _ _ _ _ h _ _ => h) (fun _ h => h) call ?_ ?_ ?_
    (fun _ _ _ h => h) (isC_within call hq _) w hP r hrun
  · rintro w c rfl
    exact hq.elim
  · intro w h
    unfold setDefaults
    dsimp only
    rw [h]
    rfl
  · intro w h
    unfold setScattering
    dsimp only
    rw [h]
    rfl

/-- C77, the part that holds: in a program that uses only the C interface, `catima_calculate`,
`catima_Eout`, `catima_range` and `catima_range_straggling` answer, after any history, as in a fresh
process with the same `catima_defaults`.  Missing: the other functions and C++ calls, see
`c_wrapper_leaks` and `c_straggling_config`. -/
theorem c_calls_independent_partial (hl : EqLaws α) (env : Env α) (cs : List (Call α))
    (hcs : ∀ c ∈ cs, c.isC) (w : World α) (hr : runCalls env cs .init = .ok w) (call : Call α)
    (hs : call.setsDefaults) (hk : call.Within NonDefault (fun f => f = 1.0)) :
    call.respond env w =
      call.respond env { (World.init : World α) with c_defaults_z_effective := w.c_defaults_z_effective } := by
  have ht := angular_transparent_partial hl env (fun f => f = 1.0) rfl (fun a b ha hb _ => ha.trans hb.symm)
    cs w (fun c hc => isC_within c (hcs c hc) _) hr call hk
  have hcfg := c_history_config env cs hcs w hr
  have hfresh : call.respond env w.fresh = call.respond env
      { (World.init : World α) with c_defaults_z_effective := w.c_defaults_z_effective } := by
    have hset : setDefaults w.fresh = setDefaults
        { (World.init : World α) with c_defaults_z_effective := w.c_defaults_z_effective } := by
      unfold setDefaults World.fresh
      dsimp only
      rw [hcfg]
      rfl
    unfold Call.respond
    refine congrArg _ ?_
    have gen : ∀ {β : Type} (f : Unit → Api α β) (k : β → Response α),
        (do return k (← (modify setDefaults >>= f)) : Api α (Response α)) w.fresh =
        (do return k (← (modify setDefaults >>= f)) : Api α (Response α))
        { (World.init : World α) with c_defaults_z_effective := w.c_defaults_z_effective } := by
      intro β f k
      show (f () (setDefaults w.fresh) >>= fun r => _) = (f () (setDefaults _) >>= fun r => _)
      rw [hset]
    cases call <;> first | exact hs.elim | exact gen _ _
  rw [← hfresh]
  cases h1 : call.respond env w <;> cases h2 : call.respond env w.fresh <;> rw [h1, h2] at ht
  · exact congrArg Except.error ht
  · exact ht.elim
  · exact ht.elim
  · rename_i r r'
    refine congrArg Except.ok ?_
    have shape : ∀ (w : World α) (r : Response α), call.respond env w = .ok r →
        (∃ x, r = .num x) ∨ ∃ x, r = .result x := by
      intro w r h
      unfold Call.respond at h
      cases hrun : call.run env w with
      | error e => rw [hrun] at h; cases h
      | ok q =>
        rw [hrun] at h
        cases h
        have ex : ∀ {β : Type} (f : Api α β) (g : β → Response α) (q : Response α × World α),
            (do return g (← f) : Api α (Response α)) w = .ok q → ∃ x, q.1 = g x := by
          intro β f g q h
          obtain ⟨x, w1, -, h2⟩ := api_bind.mp h
          have := (Except.ok.inj h2)
          exact ⟨x, congrArg Prod.fst this.symm⟩
        cases call <;> first | exact hs.elim | skip
        · exact .inr (ex _ _ q hrun)
        · exact .inl (ex _ _ q hrun)
        · exact .inl (ex _ _ q hrun)
        · exact .inl (ex _ _ q hrun)
    rcases shape w r h1 with ⟨x, rfl⟩ | ⟨x, rfl⟩ <;> rcases shape w.fresh r' h2 with ⟨y, rfl⟩ | ⟨y, rfl⟩
    · exact congrArg Response.num ht
    · exact ht.elim
    · exact ht.elim
    · exact congrArg Response.result (ht.2 trivial)

/-- C77: `catima_energy_straggling_from_E` and `catima_angular_straggling_from_E` use whatever effective
charge is in the default configuration, that is the one of `catima_defaults` at the time of the last
call of one of the four functions above (or of the last C++ assignment), not the present one. -/
theorem c_straggling_config (env : Env α) (pa : α) (pz : Int) (Tin Tout ta tz : α) (m : Material α)
    (hm : make_material ta tz 0.0 (-1.0) = .ok m) (w : World α) :
    (Call.c_energy_straggling_from_E pa pz Tin Tout ta tz).respond env w =
      (Call.energy_straggling_from_E (.new pa (ofInt pz)) Tin Tout m
        { w.default_config with scattering := 255 }).respond env (setScattering w) := by
  unfold Call.respond
  refine congrArg _ ?_
  show (do return Response.num (← catima_energy_straggling_from_E env pa pz Tin Tout ta tz) :
    Api α (Response α)) w = _
  unfold catima_energy_straggling_from_E
  rw [hm]
  rfl

end

/-- A history that is possible: `catima_defaults` is set and ranges of protons in copper are asked for. -/
theorem c_range_runs (env : Env ℝ) (w : World ℝ) (hr : ReachableW env w) (T : ℝ)
    (hz : w.c_defaults_z_effective = 1 ∨ w.c_defaults_z_effective = 0) :
    ∃ v w', (Call.c_range 1.00794 1 T 0 29).run env w = .ok (.num v, w') ∧
      w'.default_config = (setDefaults w).default_config := by
  obtain ⟨m, hm, ha, hM, hw⟩ := copper_material
  have hr' : ReachableW env (setDefaults w) := by
    refine reachableW_call hr (.set_default_config (setDefaults w).default_config) (r := .unit) ?_
    rfl
  obtain ⟨d, w', d0, hg, -, hc', hd0, hs, -, hl, -⟩ := get_view env (setDefaults w) hr' ⟨1.00794, 1, 1, 0⟩ 1 m
    (setDefaults w).default_config (copper_computable m ha hM hw 0 _ hz) (proton_nonDefault _ m _)
  obtain ⟨s, hs1, ht⟩ := spline_total env.junk _ _ (library_table_ordered env.calcIndex) d0.range hl
  obtain ⟨v, hv⟩ := (ht 0).1
  refine ⟨v, w', ?_, hc'⟩
  show (do return Response.num (← catima_range env 1.00794 1 T 0 29) : Api ℝ (Response ℝ)) w = _
  rw [api_bind]
  refine ⟨_, _, ?_, rfl⟩
  unfold catima_range
  rw [hm]
  show (do
    let data ← get_data env (Projectile.new 1.00794 (ofInt 1)) m (setDefaults w).default_config
    pureM do (← get_range_spline env data).evaluate (Projectile.new (1.00794 : ℝ) (ofInt 1)).T)
      (setDefaults w) = _
  have hp : Projectile.new (1.00794 : ℝ) (ofInt 1) = ⟨1.00794, 1, 1, 0⟩ := by
    unfold Projectile.new
    rw [ofInt_real]
    norm_num
  rw [hp, api_bind]
  refine ⟨_, _, hg, ?_⟩
  rw [api_pureM]
  refine ⟨?_, rfl⟩
  rw [hs]
  unfold newSpline
  rw [hs1, bind_ok]
  exact hv

/-- C77 applies: two calls in a row with `catima_defaults` set to 0 in between. -/
example (env : Env ℝ) : ∃ w, runCalls env [.c_range 1.00794 1 10 0 29, .set_c_defaults 0] .init = .ok w ∧
    (∀ c ∈ [Call.c_range (1.00794 : ℝ) 1 10 0 29, .set_c_defaults 0], c.isC) ∧
    (Call.c_range (1.00794 : ℝ) 1 10 0 29).setsDefaults ∧
    (Call.c_range (1.00794 : ℝ) 1 10 0 29).Within NonDefault (fun f => f = 1.0) := by
  obtain ⟨v, w', h, -⟩ := c_range_runs env .init ⟨[], rfl⟩ 10 (.inl rfl)
  refine ⟨{ w' with c_defaults_z_effective := 0 }, ?_, by simp [Call.isC], trivial, ?_⟩
  · show (do let r ← (Call.c_range 1.00794 1 10 0 29).run env .init
             runCalls env [.set_c_defaults 0] r.2) = _
    rw [h]
    rfl
  · intro t c
    have hp : Projectile.new (1.00794 : ℝ) (ofInt 1) = ⟨1.00794, 1, 1, 0⟩ := by
      unfold Projectile.new
      rw [ofInt_real]
      norm_num
    rw [hp]
    exact proton_nonDefault _ t c

/-- C77, refuted: a C++ call with the default configuration is affected by earlier C calls.  After
`catima_defaults.z_effective = 0`, the range straggling of slow protons in copper differs before and
after `catima_range`. -/
theorem c_wrapper_leaks (env : Env ℝ) : ∃ (w w' : World ℝ) (m : Material ℝ) (T v v' : ℝ),
    runCalls env [.set_c_defaults 0] .init = .ok w ∧
    runCalls env [.set_c_defaults 0, .c_range 1.00794 1 10 0 29] .init = .ok w' ∧
    (Call.range_straggling ⟨1.00794, 1, 1, 0⟩ T m w.default_config).respond env w = .ok (.num v) ∧
    (Call.range_straggling ⟨1.00794, 1, 1, 0⟩ T m w'.default_config).respond env w' = .ok (.num v') ∧
    v < v' := by
  obtain ⟨m, hm, ha, hM, hw⟩ := copper_material
  set w : World ℝ := { (World.init : World ℝ) with c_defaults_z_effective := 0 } with hwdef
  have hrun : runCalls env [.set_c_defaults 0] .init = .ok w := rfl
  obtain ⟨x, w', h, hcfg⟩ := c_range_runs env w ⟨_, hrun⟩ 10 (.inr rfl)
  have hrun' : runCalls env [.set_c_defaults 0, .c_range 1.00794 1 10 0 29] .init = .ok w' := by
    show (do let r ← (Call.c_range 1.00794 1 10 0 29).run env w
             runCalls env [] r.2) = _
    rw [h]
    rfl
  have key : ∀ (w : World ℝ) (_ : ReachableW env w) (c : Config ℝ)
      (_ : c.z_effective = 1 ∨ c.z_effective = 0),
      ∃ d v, calculate_DataPoint env ⟨1.00794, 1, 1, 0⟩ m c = .ok d ∧ d.range_straggling[1]? = some v ∧
        (Call.range_straggling ⟨1.00794, 1, 1, 0⟩ ((energy_table : EnergyTable ℝ).val 1) m c).respond env w =
          .ok (.num (Real.sqrt v)) := by
    intro w hr c hc
    obtain ⟨d, w', d0, hg, -, -, hd0, -, hs, -, hl, -⟩ := get_view env w hr ⟨1.00794, 1, 1, 0⟩ 1 m c
      (copper_computable m ha hM hw 0 c hc) (proton_nonDefault _ m _)
    obtain ⟨s, hs1, hs2⟩ := library_knot env d0.range_straggling hl 1 (by norm_num)
      (d0.range_straggling[1]'(by omega)) (List.getElem?_eq_getElem (by omega))
    refine ⟨d0, _, hd0, List.getElem?_eq_getElem (by omega), ?_⟩
    unfold Call.respond
    have : (Call.range_straggling ⟨1.00794, 1, 1, 0⟩ ((energy_table : EnergyTable ℝ).val 1) m c).run env w =
        .ok (.num (Real.sqrt (d0.range_straggling[1]'(by omega))), w') := by
      show (do return Response.num (← Catima.range_straggling env ⟨1.00794, 1, 1, 0⟩ _ m c) :
        Api ℝ (Response ℝ)) w = _
      rw [api_bind]
      refine ⟨_, _, ?_, rfl⟩
      unfold Catima.range_straggling
      rw [api_bind]
      refine ⟨_, _, hg, ?_⟩
      rw [api_pureM]
      refine ⟨?_, rfl⟩
      rw [hs, hs1, bind_ok, hs2, bind_ok, sqrt_real]
      rfl
    rw [this]
    rfl
  obtain ⟨d, v, hd, hv, hres⟩ := key w ⟨_, hrun⟩ w.default_config (.inl rfl)
  have hz' : w'.default_config = { (Config.default : Config ℝ) with z_effective := 0 } := by
    rw [hcfg]; rfl
  obtain ⟨d', v', hd', hv', hres'⟩ := key w' ⟨_, hrun'⟩ w'.default_config (.inr (by rw [hz']))
  obtain ⟨u, u', hu, hu', hu0, hlt⟩ := straggling_charge env 1.00794 0 m w.default_config w'.default_config
    (copper_computable m ha hM hw 0 _ (.inl rfl)) (copper_computable m ha hM hw 0 _ (.inr (by rw [hz'])))
    (by rw [ha]; simp) rfl (by rw [hz']) (by decide) (by rw [hz']; decide) (by rw [hz']; rfl) d d' hd hd'
  rw [hv] at hu
  rw [hv'] at hu'
  cases hu
  cases hu'
  exact ⟨w, w', m, _, _, _, hrun, hrun', hres, hres', Real.sqrt_lt_sqrt hu0 hlt⟩

end Catima
