import Verif.Props.Wrapper
import Verif.Props.CalculateDefined
import Verif.Props.Layers
import Mathlib.Algebra.Order.Floor.Ring

/-!
# C79, C80, C83: the calculator program
-/

namespace Catima

/-! ## C79 -/

/-- C79: for at least two points and `a < b`, the points are equally spaced from `a` to `b`. -/
theorem linspace_spec (a b : ℝ) (n : Nat) (hn : 2 ≤ n) (hab : a < b) :
    (linspace_vector a b n).length = n ∧
    (∀ i < n, (linspace_vector a b n)[i]? = some (a + i * ((b - a) / (n - 1)))) ∧
    (linspace_vector a b n).head? = some a ∧ (linspace_vector a b n).getLast? = some b ∧
    (linspace_vector a b n).Pairwise (· < ·) := by
  have hn1 : (0 : ℝ) < n - 1 := by
    have : (2 : ℝ) ≤ n := by exact_mod_cast hn
    linarith
  have hc : ((n - 1 : Nat) : ℝ) = n - 1 := by
    rw [Nat.cast_sub (by omega)]; norm_num
  have he : linspace_vector a b n =
      (List.range (n - 1)).map (fun i : Nat => a + (i : ℝ) * ((b - a) / (n - 1))) ++ [b] := by
    unfold linspace_vector
    rw [if_pos ⟨hn, by rw [lt_real]; exact hab⟩]
    simp only [ofInt_real]
    push_cast
    rw [hc]
  have hlen : (linspace_vector a b n).length = n := by
    rw [he]
    simp
    omega
  have hget : ∀ i < n, (linspace_vector a b n)[i]? = some (a + i * ((b - a) / (n - 1))) := by
    intro i hi
    rw [he]
    by_cases h : i < n - 1
    · rw [List.getElem?_append_left (by simpa using h)]
      simp [h]
    · have : i = n - 1 := by omega
      subst this
      rw [List.getElem?_append_right (by simp)]
      simp only [List.length_map, List.length_range, Nat.sub_self]
      rw [hc]
      show some b = some _
      congr 1
      field_simp
      ring
  refine ⟨hlen, hget, ?_, ?_, ?_⟩
  · rw [List.head?_eq_getElem?, hget 0 (by omega)]
    simp
  · rw [he]; simp
  · rw [List.pairwise_iff_getElem]
    intro i j hi hj hij
    have h1 := hget i (by omega)
    have h2 := hget j (by omega)
    rw [List.getElem?_eq_getElem hi] at h1
    rw [List.getElem?_eq_getElem hj] at h2
    rw [Option.some.inj h1, Option.some.inj h2]
    have : (i : ℝ) < j := by exact_mod_cast hij
    have hs : 0 < (b - a) / (n - 1) := div_pos (by linarith) hn1
    nlinarith

/-- C79: otherwise there are no points. -/
theorem linspace_empty (a b : ℝ) (n : Nat) (h : n < 2 ∨ b ≤ a) : linspace_vector a b n = [] := by
  unfold linspace_vector
  rw [if_neg]
  rw [lt_real]
  rintro ⟨h1, h2⟩
  rcases h with h | h
  · omega
  · linarith

/-- C79 for three points. -/
example : linspace_vector (100 : ℝ) 300 3 = [100, 200, 300] := by
  obtain ⟨h1, h2, -⟩ := linspace_spec 100 300 3 (by norm_num) (by norm_num)
  apply List.ext_getElem?
  intro i
  by_cases hi : i < 3
  · rw [h2 i hi]
    interval_cases i <;> norm_num
  · rw [List.getElem?_eq_none (by omega), List.getElem?_eq_none (by simp; omega)]

/-! ## C80 -/

section
variable {α : Type} [Scalar α]

/-- C80, refuted for `"config"`: whatever it says, the program does the same, although the two documented
settings differ in the effective charge. -/
theorem calculator_config_ignored (env : Env α) (j : CalcInput α) (c : Option String) (w : World α) :
    calculator env { j with config := c } w = calculator env j w ∧
    (calcConfig (some "atimav1.4") : Config α).z_effective ≠
      (calcConfig (some "atimav1.3") : Config α).z_effective := by
  refine ⟨?_, by show (7 : Nat) ≠ 1; decide⟩
  have loop : ∀ (p : Projectile α) (l : Layers α) (c c' : Config α) (es : List α),
      calcLoop env p l c es = calcLoop env p l c' es := by
    intro p l c c' es
    induction es with
    | nil => rfl
    | cons e es ih =>
      unfold calcLoop
      simp only [ih]
  unfold calculator
  simp only [loop _ _ (calcConfig c) (calcConfig j.config)]

/-- C80, refuted for the density: for a compound the program does the same whatever density is given,
and lists the one of the database. -/
theorem calculator_density_ignored (env : Env α) (x : α) (z : Int) (hz : castInt x = .ok z) (h200 : 200 ≤ z)
    (m : MaterialSpec α) (d : Option α) (j : CalcInput α) (l l' : List (MaterialSpec α)) (w : World α) :
    json_material { m with Z := some x, density := d } =
      .ok (some ((get_material z).set_thickness (m.thickness.getD 0.0))) ∧
    calculator env { j with material := some (l ++ { m with Z := some x, density := d } :: l') } w =
      calculator env { j with material := some (l ++ { m with Z := some x, density := none } :: l') } w := by
  have key : ∀ d, json_material { m with Z := some x, density := d } =
      .ok (some ((get_material z).set_thickness (m.thickness.getD 0.0))) := by
    intro d
    unfold json_material
    dsimp only
    rw [hz, bind_ok, if_neg (by omega), if_neg (by omega)]
    rfl
  refine ⟨key d, ?_⟩
  have hl : calcLayers (l ++ { m with Z := some x, density := d } :: l') =
      calcLayers (l ++ { m with Z := some x, density := none } :: l') := by
    unfold calcLayers
    rw [List.mapM_append, List.mapM_append, List.mapM_cons, List.mapM_cons, key d, key none]
  unfold calculator
  simp only [hl]

theorem energies_num (emin emax k : α) (n : Int) (h : castInt k = .ok n) :
    energies (.object emin emax (some k) none) =
      .ok (if n > 2 then linspace_vector emin emax n.toNat else []) := by
  unfold energies energyNum
  dsimp only
  rw [if_neg (by simp)]
  show (castInt k >>= fun n => if n > 2 then pure _ else pure _) = _
  rw [h, bind_ok]
  split_ifs <;> rfl

theorem energies_step (emin emax s : α) (k n : Int) (h : castInt s = .ok k) (hk : k ≠ 0)
    (hn : castInt (1.0 + (emax - emin) / ofInt k) = .ok n) :
    energies (.object emin emax none (some s)) =
      .ok (if n > 2 then linspace_vector emin emax n.toNat else []) := by
  unfold energies energyNum
  dsimp only
  rw [if_neg (by simp), h, bind_ok, if_neg hk, hn, bind_ok]
  show (if n > 2 then pure _ else pure _) = _
  split_ifs <;> rfl

/-- C80, refuted for `num = 2`: no energy is used, although `linspace_vector` would give the two end
points. -/
theorem calculator_num_two (emin emax : ℝ) (h : emin < emax) (st : Option ℝ)
    (hst : ∀ s, st = some s → ∃ k : Int, 0 < k ∧ s = k ∧ k ≤ 2147483647 ∧ emax - emin < 2147483647) :
    energies (.object emin emax (some 2) st) = .ok [] ∧ linspace_vector emin emax 2 = [emin, emax] := by
  have h2 : castInt (2 : ℝ) = .ok 2 := by exact_mod_cast castInt_real 2 (by norm_num) (by norm_num)
  constructor
  · rcases st with _ | s
    · rw [energies_num emin emax 2 2 h2]
      rfl
    · obtain ⟨k, hk0, rfl, hk1, hk2⟩ := hst s rfl
      have : ∃ i, castInt ((1.0 : ℝ) + (emax - emin) / ofInt k) = .ok i := by
        unfold castInt
        rw [toInt_real, if_pos]
        · exact ⟨_, rfl⟩
        · rw [ofInt_real]
          have hk : (1 : ℝ) ≤ k := by exact_mod_cast hk0
          have h1 : 0 ≤ (emax - emin) / k := div_nonneg (by linarith) (by linarith)
          have h2 : (emax - emin) / k ≤ emax - emin := div_le_self (by linarith) hk
          constructor <;> norm_num <;> linarith
      obtain ⟨i, hi⟩ := this
      unfold energies energyNum
      dsimp only
      rw [if_neg (by simp), castInt_real k (by omega) hk1, bind_ok, if_neg (by omega), hi, bind_ok, h2]
      rfl
  · obtain ⟨h1, h2, -⟩ := linspace_spec emin emax 2 le_rfl h
    apply List.ext_getElem?
    intro i
    by_cases hi : i < 2
    · rw [h2 i hi]
      interval_cases i <;> norm_num
    · rw [List.getElem?_eq_none (by omega), List.getElem?_eq_none (by simp; omega)]

/-- A process in which only the cache has changed since the start. -/
def Started (env : Env α) (w : World α) : Prop :=
  w.fresh = .init ∧ ∃ cs : List (Call α),
    (∀ c ∈ cs, c.Within (fun _ _ _ => True) (fun f => f = 1.0)) ∧ runCalls env cs .init = .ok w

theorem started_call (env : Env α) (w w' : World α) (h : Started env w) (p : Projectile α)
    (l : Layers α) (r : MultiResult α)
    (hrun : calculate_layers_nops env p l .default w = .ok (r, w')) : Started env w' := by
  obtain ⟨hf, cs, hcs, hr⟩ := h
  have hcall : (Call.calculate_layers p .init l (.default : Config α)).run env w = .ok (.multi r, w') := by
    show (do return Response.multi (← calculate_layers env p .init l .default) : Api α (Response α)) w = _
    rw [api_bind]
    exact ⟨_, _, hrun, rfl⟩
  have hin : (Call.calculate_layers p .init l (.default : Config α)).Within (fun _ _ _ => True)
      (fun f => f = 1.0) := ⟨fun _ _ => trivial, rfl⟩
  refine ⟨?_, cs ++ [Call.calculate_layers p .init l .default], ?_, runCalls_append env cs _ _ _ _ _ hr hcall⟩
  · refine call_preserves env (fun f => f = 1.0) (fun w => w.fresh = .init) ?_ ?_ ?_ ?_ _ ?_ ?_ ?_ ?_ hin w hf _
      hcall
    · intro w h
      have : w.fresh.default_config.scattering_factor = 1.0 := by rw [h]; rfl
      exact this
    · exact fun _ _ _ _ _ h _ _ => h
    · exact fun _ _ _ _ _ h _ _ => h
    · exact fun _ h => h
    · intro w c h
      cases h
    · intro w h
      have e : setDefaults w.fresh = .init := by rw [h]; rfl
      exact e
    · intro w h
      have e : setScattering w.fresh = .init := by rw [h]; rfl
      exact e
    · intro w z h
      cases h
  · intro c hc
    rcases List.mem_append.mp hc with hc | hc
    · exact hcs c hc
    · rw [List.mem_singleton.mp hc]
      exact hin

theorem MultiEq.eq {r r' : MultiResult α} (h : MultiEq True r r') : r = r' := by
  obtain ⟨h1, -, h2⟩ := h
  have : r.results = r'.results := by
    have := h1.imp (S := Eq) fun _ _ h => h.2 trivial
    rwa [List.forall₂_eq_eq_eq] at this
  cases r
  cases r'
  simp only at this h2
  rw [this, h2 trivial]

/-- C80, the part that holds, for the loop over the energies. -/
theorem calcLoop_results (hl : EqLaws α) (env : Env α) (p : Projectile α) (l : Layers α) (c : Config α)
    (hk : ∀ t c, NonDefault p t c) (es : List α) (w w' : World α) (hw : Started env w)
    (rs : List (α × MultiResult α)) (h : calcLoop env p l c es w = .ok (rs, w')) :
    rs.map Prod.fst = es ∧ ∀ x ∈ rs,
      (Call.calculate_layers (p.withT x.1) .init l .default).respond env .init = .ok (.multi x.2) := by
  induction es generalizing w rs with
  | nil =>
    have : rs = [] := congrArg Prod.fst (Except.ok.inj h).symm
    subst this
    exact ⟨rfl, by simp⟩
  | cons e es ih =>
    have hcfg : w.default_config = .default := by
      have : w.fresh.default_config = .default := by rw [hw.1]; rfl
      exact this
    unfold calcLoop at h
    obtain ⟨w0, w1, h0, h⟩ := api_bind.mp h
    cases h0
    obtain ⟨r, w2, h1, h⟩ := api_bind.mp h
    obtain ⟨rs', w3, h2, h⟩ := api_bind.mp h
    have hrs : rs = (e, r) :: rs' := congrArg Prod.fst (Except.ok.inj h).symm
    have hw3 : w' = w3 := congrArg Prod.snd (Except.ok.inj h).symm
    subst hrs hw3
    rw [hcfg] at h1
    obtain ⟨ih1, ih2⟩ := ih w2 (started_call env w w2 hw _ _ _ h1) rs' h2
    refine ⟨by simp [ih1], ?_⟩
    intro x hx
    rcases List.mem_cons.mp hx with rfl | hx
    · obtain ⟨hf, cs, hcs, hr⟩ := hw
      have ht := angular_transparent_partial hl env (fun f => f = 1.0) rfl
        (fun a b ha hb _ => ha.trans hb.symm) cs w hcs hr
        (Call.calculate_layers (p.withT e) .init l .default) ⟨fun m _ => hk m _, rfl⟩
      rw [hf] at ht
      have hcall : (Call.calculate_layers (p.withT e) .init l (.default : Config α)).respond env w =
          .ok (.multi r) := by
        unfold Call.respond
        have : (Call.calculate_layers (p.withT e) .init l (.default : Config α)).run env w =
            .ok (.multi r, w2) := by
          show (do return Response.multi (← calculate_layers env (p.withT e) .init l .default) :
            Api α (Response α)) w = _
          rw [api_bind]
          exact ⟨_, _, h1, rfl⟩
        rw [this]
        rfl
      rw [hcall] at ht
      dsimp only
      cases h2 : (Call.calculate_layers (p.withT e) .init l (.default : Config α)).respond env .init with
      | error e => rw [h2] at ht; exact ht.elim
      | ok q =>
        rw [h2] at ht
        cases q with
        | multi r' => rw [MultiEq.eq (r := r) (r' := r') ht]
        | _ => exact ht.elim
    · exact ih2 x hx

/-- What the program prints and its exit code. -/
def CalcAnswer (env : Env α) (j : CalcInput α) : CalcOutput α → Prop
  | .badConfig => j.projectile = none ∨ j.energy = none ∨ j.material = none ∨
      ∃ ms, j.material = some ms ∧ calcLayers ms = .ok none
  | .noMaterial => ∃ ms, j.material = some ms ∧ calcLayers ms = .ok (some [])
  | .noEnergy => ∃ spec, j.energy = some spec ∧ energies spec = .ok []
  | .results A Z header rs code => ∃ spec ms es mats,
      j.energy = some spec ∧ energies spec = .ok es ∧ es ≠ [] ∧
      j.material = some ms ∧ calcLayers ms = .ok (some mats) ∧ mats ≠ [] ∧
      A = j.proj.A ∧ Z = j.proj.Z ∧ header = mats.map (fun m => (m.rho, m.th)) ∧ code = 1 ∧
      rs.map Prod.fst = es ∧ ∀ x ∈ rs,
        (Call.calculate_layers (j.proj.withT x.1) .init ⟨mats⟩ .default).respond env .init =
          .ok (.multi x.2)

/-- C80, the part that holds: when the program gets that far, it lists the layers in order and, for every
energy in order, what `calculate` gives for the layers in a fresh process with the default configuration.
Missing: the configuration, the density of compounds and ranges of two energies, see the theorems
above. -/
theorem calculator_results_partial (hl : EqLaws α) (env : Env α) (j : CalcInput α) (out : CalcOutput α)
    (hk : ∀ t c, NonDefault j.proj t c)
    (h : (Call.calculator j).respond env .init = .ok (.calc out)) : CalcAnswer env j out := by
  have hrun : ∃ w, calculator env j .init = .ok (out, w) := by
    unfold Call.respond at h
    cases hc : (Call.calculator j).run env .init with
    | error e => rw [hc] at h; cases h
    | ok q =>
      rw [hc] at h
      obtain ⟨o, w, h1, h2⟩ := api_bind.mp (show (do return Response.calc (← calculator env j) :
        Api α (Response α)) .init = .ok q from hc)
      have e1 : q.1 = .calc out := Except.ok.inj h
      have e2 : q = (.calc o, w) := (Except.ok.inj h2).symm
      rw [e2] at e1
      exact ⟨w, by rw [h1, Response.calc.inj e1]⟩
  clear h
  obtain ⟨w, hrun⟩ := hrun
  have hst : Started env (.init : World α) := ⟨rfl, [], by simp, rfl⟩
  unfold calculator at hrun
  have key : ∀ (p : Projectile α), p = j.proj → ∀ {o : CalcOutput α} {w : World α},
      (match j.energy with
        | none => pure CalcOutput.badConfig
        | some spec => do
          let es ← pureM (energies spec)
          match j.material with
          | none => return .badConfig
          | some ms =>
            match ← pureM (calcLayers ms) with
            | none => return .badConfig
            | some mats =>
              if mats.isEmpty then return .noMaterial
              if es.isEmpty then return .noEnergy
              let rs ← calcLoop env p ⟨mats⟩ (calcConfig j.config) es
              return .results p.A p.Z (mats.map fun m => (m.rho, m.th)) rs 1 : Api α (CalcOutput α))
        .init = .ok (o, w) → CalcAnswer env j o := by
    rintro p rfl o w hq
    cases he : j.energy with
    | none =>
      rw [he] at hq
      cases hq
      exact .inr (.inl he)
    | some spec =>
      rw [he] at hq
      obtain ⟨es, w1, h1, hq⟩ := api_bind.mp hq
      obtain ⟨h1', rfl⟩ := api_pureM.mp h1
      cases hm : j.material with
      | none =>
        rw [hm] at hq
        cases hq
        exact .inr (.inr (.inl hm))
      | some ms =>
        rw [hm] at hq
        obtain ⟨ol, w2, h2, hq⟩ := api_bind.mp hq
        obtain ⟨h2', rfl⟩ := api_pureM.mp h2
        cases ol with
        | none =>
          cases hq
          exact .inr (.inr (.inr ⟨ms, hm, h2'⟩))
        | some mats =>
          dsimp only at hq
          by_cases hm0 : mats = []
          · subst hm0
            rw [if_pos (by rfl)] at hq
            cases hq
            exact ⟨ms, hm, h2'⟩
          · rw [if_neg (by simpa using hm0)] at hq
            by_cases he0 : es = []
            · subst he0
              rw [if_pos (by rfl)] at hq
              cases hq
              exact ⟨spec, he, h1'⟩
            · rw [if_neg (by simpa using he0)] at hq
              obtain ⟨rs, w3, h3, hq⟩ := api_bind.mp hq
              cases hq
              obtain ⟨k1, k2⟩ := calcLoop_results hl env _ _ _ hk es _ _ hst rs h3
              exact ⟨spec, ms, es, mats, he, h1', he0, hm, h2', hm0, rfl, rfl, rfl, rfl, k1, k2⟩
  rcases hj : j.projectile with _ | _ | ⟨A, Z⟩
  · rw [hj] at hrun
    cases hrun
    exact .inl hj
  · rw [hj] at hrun
    exact key _ (by rw [CalcInput.proj, hj]) hrun
  · rw [hj] at hrun
    exact key _ (by rw [CalcInput.proj, hj]) hrun

end

/-- C80 applies: a document with one energy and a layer of copper that stops the protons. -/
example (env : Env ℝ) (hdbg : env.debug = false) : ∃ (j : CalcInput ℝ) (x : ℝ × MultiResult ℝ) (h : List (ℝ × ℝ)),
    (∀ t c, NonDefault j.proj t c) ∧
    (Call.calculator j).respond env .init = .ok (.calc (.results 1.00794 1 h [x] 1)) ∧ x.1 = 100 := by
  have hnd : ∀ (t : Material ℝ) (c : Config ℝ), NonDefault (⟨1.00794, 1, 0.0, 100⟩ : Projectile ℝ) t c := by
    intro m c
    unfold NonDefault Key.eq Projectile.eq
    have : Scalar.beq (0.0 : ℝ) 1.00794 = false := by rw [beq_real_false]; norm_num
    have e : (Key.default : Key ℝ).p.A = 0.0 := rfl
    rw [e]
    dsimp only
    rw [this]
    rfl
  have hw := atomic_weight_pos 29 (by norm_num) (by norm_num)
  set m0 : Material ℝ := Material.ofElement 0.0 29 (element_density 29) 0.0 with hm0
  have hatoms : m0.atoms = [⟨element_atomic_weight 29, 29, 1⟩] ∧ m0.molar_mass = element_atomic_weight 29 := by
    have e : (if ((0.0 : ℝ) >? 0.0) = true then (0.0 : ℝ) else element_atomic_weight 29) =
        element_atomic_weight 29 := by
      rw [if_neg]
      show ¬ Scalar.lt (0.0 : ℝ) 0.0 = true
      rw [lt_real]
      norm_num
    rw [hm0]
    unfold Material.ofElement Material.add_element
    rw [e]
    constructor
    · show [] ++ _ = _
      norm_num
    · show (0.0 : ℝ) + 1.0 * _ = _
      norm_num
  have hC : Computable (⟨1.00794, 1, 0.0, 100⟩ : Projectile ℝ) 1 m0 .default :=
    { ion := ⟨by norm_num, by norm_num, by norm_num, by norm_num⟩
      small := by norm_num
      sound := (copper_computable m0 hatoms.1 hatoms.2 hw 0 .default (.inl rfl)).sound
      known := (copper_computable m0 hatoms.1 hatoms.2 hw 0 .default (.inl rfl)).known
      charge := .inl rfl }
  obtain ⟨th, r, w', hth, hres, hEin, hE, -⟩ := calculate_stopped_reached env hdbg .init ⟨[], rfl⟩ _ 1 m0 .default
    hC hC (hnd _ _) (fun h => absurd h (by decide)) (by norm_num) (below_top _ (by norm_num))
  obtain ⟨mr, hmr⟩ := (layers_crossing env ⟨1.00794, 1, 0.0, 100⟩ .init ⟨[m0.set_thickness th]⟩ .default .init w'
    [r]).mpr (Crossing.cons hres (Crossing.nil _ _))
  have hz : castInt (29 : ℝ) = .ok 29 := by exact_mod_cast castInt_real 29 (by norm_num) (by norm_num)
  have hj : json_material (⟨none, some 29, none, some th, none⟩ : MaterialSpec ℝ) =
      .ok (some (m0.set_thickness th)) := by
    unfold json_material
    dsimp only
    rw [hz, bind_ok, if_neg (by norm_num), if_pos (by norm_num)]
    have h1 : ((none : Option ℝ).getD 0.0 ≤? 0.0) = true := by
      show Scalar.le (0.0 : ℝ) 0.0 = true
      rw [le_real]
    have h2 : ¬ ((none : Option ℝ).getD 0.0 >? 0.0) = true := by
      show ¬ Scalar.lt (0.0 : ℝ) 0.0 = true
      rw [lt_real]
      norm_num
    rw [if_pos h1, if_neg h2]
    rfl
  refine ⟨⟨some (some (1.00794, 1)), some (.array [100]), some [⟨none, some 29, none, some th, none⟩], none⟩,
    (100, ⟨[r], mr⟩), [((m0.set_thickness th).rho, (m0.set_thickness th).th)], fun t c => hnd t c, ?_, rfl⟩
  have hl : calcLayers [(⟨none, some 29, none, some th, none⟩ : MaterialSpec ℝ)] =
      .ok (some [m0.set_thickness th]) := by
    unfold calcLayers
    rw [List.mapM_cons, hj]
    rfl
  have hrun : (Call.calculator (⟨some (some (1.00794, 1)), some (.array [100]),
      some [⟨none, some 29, none, some th, none⟩], none⟩ : CalcInput ℝ)).run env .init =
      .ok (.calc (.results 1.00794 1 [((m0.set_thickness th).rho, (m0.set_thickness th).th)]
        [(100, ⟨[r], mr⟩)] 1), w') := by
    show (do return Response.calc (← calculator env _) : Api ℝ (Response ℝ)) .init = _
    rw [api_bind]
    refine ⟨_, _, ?_, rfl⟩
    unfold calculator
    dsimp only
    rw [api_bind]
    refine ⟨_, _, rfl, ?_⟩
    rw [api_bind]
    refine ⟨_, _, api_pureM.mpr ⟨rfl, rfl⟩, ?_⟩
    rw [api_bind]
    refine ⟨_, _, api_pureM.mpr ⟨hl, rfl⟩, ?_⟩
    dsimp only
    rw [if_neg (by simp), if_neg (by simp), api_bind]
    refine ⟨_, _, ?_, rfl⟩
    unfold calcLoop
    rw [api_bind]
    refine ⟨_, _, rfl, ?_⟩
    rw [api_bind]
    refine ⟨_, _, hmr, rfl⟩
  unfold Call.respond
  rw [hrun]
  rfl

/-! ## C97 -/

/-- C97 refuted: the convention that a program exits with 0 on success and with another status on
failure is reversed.  Whenever the calculator prints results, its status is 1; whenever it only prints
that it could not do so, its status is 0. -/
theorem calculator_exit_wrong {α : Type} [Scalar α] (env : Env α) (j : CalcInput α) (w w' : World α) (out : CalcOutput α)
    (h : calculator env j w = .ok (out, w')) :
    (∀ A Z header rs code, out = .results A Z header rs code → out.exitStatus = 1) ∧
    (out = .badConfig ∨ out = .noMaterial ∨ out = .noEnergy → out.exitStatus = 0) := by
  refine ⟨?_, ?_⟩
  · rintro A Z header rs code rfl
    show code = 1
    unfold calculator at h
    have key : ∀ (p : Projectile α) {w : World α},
        (match j.energy with
          | none => pure CalcOutput.badConfig
          | some spec => do
            let es ← pureM (energies spec)
            match j.material with
            | none => return .badConfig
            | some ms =>
              match ← pureM (calcLayers ms) with
              | none => return .badConfig
              | some mats =>
                if mats.isEmpty then return .noMaterial
                if es.isEmpty then return .noEnergy
                let rs ← calcLoop env p ⟨mats⟩ (calcConfig j.config) es
                return .results p.A p.Z (mats.map fun m => (m.rho, m.th)) rs 1 : Api α (CalcOutput α))
          w = .ok (.results A Z header rs code, w') → code = 1 := by
      intro p w hq
      cases he : j.energy with
      | none => rw [he] at hq; cases hq
      | some spec =>
        rw [he] at hq
        obtain ⟨es, w1, h1, hq⟩ := api_bind.mp hq
        cases hm : j.material with
        | none => rw [hm] at hq; cases hq
        | some ms =>
          rw [hm] at hq
          obtain ⟨ol, w2, h2, hq⟩ := api_bind.mp hq
          cases ol with
          | none => cases hq
          | some mats =>
            dsimp only at hq
            by_cases hm0 : mats.isEmpty = true
            · rw [if_pos hm0] at hq; cases hq
            · rw [if_neg hm0] at hq
              by_cases he0 : es.isEmpty = true
              · rw [if_pos he0] at hq; cases hq
              · rw [if_neg he0] at hq
                obtain ⟨rs, w3, h3, hq⟩ := api_bind.mp hq
                cases hq
                rfl
    rcases hj : j.projectile with _ | _ | ⟨A, Z⟩
    · rw [hj] at h; cases h
    · rw [hj] at h; exact key _ h
    · rw [hj] at h; exact key _ h
  · rintro (rfl | rfl | rfl) <;> rfl

/-- A document without materials: the program fails and exits with 0. -/
example (env : Env ℝ) : ∃ w', calculator env ⟨some none, some (.array [100]), some [], none⟩ .init =
    .ok (.noMaterial, w') ∧ (CalcOutput.noMaterial : CalcOutput ℝ).exitStatus = 0 := ⟨_, rfl, rfl⟩

/-! ## C83 -/

/-- The energies from `emin` to `emax` in steps of `step`. -/
noncomputable def steps (emin emax step : ℝ) : List ℝ :=
  (List.range (⌊(emax - emin) / step⌋₊ + 1)).map fun i : Nat => emin + i * step

/-- C83, the part that holds: if the step is an integer and the range consists of at least two steps, all
energies from `min` to `max` are used.  Missing: other steps, see the theorems below. -/
theorem energy_step_partial (emin emax : ℝ) (k : Int) (n : Nat) (hk : 1 ≤ k) (hk' : k ≤ 2147483647)
    (hn : 2 ≤ n) (hn' : n ≤ 2147483646) (h : emax - emin = n * k) :
    energies (.object emin emax none (some (k : ℝ))) = .ok (steps emin emax k) ∧
    (steps emin emax k).length = n + 1 := by
  have hk0 : (0 : ℝ) < k := by exact_mod_cast hk
  have hdiv : (emax - emin) / (k : ℝ) = n := by rw [h]; field_simp
  have hfl : ⌊(emax - emin) / (k : ℝ)⌋₊ = n := by rw [hdiv]; exact Nat.floor_natCast n
  have hc : castInt ((1.0 : ℝ) + (emax - emin) / ofInt k) = .ok ((n + 1 : Nat) : Int) := by
    rw [ofInt_real, hdiv, ← castInt_real ((n + 1 : Nat) : Int) (by omega) (by omega)]
    congr 1
    push_cast
    norm_num
    ring
  have hlt : emin < emax := by
    have : 0 < emax - emin := by
      rw [h]
      have : (2 : ℝ) ≤ n := by exact_mod_cast hn
      positivity
    linarith
  rw [energies_step _ _ _ k _ (castInt_real k (by omega) hk') (by omega) hc, if_pos (by omega)]
  unfold steps
  rw [hfl]
  refine ⟨?_, by simp⟩
  congr 1
  obtain ⟨h1, h2, -⟩ := linspace_spec emin emax (n + 1) (by omega) hlt
  apply List.ext_getElem?
  intro i
  rw [Int.toNat_natCast]
  by_cases hi : i < n + 1
  · rw [h2 i hi, List.getElem?_map, List.getElem?_range hi]
    simp only [Option.map_some]
    congr 2
    rw [h]
    push_cast
    have : (n : ℝ) ≠ 0 := by
      have : n ≠ 0 := by omega
      exact_mod_cast this
    rw [add_sub_cancel_right]
    field_simp
  · rw [List.getElem?_eq_none (by omega), List.getElem?_eq_none (by simp; omega)]

/-- C83 for the range of the documentation, 100 to 1000 in steps of 10. -/
example : energies (.object (100 : ℝ) 1000 none (some ((10 : Int) : ℝ))) = .ok (steps 100 1000 (10 : Int)) ∧
    (steps 100 1000 (10 : Int)).length = 90 + 1 :=
  energy_step_partial 100 1000 10 90 (by norm_num) (by norm_num) (by norm_num) (by norm_num) (by norm_num)

/-- C83, refuted: every step below 1 divides by zero and converts the result to an integer. -/
theorem energy_step_below_one (emin emax step : ℝ) (h0 : 0 < step) (h1 : step < 1) :
    energies (.object emin emax none (some step)) = .error .badCast := by
  have : castInt step = .ok 0 := by
    unfold castInt
    rw [toInt_real, if_pos ⟨by linarith, by linarith⟩, if_pos h0.le,
      Int.floor_eq_zero_iff.mpr ⟨h0.le, h1⟩]
  unfold energies energyNum
  dsimp only
  rw [if_neg (by simp), this, bind_ok, if_pos rfl]
  rfl

/-- C83, refuted: a step that is not an integer is truncated, and when the step does not divide the range
another one is used. -/
theorem energy_step_wrong :
    energies (.object (0 : ℝ) 3 none (some 1.5)) = .ok [0, 1, 2, 3] ∧
    steps 0 3 1.5 = [0, 1.5, 3] ∧
    energies (.object (0 : ℝ) 10 none (some 4)) = .ok [0, 5, 10] ∧
    steps 0 10 4 = [0, 4, 8] := by
  have c1 : castInt (1.5 : ℝ) = .ok 1 := by
    unfold castInt
    rw [toInt_real, if_pos (by norm_num), if_pos (by norm_num)]
    have : ⌊(1.5 : ℝ)⌋ = 1 := by rw [Int.floor_eq_iff]; norm_num
    rw [this]
  have c2 : castInt (4 : ℝ) = .ok 4 := by exact_mod_cast castInt_real 4 (by norm_num) (by norm_num)
  have d1 : castInt ((1.0 : ℝ) + (3 - 0) / ofInt 1) = .ok 4 := by
    rw [← castInt_real 4 (by norm_num) (by norm_num), ofInt_real]
    norm_num
  have d2 : castInt ((1.0 : ℝ) + (10 - 0) / ofInt 4) = .ok 3 := by
    unfold castInt
    rw [ofInt_real, toInt_real, if_pos (by norm_num), if_pos (by norm_num)]
    have : ⌊(1.0 : ℝ) + (10 - 0) / ((4 : Int) : ℝ)⌋ = 3 := by rw [Int.floor_eq_iff]; norm_num
    rw [this]
  have ext : ∀ (a b : ℝ) (n : Nat) (l : List ℝ), 2 ≤ n → a < b → l.length = n →
      (∀ i < n, l[i]? = some (a + i * ((b - a) / (n - 1)))) → linspace_vector a b n = l := by
    intro a b n l hn hab hl hi
    obtain ⟨h1, h2, -⟩ := linspace_spec a b n hn hab
    apply List.ext_getElem?
    intro i
    by_cases h : i < n
    · rw [h2 i h, hi i h]
    · rw [List.getElem?_eq_none (by omega), List.getElem?_eq_none (by omega)]
  have f1 : ⌊((3 : ℝ) - 0) / 1.5⌋₊ = 2 := by
    rw [Nat.floor_eq_iff (by norm_num)]; norm_num
  have f2 : ⌊((10 : ℝ) - 0) / 4⌋₊ = 2 := by
    rw [Nat.floor_eq_iff (by norm_num)]; norm_num
  refine ⟨?_, ?_, ?_, ?_⟩
  · rw [energies_step _ _ _ 1 4 c1 (by norm_num) d1, if_pos (by norm_num)]
    congr 1
    refine ext 0 3 4 _ (by norm_num) (by norm_num) rfl ?_
    intro i hi
    interval_cases i <;> norm_num
  · unfold steps
    rw [f1]
    simp [List.range_succ]
    norm_num
  · rw [energies_step _ _ _ 4 3 c2 (by norm_num) d2, if_pos (by norm_num)]
    congr 1
    refine ext 0 10 3 _ (by norm_num) (by norm_num) rfl ?_
    intro i hi
    interval_cases i <;> norm_num
  · unfold steps
    rw [f2]
    simp [List.range_succ]
    norm_num

end Catima
