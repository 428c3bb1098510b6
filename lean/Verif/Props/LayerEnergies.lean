import Verif.Props.ProtonRanges
import Verif.Props.HeliumRanges
import Verif.Props.IonRanges
import Verif.Props.Layers

/-!
# C113: ions lose energy on their way through a stack of layers
-/

namespace Catima

/-- The ions from hydrogen to uranium for which C108, C110 and C111 are proved. -/
def UsualIon (p : Projectile ℝ) (n : Int) (m : Material ℝ) (c : Config ℝ) : Prop :=
  n = 1 ∧ HydrogenIn p m c ∨ n = 2 ∧ HeliumIn p m c ∨ IonIn p n m c

theorem UsualIon.computable {p : Projectile ℝ} {n : Int} {m : Material ℝ} {c : Config ℝ} (h : UsualIon p n m c) : Computable p n m c := by
  rcases h with ⟨rfl, h⟩ | ⟨rfl, h⟩ | h
  · exact h.computable
  · exact h.computable
  · exact h.computable

theorem UsualIon.withT {p : Projectile ℝ} {n : Int} {m : Material ℝ} {c : Config ℝ} (h : UsualIon p n m c) (T : ℝ) :
    UsualIon (p.withT T) n m c := by
  rcases h with ⟨rfl, h⟩ | ⟨rfl, h⟩ | h
  · exact .inl ⟨rfl, { h with computable := h.computable.withT T }⟩
  · exact .inr (.inl ⟨rfl, { h with computable := h.computable.withT T }⟩)
  · exact .inr (.inr { h with computable := h.computable.withT T })

theorem UsualIon.steady {p : Projectile ℝ} {n : Int} {m : Material ℝ} {c : Config ℝ} (h : UsualIon p n m c) (env : Env ℝ) :
    SteadyStopping env p m c := by
  rcases h with ⟨rfl, h⟩ | ⟨rfl, h⟩ | h
  · exact proton_stopping_steady env p m c h
  · exact helium_stopping_steady env p m c h
  · exact ion_stopping_steady env p n m c h

/-- A call of `calculate` leaves the default configuration alone. -/
theorem calculate_config {env : Env ℝ} {p : Projectile ℝ} {t : Material ℝ} {c : Config ℝ} {w w' : World ℝ} {r : Result ℝ}
    (hr : ReachableW env w) (ht : (t.th =? 0.0) = false) (h : calculate env p t c w = .ok (r, w')) : w'.default_config = w.default_config := by
  rcases hs : tooSlow p.T with _ | _
  · have := (calculate_agrees_out env p t c w w' r hr (key_refl_real _) hs ht h).2.1
    unfold angular_variance at this
    simp only [api_bind, api_pureM] at this
    obtain ⟨a1, _, ⟨k1, rfl⟩, a2, _, ⟨k2, rfl⟩, a3, _, ⟨k3, rfl⟩, d', w3, h2, h3, rfl⟩ := this
    exact (get_data_config h2).1
  · rcases calculate_steps h with ⟨-, -, rfl⟩ | ⟨hs', -⟩
    · rfl
    · rw [hs] at hs'; cases hs'

/-- What one layer does: `calculate` returns, the energy does not increase, and the energy loss is not negative (up to the
tolerance 2e-13 MeV/u of the index of the table). -/
theorem layer_energy (env : Env ℝ) (hdbg : env.debug = false) (hj : SmallJunk env.junk) (w : World ℝ) (hr : ReachableW env w)
    (p : Projectile ℝ) (n : Int) (t : Material ℝ) (c : Config ℝ) (h : UsualIon p n t c) (hdef : Computable p n t w.default_config)
    (hk : NonDefault p t c) (hsc : ScatteringReadable t c) (hth : 1e-5 ≤ t.th) (T : ℝ) (hT : T ≤ 9.9e6) :
    ∃ r w', calculate env (p.withT T) t c w = .ok (r, w') ∧ ReachableW env w' ∧ w'.default_config = w.default_config ∧
      r.Eout < max T 0 + 2e-13 ∧ -(2e-13 * p.A) < r.Eloss := by
  have top : (9.95e6 : ℝ) ≤ (ls_energy_table : EnergyTable ℝ).val 199 - 10 * 2⁻¹ ^ 52 := by
    rw [ls_top]
    have := (abs_le.mp energy_table_range.2.2).1
    norm_num at this ⊢
    linarith
  have hA : 0 < p.A := h.computable.ion.A
  have ht : (t.th =? 0.0) = false := by
    rw [Bool.eq_false_iff]
    intro h0
    have := (beq_real _ _).mp h0
    norm_num at this hth
    linarith
  have reach : ∀ {r w'}, calculate env (p.withT T) t c w = .ok (r, w') → ReachableW env w' := fun {r w'} hc =>
    reachableW_call hr (.calculate (p.withT T) t c) (r := .result r) (by
      show (do let r ← calculate env (p.withT T) t c; pure (Response.result r) : Api ℝ _) w = _
      rw [api_bind]
      exact ⟨r, w', hc, rfl⟩)
  by_cases hs : tooSlow T = true
  · have hc : calculate env (p.withT T) t c w = .ok (.init, w) := by
      have hs' : (((p.withT T).T <? Ezero) && ((p.withT T).T <? Ezero - numeric_epsilon)) = true := hs
      unfold calculate
      dsimp only
      rw [if_pos hs']
      rfl
    refine ⟨.init, w, hc, hr, rfl, ?_, ?_⟩
    · have := le_max_right T 0
      have e : (Result.init : Result ℝ).Eout = 0 := by simp only [Result.init]; norm_num
      rw [e]
      linarith
    · simp only [Result.init]
      norm_num
      exact hA
  · have T0 : 0 ≤ T := by
      by_contra hc
      push Not at hc
      apply hs
      unfold tooSlow
      rw [Bool.and_eq_true, lt_real, lt_real]
      have : (0 : ℝ) < Ezero - numeric_epsilon ∧ (0 : ℝ) < Ezero := by
        constructor <;> norm_num [Ezero, numeric_epsilon, dblEps]
      constructor <;> linarith
    have below := fun E w' hE => energy_out_below env hj (p.withT T) n t c (h.withT T).computable hk ((h.withT T).steady env) w w' hr T0 hth E hE
    obtain ⟨r, w', hc⟩ := calculate_succeeds env hdbg w hr (p.withT T) n t c (h.withT T).computable (hdef.withT T) hk hsc
      (by show T < _; norm_num at hT top ⊢; linarith) (fun E w' hE => by
        have : E < T + 2e-13 := below E w' hE
        norm_num at hT top this ⊢
        linarith)
    have hs' : tooSlow T = false := by simpa using hs
    obtain ⟨w1, -, -, -, hE⟩ := calculate_agrees env (p.withT T) t c w w' r hs' hc
    have hb : r.Eout < T + 2e-13 := below _ _ (hE ht)
    refine ⟨r, w', hc, reach hc, calculate_config hr ht hc, by rw [max_eq_left T0]; exact hb, ?_⟩
    rcases calculate_steps hc with ⟨h0, -⟩ | ⟨-, _, _, _, _, -, ⟨h0, -⟩ | ⟨-, -, hl, -⟩⟩
    · rw [show (p.withT T).T = T from rfl, hs'] at h0; cases h0
    · rw [ht] at h0; cases h0
    · rw [hl]
      show _ < (T - r.Eout) * p.A
      have := mul_lt_mul_of_pos_right (show -2e-13 < T - r.Eout by linarith) hA
      linarith

/-- The energies in front of and behind the layers never increase. -/
inductive Slowing : ℝ → List (Result ℝ) → Prop where
  | none (e) : Slowing e []
  | layer {e r rs} (h : r.Eout < max e 0 + 2e-13) (hs : Slowing r.Eout rs) : Slowing e (r :: rs)

/-- No energy behind a layer exceeds the one in front of the first layer (up to 2e-13 MeV/u for each layer). -/
theorem slowing_below {e : ℝ} {rs : List (Result ℝ)} (h : Slowing e rs) : ∀ r ∈ rs, r.Eout < max e 0 + 2e-13 * rs.length := by
  induction h with
  | none => simp
  | layer h hs ih =>
    rename_i e r rs
    intro r' hr'
    rw [List.length_cons, Nat.cast_add, Nat.cast_one]
    have l0 : (0 : ℝ) ≤ rs.length := Nat.cast_nonneg _
    rcases List.mem_cons.mp hr' with rfl | hr'
    · nlinarith
    · have := ih r' hr'
      have m : max r.Eout 0 < max e 0 + 2e-13 := max_lt h (by have := le_max_right e 0; linarith)
      linarith

/-- C113: for the ions from hydrogen to uranium and every stack of layers of at least 1e-5 g/cm2 each, after any history, in builds
without assertions and with at most 0.02 in the uninitialised cells, `calculate` returns one result for each layer; the energy never
increases from layer to layer, no layer has a negative energy loss, and the energy behind the stack is not above the one in
front of it. -/
theorem layers_slow_down (env : Env ℝ) (hdbg : env.debug = false) (hj : SmallJunk env.junk) (w : World ℝ) (hr : ReachableW env w)
    (p : Projectile ℝ) (n : Int) (ps : Phasespace ℝ) (l : Layers ℝ) (c : Config ℝ)
    (h : ∀ m ∈ l.materials, UsualIon p n m c ∧ Computable p n m w.default_config ∧ NonDefault p m c ∧ ScatteringReadable m c ∧ 1e-5 ≤ m.th)
    (hT0 : 0 ≤ p.T) (hT : p.T + 2e-13 * l.materials.length ≤ 9.9e6) :
    ∃ mr w', calculate_layers env p ps l c w = .ok (mr, w') ∧ mr.results.length = l.materials.length ∧ Slowing p.T mr.results ∧
      (∀ r ∈ mr.results, -(2e-13 * p.A) < r.Eloss) ∧ -(2e-13 * p.A * l.materials.length) ≤ mr.total_result.Eloss ∧
      (l.materials ≠ [] → mr.total_result.Eout < p.T + 2e-13 * l.materials.length) := by
  have key : ∀ (ms : List (Material ℝ)) (e : ℝ) (w : World ℝ), ReachableW env w →
      (∀ m ∈ ms, UsualIon p n m c ∧ Computable p n m w.default_config ∧ NonDefault p m c ∧ ScatteringReadable m c ∧ 1e-5 ≤ m.th) →
      max e 0 + 2e-13 * ms.length ≤ 9.9e6 →
      ∃ rs w', Crossing env p c e ms w rs w' ∧ Slowing e rs ∧ ∀ r ∈ rs, -(2e-13 * p.A) < r.Eloss := by
    intro ms
    induction ms with
    | nil => exact fun e w _ _ _ => ⟨[], w, .nil e w, .none e, by simp⟩
    | cons m ms ih =>
      intro e w hr h hT
      obtain ⟨h1, h2, h3, h4, h5⟩ := h m (by simp)
      rw [List.length_cons, Nat.cast_add, Nat.cast_one] at hT
      have l0 : (0 : ℝ) ≤ ms.length := Nat.cast_nonneg _
      have e0 := le_max_left e 0
      have e1 := le_max_right e 0
      obtain ⟨r, w1, hc, hr1, hw1, hE, hl⟩ := layer_energy env hdbg hj w hr p n m c h1 h2 h3 h4 h5 e (by nlinarith)
      have m' : max r.Eout 0 < max e 0 + 2e-13 := max_lt hE (by linarith)
      obtain ⟨rs, w2, k1, k2, k3⟩ := ih r.Eout w1 hr1 (fun m' hm => by rw [hw1]; exact h m' (by simp [hm])) (by linarith)
      refine ⟨r :: rs, w2, .cons hc k1, .layer hE k2, fun x hx => ?_⟩
      rcases List.mem_cons.mp hx with rfl | hx
      · exact hl
      · exact k3 x hx
  obtain ⟨rs, w', hc, hs, hl⟩ := key l.materials p.T w hr h (by rw [max_eq_left hT0]; exact hT)
  obtain ⟨tot, ht⟩ := (layers_crossing env p ps l c w w' rs).mpr hc
  have hlen := crossing_lengths hc
  obtain ⟨-, t2, -, t4⟩ := layers_totals env p ps l c w w' _ ht
  refine ⟨⟨rs, tot⟩, w', ht, hlen, hs, hl, ?_, fun hne => ?_⟩
  · show _ ≤ tot.Eloss
    have t2' : tot.Eloss = (rs.map Result.Eloss).sum := t2
    rw [t2', ← hlen]
    clear t2'
    clear ht hs hc hlen t4
    clear t2
    clear key
    induction rs with
    | nil => simp
    | cons r rs ih =>
      have a1 := hl r (by simp)
      have a2 := ih fun x hx => hl x (by simp [hx])
      rw [List.map_cons, List.sum_cons, List.length_cons, Nat.cast_add, Nat.cast_one, mul_add, mul_one]
      linarith
  · have hrs : rs ≠ [] := by
      intro h0
      rw [h0] at hlen
      exact hne (List.length_eq_zero_iff.mp hlen.symm)
    have := t4 (rs.getLast hrs) (List.getLast?_eq_getLast_of_ne_nil hrs)
    show tot.Eout < _
    have this : tot.Eout = (rs.getLast hrs).Eout := this
    rw [this, ← hlen]
    have b := slowing_below hs _ (List.getLast_mem hrs)
    rwa [max_eq_left hT0] at b

/-- Uranium ions of 1000 MeV/u through two layers of 5 mm of water, from the initial state. -/
example (env : Env ℝ) (hdbg : env.debug = false) (hj : SmallJunk env.junk) : ∃ mr w',
    calculate_layers env (⟨238, 92, 92, 1000⟩ : Projectile ℝ) .init ⟨[⟨1, 0.5, 18.015, 78, [⟨1.00794, 1, 2⟩, ⟨15.9994, 8, 1⟩]⟩,
      ⟨1, 0.5, 18.015, 78, [⟨1.00794, 1, 2⟩, ⟨15.9994, 8, 1⟩]⟩]⟩ .default .init = .ok (mr, w') ∧
    mr.total_result.Eout < 1000 + 1e-12 := by
  obtain ⟨mr, w', h1, -, -, -, -, h2⟩ := layers_slow_down env hdbg hj .init ⟨[], rfl⟩ (⟨238, 92, 92, 1000⟩ : Projectile ℝ) 92 .init
    ⟨[⟨1, 0.5, 18.015, 78, [⟨1.00794, 1, 2⟩, ⟨15.9994, 8, 1⟩]⟩, ⟨1, 0.5, 18.015, 78, [⟨1.00794, 1, 2⟩, ⟨15.9994, 8, 1⟩]⟩]⟩ .default
    (by
      intro m hm
      simp only [List.mem_cons, List.not_mem_nil, or_false, or_self] at hm
      subst hm
      refine ⟨.inr (.inr (uranium_water 1000)), uranium_water_computable 1000, ?_, fun _ => by simp; norm_num, by norm_num⟩
      simp only [NonDefault, Key.eq, Key.default, Projectile.eq, Projectile.default]
      simp
      intro h
      norm_num at h) (by norm_num) (by norm_num)
  refine ⟨mr, w', h1, (h2 (by simp)).trans ?_⟩
  norm_num

end Catima
