import Verif.Props.Layers
import Verif.Props.ThinLayer
import Verif.Props.ConfigTof

/-!
# C98: a layer may be described as several layers of the same material
-/

namespace Catima

/-- The pieces of a layer of material `t`. -/
def pieces (t : Material ℝ) (ths : List ℝ) : Layers ℝ := ⟨ths.map t.set_thickness⟩

/-- One crossed piece: the range decreases by its thickness, up to 1e-5. -/
theorem piece_range {env : Env ℝ} {p : Projectile ℝ} {t : Material ℝ} {c : Config ℝ} {rs : Spline ℝ}
    {f : ℝ → ℝ} (hf : ∀ v, rs.evaluate v = .ok (f v))
    (hview : ∀ w, ReachableW env w → ∀ T th, ∃ d w',
        get_data env (p.withT T) (t.set_thickness th) c w = .ok (d, w') ∧
        get_range_spline env d = .ok rs) {w w' : World ℝ} (hr : ReachableW env w) {e th : ℝ} {r : Result ℝ}
    (h : calculate env (p.withT e) (t.set_thickness th) c w = .ok (r, w')) (hE : 0 < r.Eout) :
    |f e - f r.Eout - th| ≤ 1e-5 := by
  rcases calculate_steps h with ⟨-, rfl, -⟩ | ⟨-, w1, d, rs', ss, hst, hcase⟩
  · simp only [Result.init] at hE
    norm_num at hE
  · obtain ⟨d', w2, hd, hrs⟩ := hview w hr e th
    have e1 := hst.data
    rw [hd] at e1
    cases e1
    have e2 := hst.rspline
    rw [hrs] at e2
    cases e2
    rcases hcase with ⟨h0, -, hr0⟩ | ⟨-, hE1, -⟩
    · have hth : th = 0 := by
        rw [beq_real] at h0
        have : th = 0.0 := h0
        rw [this]
        norm_num
      have : r.Eout = e := by rw [hr0]; rfl
      rw [this, hth]
      norm_num
    · unfold energy_out_spline at hE1
      rw [ok_bind] at hE1
      obtain ⟨R, hR, hE1⟩ := hE1
      rw [ok_bind] at hE1
      obtain ⟨dR, -, hE1⟩ := hE1
      have hRf : R = f e := by
        have : rs.evaluate e = .ok R := hR
        rw [hf] at this
        exact (Except.ok.inj this).symm
      rw [ok_ite] at hE1
      rcases hE1 with ⟨-, h1⟩ | ⟨-, h1⟩
      · have : r.Eout = 0.0 := (Except.ok.inj h1).symm
        rw [this] at hE
        norm_num at hE
      · rcases loop_cases h1 with h2 | h2 | ⟨RE, h2, h3⟩
        · rw [h2] at hE; norm_num at hE
        · rw [h2] at hE; norm_num at hE
        · rw [hf] at h2
          cases h2
          rw [lt_real, fabs_real, hRf] at h3
          have h4 : |f e - f r.Eout - th| < 1.0e-5 := h3
          norm_num at h4 ⊢
          exact h4.le

/-- The state a crossing leaves is one the library can be in. -/
theorem crossing_reachable {env : Env ℝ} {p : Projectile ℝ} {c : Config ℝ} {e : ℝ}
    {m : Material ℝ} {w w1 : World ℝ} {r : Result ℝ} (hr : ReachableW env w)
    (h : calculate env (p.withT e) m c w = .ok (r, w1)) : ReachableW env w1 := by
  refine reachableW_call hr (.calculate (p.withT e) m c) (r := .result r) ?_
  show (do return Response.result (← calculate env (p.withT e) m c) : Api ℝ (Response ℝ)) w = _
  rw [api_bind]
  exact ⟨r, w1, h, rfl⟩

theorem crossing_range {env : Env ℝ} {p : Projectile ℝ} {t : Material ℝ} {c : Config ℝ} {rs : Spline ℝ}
    {f : ℝ → ℝ} (hf : ∀ v, rs.evaluate v = .ok (f v))
    (hview : ∀ w, ReachableW env w → ∀ T th, ∃ d w',
        get_data env (p.withT T) (t.set_thickness th) c w = .ok (d, w') ∧
        get_range_spline env d = .ok rs) (ths : List ℝ) {w w' : World ℝ} (hr : ReachableW env w) {e : ℝ}
    {res : List (Result ℝ)} (h : Crossing env p c e (pieces t ths).materials w res w')
    (hE : ∀ r ∈ res, 0 < r.Eout) :
    |f e - f (lastEnergy e res) - ths.sum| ≤ ths.length * 1e-5 := by
  induction ths generalizing w e res with
  | nil =>
    cases h
    simp [lastEnergy]
  | cons a ths ih =>
    have h' : Crossing env p c e (t.set_thickness a :: (pieces t ths).materials) w res w' := h
    cases h' with
    | cons h1 h2 =>
      rename_i w1 r rs'
      have k1 := piece_range hf hview hr h1 (hE r (by simp))
      have k2 := ih (crossing_reachable hr h1) h2 (fun r hr => hE r (by simp [hr]))
      rw [lastEnergy_cons]
      rw [abs_le] at k1 k2 ⊢
      push_cast [List.sum_cons, List.length_cons]
      constructor <;> linarith [k1.1, k1.2, k2.1, k2.2]

/-- C98: when a projectile gets through a layer that is described as a stack of pieces of the same
material, its range has decreased by the sum of the thicknesses, up to the tolerance 1e-5 g/cm2 of
each piece.  `R` is the range the library reports at any time. -/
theorem layers_range (env : Env ℝ) (p : Projectile ℝ) (n : Int) (t : Material ℝ) (c : Config ℝ)
    (hc : Computable p n t c) (hk : NonDefault p t c) :
    ∃ R : ℝ → ℝ,
      (∀ w T, ReachableW env w → (Call.range (p.withT T) t c).respond env w = .ok (.num (R T))) ∧
      ∀ w w' ps ths mr, ReachableW env w → ths ≠ [] →
        calculate_layers env p ps (pieces t ths) c w = .ok (mr, w') →
        (∀ r ∈ mr.results, 0 < r.Eout) →
        |R p.T - R mr.total_result.Eout - ths.sum| ≤ ths.length * 1e-5 := by
  obtain ⟨d0, rs, -, -, -, trs, hview⟩ := range_spline env p n t c hc hk
  choose f hf using fun v => (trs.1 v).1
  refine ⟨f, fun w T hr => ?_, fun w w' ps ths mr hr hne h hE => ?_⟩
  · obtain ⟨d, w', hd, hrs⟩ := hview w hr T t.th
    have hrun : (Call.range (p.withT T) t c).run env w = .ok (.num (f T), w') := by
      show (do return Response.num (← range env (p.withT T) t c) : Api ℝ (Response ℝ)) w = _
      rw [api_bind]
      refine ⟨f T, w', ?_, rfl⟩
      unfold range
      simp only [api_bind, api_pureM, ok_bind]
      exact ⟨d, w', hd, ⟨rs, hrs, hf T⟩, rfl⟩
    unfold Call.respond
    rw [hrun]
    rfl
  · have h1 := (layers_inv h).1
    have h2 := (layers_totals env p ps _ c w w' mr h).2.2.2
    have hlen := crossing_lengths h1
    have hnr : mr.results ≠ [] := by
      intro h0
      rw [h0] at hlen
      apply hne
      simpa [pieces] using hlen.symm
    obtain ⟨r, hr'⟩ : ∃ r, mr.results.getLast? = some r :=
      ⟨_, List.getLast?_eq_some_getLast hnr⟩
    have h3 := crossing_range hf hview ths hr h1 hE
    have : lastEnergy p.T mr.results = mr.total_result.Eout := by
      rw [h2 r hr']
      unfold lastEnergy
      rw [hr']
      rfl
    rw [this] at h3
    exact h3

/-- C98: two descriptions of the same layer, with `ths` and `ths'` as thicknesses of the pieces, lead to
energies whose ranges differ by at most 1e-5 g/cm2 for each piece. -/
theorem layers_cut (env : Env ℝ) (p : Projectile ℝ) (n : Int) (t : Material ℝ) (c : Config ℝ)
    (hc : Computable p n t c) (hk : NonDefault p t c) (w1 w2 w1' w2' w : World ℝ) (ps ps' : Phasespace ℝ)
    (ths ths' : List ℝ) (mr mr' : MultiResult ℝ) (h1 : ReachableW env w1) (h2 : ReachableW env w2)
    (hw : ReachableW env w) (hn : ths ≠ []) (hn' : ths' ≠ []) (hsum : ths.sum = ths'.sum)
    (hm : calculate_layers env p ps (pieces t ths) c w1 = .ok (mr, w1'))
    (hm' : calculate_layers env p ps' (pieces t ths') c w2 = .ok (mr', w2'))
    (hE : ∀ r ∈ mr.results, 0 < r.Eout) (hE' : ∀ r ∈ mr'.results, 0 < r.Eout) :
    ∃ a b, (Call.range (p.withT mr.total_result.Eout) t c).respond env w = .ok (.num a) ∧
      (Call.range (p.withT mr'.total_result.Eout) t c).respond env w = .ok (.num b) ∧
      |a - b| ≤ (ths.length + ths'.length) * 1e-5 := by
  obtain ⟨R, hR, hl⟩ := layers_range env p n t c hc hk
  have k1 := hl w1 w1' ps ths mr h1 hn hm hE
  have k2 := hl w2 w2' ps' ths' mr' h2 hn' hm' hE'
  refine ⟨_, _, hR w _ hw, hR w _ hw, ?_⟩
  rw [abs_le] at k1 k2 ⊢
  constructor <;> linarith [k1.1, k1.2, k2.1, k2.2]

/-- C98 for thicker layers: of two layers that a projectile gets through, the one that is thicker by `s`
leaves it a range that is smaller by `s`, up to 2e-5 g/cm2. -/
theorem thicker_layer (env : Env ℝ) (p : Projectile ℝ) (n : Int) (t : Material ℝ) (c : Config ℝ)
    (hc : Computable p n t c) (hk : NonDefault p t c) (w1 w2 w1' w2' w : World ℝ) (a b : ℝ)
    (r r' : Result ℝ) (h1 : ReachableW env w1) (h2 : ReachableW env w2) (hw : ReachableW env w)
    (hm : calculate env p (t.set_thickness a) c w1 = .ok (r, w1'))
    (hm' : calculate env p (t.set_thickness b) c w2 = .ok (r', w2')) (hE : 0 < r.Eout) (hE' : 0 < r'.Eout) :
    ∃ x y, (Call.range (p.withT r.Eout) t c).respond env w = .ok (.num x) ∧
      (Call.range (p.withT r'.Eout) t c).respond env w = .ok (.num y) ∧ |(x - y) - (b - a)| ≤ 2e-5 := by
  obtain ⟨R, hR, hl⟩ := layers_range env p n t c hc hk
  have key : ∀ w w' th r, ReachableW env w → calculate env p (t.set_thickness th) c w = .ok (r, w') →
      0 < r.Eout → |R p.T - R r.Eout - th| ≤ 1e-5 := by
    intro w w' th r hr h h0
    have hcr : Crossing env p c p.T (pieces t [th]).materials w [r] w' :=
      Crossing.cons (show calculate env (p.withT p.T) (t.set_thickness th) c w = .ok (r, w') from h)
        (Crossing.nil _ _)
    obtain ⟨tot, ht⟩ := (layers_crossing env p .init (pieces t [th]) c w w' [r]).mpr hcr
    have k := hl w w' .init [th] ⟨[r], tot⟩ hr (by simp) ht (by simpa using h0)
    have := (layers_totals env p .init _ c w w' _ ht).2.2.2 r rfl
    rw [this] at k
    simpa using k
  have k1 := key _ _ _ _ h1 hm hE
  have k2 := key _ _ _ _ h2 hm' hE'
  refine ⟨_, _, hR w _ hw, hR w _ hw, ?_⟩
  rw [abs_le] at k1 k2 ⊢
  norm_num at k1 k2 ⊢
  constructor <;> linarith [k1.1, k1.2, k2.1, k2.2]

/-- `calculate` on a thin piece at an energy where the range is smooth. -/
theorem thin_piece {env : Env ℝ} (hdbg : env.debug = false) {p : Projectile ℝ} {n : Int} {t : Material ℝ}
    {c : Config ℝ} (hc : Computable p n t c) (hk : NonDefault p t c) (hsc : ScatteringReadable t c)
    (hcd : c = .default) {rs : Spline ℝ} {f : ℝ → ℝ} {T d : ℝ} (hsm : Smooth rs f T d) (h1 : 1 < T)
    (h2 : T < 1e6)
    (hview : ∀ w, ReachableW env w → ∀ T th, ∃ d w',
        get_data env (p.withT T) (t.set_thickness th) c w = .ok (d, w') ∧
        get_range_spline env d = .ok rs) (η : ℝ) (hη : 0 < η) :
    ∃ th, 0 < th ∧ ∀ w, ReachableW env w → w.default_config = .default →
      ∃ r w', calculate env (p.withT T) (t.set_thickness th) c w = .ok (r, w') ∧ |r.Eout - T| < η ∧
        w'.default_config = .default := by
  obtain ⟨δ, hδ, hout⟩ := thin_energy_out hsm
  have hd := abs_pos.mpr hsm.ne
  set m := min η 1 with hm
  have hm0 : 0 < m := lt_min hη one_pos
  have hm1 : m ≤ 1 := min_le_right _ _
  have hmη : m ≤ η := min_le_left _ _
  refine ⟨min (δ / 2) (|d| * (m / 2)), by positivity, fun w hr hw => ?_⟩
  set th := min (δ / 2) (|d| * (m / 2)) with hth
  have hth0 : 0 < th := by positivity
  have ha : th < δ := lt_of_le_of_lt (min_le_left _ _) (by linarith)
  have hb : |th / d| < m := by
    rw [abs_div, abs_of_pos hth0, div_lt_iff₀ hd]
    have := min_le_right (δ / 2) (|d| * (m / 2))
    nlinarith
  obtain ⟨dd, wd, hg, hrs⟩ := hview w hr T th
  have hE : energy_out env (p.withT T) (t.set_thickness th) c w = .ok (T - th / d, wd) := by
    unfold energy_out
    simp only [api_bind, api_pureM, ok_bind]
    exact ⟨dd, wd, hg, ⟨rs, hrs, hout th hth0.le ha _⟩, rfl⟩
  rw [abs_lt] at hb
  obtain ⟨r, w', hres⟩ := calculate_succeeds env hdbg w hr (p.withT T) n (t.set_thickness th) c
    ((hc.withT T).thickness th) (by rw [hw, ← hcd]; exact (hc.withT T).thickness th) hk hsc
    (below_top _ (by show T ≤ _; linarith)) (fun E w' h => by
      rw [hE] at h
      cases h
      exact below_top _ (by linarith))
  obtain ⟨w2, h3⟩ := (calculate_balance env (p.withT T) _ c w w' r hres).2.2 (by show _ ≤ T; linarith)
    hth0.ne'
  rw [hE] at h3
  have h4 : r.Eout = T - th / d := by
    have := Except.ok.inj h3
    exact (congrArg Prod.fst this).symm
  refine ⟨r, w', hres, ?_, ?_⟩
  · rw [h4, abs_lt]
    constructor <;> linarith [hb.1, hb.2]
  · rw [← hw]
    have ht0 : ((t.set_thickness th).th =? 0.0) = false := by
      rw [beq_real_false]
      show th ≠ 0.0
      norm_num
      exact hth0.ne'
    have hT0 : (((p.withT T).T <? Ezero) && ((p.withT T).T <? Ezero - numeric_epsilon)) = false := by
      have : ((p.withT T).T <? Ezero) = false := by
        rw [Bool.eq_false_iff, ne_eq, lt_real]
        show ¬ T < (1.0e-3 : ℝ)
        norm_num
        linarith
      rw [this]
      rfl
    have hav := (calculate_agrees_out env _ _ c w w' r hr (key_refl_real _) hT0 ht0 hres).2.1
    unfold angular_variance at hav
    simp only [api_bind, api_pureM] at hav
    obtain ⟨u1, v1, ⟨a1, b1⟩, u2, v2, ⟨a2, b2⟩, u3, v3, ⟨a3, b3⟩, d3, w3, h5, a4, b4⟩ := hav
    rw [← b4, (get_data_config h5).1, ← b3, ← b2, ← b1]

/-- C98 applies: two layers of carbon that carbon ions get through. -/
example (env : Env ℝ) (hdbg : env.debug = false) : ∃ T a b mr w', 0 < a ∧ 0 < b ∧
    calculate_layers env ⟨12, 6, 6, T⟩ .init (pieces ⟨2, 1, 12, 0, [⟨12, 6, 1⟩]⟩ [a, b]) .default .init =
      .ok (mr, w') ∧ ∀ r ∈ mr.results, 0 < r.Eout := by
  have hc : ∀ T, Computable ⟨12, 6, 6, T⟩ 6 (⟨2, 1, 12, 0, [⟨12, 6, 1⟩]⟩ : Material ℝ) .default := fun T =>
    ⟨(carbon_water_usual 6 T).1.ion, by norm_num, ⟨by simp, by simp, by simp, by simp, by norm_num⟩,
      by simp, Or.inl rfl⟩
  have hnd : ∀ T, NonDefault ⟨12, 6, 6, T⟩ (⟨2, 1, 12, 0, [⟨12, 6, 1⟩]⟩ : Material ℝ) .default := by
    intro T
    simp only [NonDefault, Key.eq, Key.default, Projectile.eq, Projectile.default]
    simp
    intro h
    norm_num at h
  have hu : Usual ⟨12, 6, 6, 100⟩ 6 (⟨2, 1, 12, 0, [⟨12, 6, 1⟩]⟩ : Material ℝ) :=
    ⟨(carbon_water_usual 6 100).2.1, by simp [TypicalI]⟩
  have hsc : ScatteringReadable (⟨2, 1, 12, 0, [⟨12, 6, 1⟩]⟩ : Material ℝ) .default :=
    fun h => absurd h (by decide)
  obtain ⟨rs, f, T, hT1, hT2, -, hev, hview⟩ :=
    smooth_range_near env _ 6 _ _ (hc 100) hu (hnd 100) 300 (by norm_num) (by norm_num)
  obtain ⟨hb1, hb2⟩ := table_around_100
  obtain ⟨η, hη, hη'⟩ := Metric.eventually_nhds_iff.mp hev
  obtain ⟨d, hsm⟩ := hη' (by rw [dist_self]; exact hη)
  have hT3 : T < 1000 := by
    have : (0 : ℝ) < 10 * 2⁻¹ ^ 52 := by positivity
    linarith
  obtain ⟨a, ha, hcalc⟩ := thin_piece hdbg (hc 100) (hnd 100) hsc rfl hsm (by linarith) (by linarith) hview
    (min η 1) (lt_min hη one_pos)
  obtain ⟨r1, w1, h1, h2, h3⟩ := hcalc .init ⟨[], rfl⟩ rfl
  have hr1 : ReachableW env w1 := crossing_reachable (p := ⟨12, 6, 6, 100⟩) ⟨[], rfl⟩ h1
  obtain ⟨d', hsm'⟩ := hη' (show dist r1.Eout T < η by
    rw [Real.dist_eq]
    exact lt_of_lt_of_le h2 (min_le_left _ _))
  have h4 := abs_lt.mp (lt_of_lt_of_le h2 (min_le_right _ _))
  obtain ⟨b, hb, hcalc'⟩ := thin_piece hdbg (hc 100) (hnd 100) hsc rfl hsm' (by linarith) (by linarith)
    hview 1 one_pos
  obtain ⟨r2, w2, h5, h6, -⟩ := hcalc' w1 hr1 h3
  have h7 := abs_lt.mp h6
  have hcr : Crossing env ⟨12, 6, 6, T⟩ .default T
      (pieces ⟨2, 1, 12, 0, [⟨12, 6, 1⟩]⟩ [a, b]).materials .init [r1, r2] w2 :=
    Crossing.cons h1 (Crossing.cons h5 (Crossing.nil _ _))
  obtain ⟨tot, htot⟩ := (layers_crossing env ⟨12, 6, 6, T⟩ .init
    (pieces ⟨2, 1, 12, 0, [⟨12, 6, 1⟩]⟩ [a, b]) .default .init w2 [r1, r2]).mpr hcr
  refine ⟨T, a, b, ⟨[r1, r2], tot⟩, w2, ha, hb, htot, ?_⟩
  intro r hr
  rcases List.mem_cons.mp hr with rfl | hr
  · linarith
  · rcases List.mem_singleton.mp hr with rfl
    linarith

end Catima
