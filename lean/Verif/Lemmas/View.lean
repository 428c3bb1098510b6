import Verif.Lemmas.Run
import Verif.Props.Witness
import Verif.Props.EnergyOut

/-!
# Helper lemmas: what a query returns after any history
-/

namespace Catima

theorem runCalls_append {α : Type} [Scalar α] (env : Env α) (cs : List (Call α)) (call : Call α)
    (w w1 w2 : World α) (r : Response α) (h : runCalls env cs w = .ok w1)
    (h' : call.run env w1 = .ok (r, w2)) : runCalls env (cs ++ [call]) w = .ok w2 := by
  induction cs generalizing w with
  | nil =>
    cases h
    show (call.run env _ >>= fun r => runCalls env [] r.2) = _
    rw [h']; rfl
  | cons c cs ih =>
    unfold runCalls at h
    rw [ok_bind] at h
    obtain ⟨a, ha, h⟩ := h
    show (c.run env w >>= fun r => runCalls env (cs ++ [call]) r.2) = _
    rw [ha, bind_ok]
    exact ih _ h

theorem reachableW_call {α : Type} [Scalar α] {env : Env α} {w w' : World α} (hr : ReachableW env w)
    (call : Call α) {r : Response α} (h : call.run env w = .ok (r, w')) : ReachableW env w' := by
  obtain ⟨cs, hcs⟩ := hr
  exact ⟨_, runCalls_append env cs call _ _ _ r hcs h⟩

theorem reachableW_get {α : Type} [Scalar α] {env : Env α} {w w' : World α} (hr : ReachableW env w)
    {p : Projectile α} {t : Material α} {c : Config α} {d : DataPoint α}
    (h : get_data env p t c w = .ok (d, w')) : ReachableW env w' := by
  refine reachableW_call hr (.get_data p t c) (r := .data d) ?_
  show (do return Response.data (← get_data env p t c) : Api α (Response α)) w = _
  rw [api_bind]
  exact ⟨d, w', h, rfl⟩

set_option maxRecDepth 8000 in
/-- The interpolators of the data a query returns after any history are those of the tables of
`calculate_DataPoint` for that query. -/
theorem get_view (env : Env ℝ) (w : World ℝ) (hr : ReachableW env w) (p : Projectile ℝ) (n : Int)
    (t : Material ℝ) (c : Config ℝ) (h : Computable p n t c) (hk : NonDefault p t c) :
    ∃ d w' d0, get_data env p t c w = .ok (d, w') ∧ ReachableW env w' ∧
      w'.default_config = w.default_config ∧ calculate_DataPoint env p t c = .ok d0 ∧
      get_range_spline env d = newSpline env d0.range ∧
      get_range_straggling_spline env d = newSpline env d0.range_straggling ∧
      d0.range.length = 600 ∧ d0.range_straggling.length = 600 ∧
      ∃ y, y.length = 600 ∧ get_angular_variance_spline env d = newSpline env y := by
  obtain ⟨d1, d0, h1, h0, -, -, -⟩ := compute_defined env p n t c h
  obtain ⟨cs, hcs⟩ := id hr
  have hinv := (history_inv env (fun _ => True) trivial cs w (fun c _ => within_true c) hcs).1
  obtain ⟨k', g, ha, -, -, hg⟩ := getWith_view eqLaws_real hinv ⟨p, t, c⟩ hk trivial
  have hrel := computeDP_rel (env := env) (b := env.storeSplines) eqLaws_real ha False False.elim
  rw [withStore_self] at hrel
  dsimp only at hrel hg
  rw [h1] at hrel
  have hview := computeDP_view eqLaws_real env p t c
  rw [h0, h1] at hview
  obtain ⟨v1, v2, v3⟩ := hview
  obtain ⟨d0', hd0', l1, l2, l3⟩ := data_point_defined env p n t c h
  rw [h0] at hd0'
  cases hd0'
  cases hc : Storage.computeDP env k'.p k'.t k'.c with
  | error e => rw [hc] at hrel; exact hrel.elim
  | ok d =>
    rw [hc] at hrel hg
    obtain ⟨e1, e2, e3⟩ := hrel
    have hget : get_data env p t c w = .ok (d, { w with storage := g d }) := by
      unfold get_data
      rw [hg]; rfl
    have hview' := computeDP_view eqLaws_real env k'.p k'.t k'.c
    have hr' := tables_rel (env := env) (b := env.storeSplines) (Agree.refl k'.p k'.t k'.c)
    rw [withStore_self] at hr'
    cases hc' : calculate_DataPoint env k'.p k'.t k'.c with
    | error e => rw [hc', hc] at hview'; exact hview'.elim
    | ok d2 =>
      rw [hc', hc] at hview'
      rw [hc'] at hr'
      exact ⟨d, _, d0, hget, reachableW_get hr hget, rfl, h0, e1.trans v1, e2.trans v2, l1, l2,
        _, hr'.2.2.2, hview'.2.2⟩

end Catima
