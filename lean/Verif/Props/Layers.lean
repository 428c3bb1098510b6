import Verif.Props.CalculateDefined
import Verif.Props.Reactions
import Verif.Spec.Layers
import Verif.Props.Structures

/-!
# C61-C66: stacks of materials
-/

namespace Catima
variable {α : Type} [Scalar α]

/-- Accumulation over pairs of materials and results. -/
def accumulate (ms : List (Material α)) (rs : List (Result α)) (tot : Result α) : Result α :=
  (ms.zip rs).foldl (fun t mr => addLayerResult mr.1 mr.2 t) tot

/-- Energy behind the last material. -/
def lastEnergy (e : α) (rs : List (Result α)) : α := (rs.getLast?.map Result.Eout).getD e

omit [Scalar α] in
theorem lastEnergy_cons (e : α) (r : Result α) (rs : List (Result α)) :
    lastEnergy e (r :: rs) = lastEnergy r.Eout rs := by
  unfold lastEnergy
  cases rs with
  | nil => rfl
  | cons a l => simp [List.getLast?_cons]

theorem loop_crossing (env : Env α) (p : Projectile α) (c : Config α) (ms : List (Material α)) :
    ∀ (e : α) (tot : Result α) (w w' : World α) (rs : List (Result α)) (tot' : Result α) (e' : α),
    layersLoop env p c ms e tot w = .ok ((rs, tot', e'), w') ↔
      Crossing env p c e ms w rs w' ∧ tot' = accumulate ms rs tot ∧ e' = lastEnergy e rs := by
  induction ms with
  | nil =>
    intro e tot w w' rs tot' e'
    show (pure ([], tot, e) : Api α _) w = _ ↔ _
    rw [api_pure]
    constructor
    · rintro ⟨h, rfl⟩
      cases h
      exact ⟨.nil _ _, rfl, rfl⟩
    · rintro ⟨h, rfl, rfl⟩
      cases h
      exact ⟨rfl, rfl⟩
  | cons m ms ih =>
    intro e tot w w' rs tot' e'
    unfold layersLoop
    rw [api_bind]
    constructor
    · rintro ⟨r, w1, hr, h⟩
      rw [api_bind] at h
      obtain ⟨⟨rs1, tot1, e1⟩, w2, h1, h2⟩ := h
      rw [api_pure] at h2
      obtain ⟨h2, rfl⟩ := h2
      cases h2
      obtain ⟨k1, k2, k3⟩ := (ih _ _ _ _ _ _ _).mp h1
      exact ⟨.cons hr k1, k2, by rw [k3, lastEnergy_cons]⟩
    · rintro ⟨h, h2, h3⟩
      cases h with
      | cons hr hs =>
        rename_i w1 r rs
        refine ⟨r, w1, hr, ?_⟩
        rw [api_bind]
        rw [lastEnergy_cons] at h3
        exact ⟨(rs, tot', e'), w', (ih _ _ _ _ _ _ _).mpr ⟨hs, h2, h3⟩, rfl⟩

/-! ## C61 -/

/-- C61: `calculate` on `Layers` returns exactly when crossing the materials one after the other does,
and then returns the results of that crossing, in order. -/
theorem layers_crossing (env : Env α) (p : Projectile α) (ps : Phasespace α) (l : Layers α)
    (c : Config α) (w w' : World α) (rs : List (Result α)) :
    (∃ tot, calculate_layers env p ps l c w = .ok (⟨rs, tot⟩, w')) ↔
      Crossing env p c p.T l.materials w rs w' := by
  unfold calculate_layers
  constructor
  · rintro ⟨tot, h⟩
    rw [api_bind] at h
    obtain ⟨⟨rs1, tot1, e1⟩, w1, h1, h2⟩ := h
    rw [api_pure] at h2
    obtain ⟨h2, rfl⟩ := h2
    cases h2
    exact ((loop_crossing env p c _ _ _ _ _ _ _ _).mp h1).1
  · intro h
    refine ⟨finishTotal (lastEnergy p.T rs) (accumulate l.materials rs (startTotal p ps)), ?_⟩
    rw [api_bind]
    exact ⟨(rs, _, _), w', (loop_crossing env p c _ _ _ _ _ _ _ _).mpr ⟨h, rfl, rfl⟩, rfl⟩

/-- C61 for one material of the stack: as many results as materials; result `i` is that of the
single-material `calculate` at the energy that material `i-1` left (the incoming energy for the
first). -/
theorem layers_each (env : Env α) (p : Projectile α) (c : Config α) (e : α) (ms : List (Material α))
    (w w' : World α) (rs : List (Result α)) (h : Crossing env p c e ms w rs w') :
    rs.length = ms.length ∧ ∀ (i : Nat) m, ms[i]? = some m → ∃ r w1 w2, rs[i]? = some r ∧
      calculate env (p.withT (if i = 0 then e else ((rs[i - 1]?).map Result.Eout).getD e)) m c w1
        = .ok (r, w2) := by
  induction h with
  | nil => simp
  | cons h hs ih =>
    rename_i e m ms w w1 w2 r rs
    refine ⟨by simp [ih.1], fun i m' hm => ?_⟩
    cases i with
    | zero =>
      simp only [List.getElem?_cons_zero, Option.some.injEq] at hm
      subst hm
      exact ⟨r, w, w1, rfl, by rw [if_pos rfl]; exact h⟩
    | succ i =>
      rw [List.getElem?_cons_succ] at hm
      obtain ⟨r', u, v, h1, h2⟩ := ih.2 i m' hm
      refine ⟨r', u, v, by rw [List.getElem?_cons_succ]; exact h1, ?_⟩
      rw [if_neg (by omega)]
      cases i with
      | zero => simpa using h2
      | succ j =>
        rw [if_neg (by omega)] at h2
        simp only [Nat.add_sub_cancel, List.getElem?_cons_succ] at h2 ⊢
        have hj : j < rs.length := by
          have := (List.getElem?_eq_some_iff.mp h1).1
          omega
        rw [List.getElem?_eq_getElem hj] at h2 ⊢
        exact h2

/-! ## C63 -/

theorem crossing_append (env : Env α) (p : Projectile α) (c : Config α) (e : α)
    (l1 l2 : List (Material α)) (w w' : World α) (rs : List (Result α)) :
    Crossing env p c e (l1 ++ l2) w rs w' ↔ ∃ rs1 rs2 w1, rs = rs1 ++ rs2 ∧
      Crossing env p c e l1 w rs1 w1 ∧ Crossing env p c (lastEnergy e rs1) l2 w1 rs2 w' := by
  induction l1 generalizing e w rs with
  | nil =>
    constructor
    · intro h
      exact ⟨[], rs, w, rfl, .nil _ _, h⟩
    · rintro ⟨rs1, rs2, w1, rfl, h1, h2⟩
      cases h1
      exact h2
  | cons m l1 ih =>
    constructor
    · intro h
      cases h with
      | cons h hs =>
        rename_i w1 r rs
        obtain ⟨rs1, rs2, w2, rfl, k1, k2⟩ := (ih _ _ _).mp hs
        exact ⟨r :: rs1, rs2, w2, rfl, .cons h k1, by rw [lastEnergy_cons]; exact k2⟩
    · rintro ⟨rs1, rs2, w1, rfl, h1, h2⟩
      cases h1 with
      | cons h hs =>
        rw [lastEnergy_cons] at h2
        exact .cons h ((ih _ _ _).mpr ⟨_, _, _, rfl, hs, h2⟩)

theorem crossing_withT (env : Env α) (p : Projectile α) (c : Config α) (x e : α)
    (ms : List (Material α)) (w w' : World α) (rs : List (Result α)) :
    Crossing env (p.withT x) c e ms w rs w' ↔ Crossing env p c e ms w rs w' := by
  constructor
  · intro h
    induction h with
    | nil => exact .nil _ _
    | cons h _ ih => exact .cons h ih
  · intro h
    induction h with
    | nil => exact .nil _ _
    | cons h _ ih => exact .cons h ih

/-- C63: the results for `l1` followed by `l2` are the results for `l1` and, started at the energy
left by `l1`, those for `l2`. -/
theorem layers_split (env : Env α) (p : Projectile α) (ps ps' : Phasespace α) (l1 l2 l : Layers α)
    (c : Config α) (w w' : World α) (rs : List (Result α)) (hl : l.materials = l1.materials ++ l2.materials) :
    (∃ tot, calculate_layers env p ps l c w = .ok (⟨rs, tot⟩, w')) ↔
      ∃ rs1 tot1 w1 rs2 tot2, calculate_layers env p ps l1 c w = .ok (⟨rs1, tot1⟩, w1) ∧
        calculate_layers env (p.withT ((rs1.getLast?.map Result.Eout).getD p.T)) ps' l2 c w1
          = .ok (⟨rs2, tot2⟩, w') ∧ rs = rs1 ++ rs2 := by
  rw [layers_crossing, hl, crossing_append]
  constructor
  · rintro ⟨rs1, rs2, w1, rfl, h1, h2⟩
    obtain ⟨tot1, k1⟩ := (layers_crossing env p ps l1 c w w1 rs1).mpr h1
    obtain ⟨tot2, k2⟩ := (layers_crossing env (p.withT (lastEnergy p.T rs1)) ps' l2 c w1 w' rs2).mpr
      ((crossing_withT env p c _ _ _ _ _ _).mpr h2)
    exact ⟨rs1, tot1, w1, rs2, tot2, k1, k2, rfl⟩
  · rintro ⟨rs1, tot1, w1, rs2, tot2, k1, k2, rfl⟩
    exact ⟨rs1, rs2, w1, rfl, (layers_crossing env p ps l1 c w w1 rs1).mp ⟨_, k1⟩,
      (crossing_withT env p c _ _ _ _ _ _).mp
        ((layers_crossing env (p.withT (lastEnergy p.T rs1)) ps' l2 c w1 w' rs2).mp ⟨_, k2⟩)⟩

/-! ## C62 -/

theorem accumulate_sums (prs : List (Material ℝ × Result ℝ)) (tot : Result ℝ) :
    let t := prs.foldl (fun t mr => addLayerResult mr.1 mr.2 t) tot
    t.Eloss = tot.Eloss + (prs.map fun x => x.2.Eloss).sum ∧
    t.tof = tot.tof + (prs.map fun x => x.2.tof).sum ∧
    t.sigma_E = tot.sigma_E + (prs.map fun x => x.2.sigma_E ^ 2).sum ∧
    t.Ein = tot.Ein ∧
    t.Eout = (prs.getLast?.map fun x => x.2.Eout).getD tot.Eout := by
  induction prs generalizing tot with
  | nil => simp
  | cons x prs ih =>
    obtain ⟨h1, h2, h3, h4, h5⟩ := ih (addLayerResult x.1 x.2 tot)
    simp only [List.foldl_cons, List.map_cons, List.sum_cons]
    refine ⟨?_, ?_, ?_, ?_, ?_⟩
    · rw [h1]; simp only [addLayerResult]; ring
    · rw [h2]; simp only [addLayerResult]; ring
    · rw [h3]; simp only [addLayerResult]; ring
    · rw [h4]; rfl
    · rw [h5]
      cases prs with
      | nil => rfl
      | cons a l => simp [List.getLast?_cons]

theorem crossing_lengths {env : Env α} {p : Projectile α} {c : Config α} {e : α} {ms : List (Material α)}
    {w w' : World α} {rs : List (Result α)} (h : Crossing env p c e ms w rs w') :
    rs.length = ms.length := (layers_each env p c e ms w w' rs h).1

/-- What a successful call on `Layers` consists of. -/
theorem layers_inv {env : Env α} {p : Projectile α} {ps : Phasespace α} {l : Layers α} {c : Config α}
    {w w' : World α} {mr : MultiResult α} (h : calculate_layers env p ps l c w = .ok (mr, w')) :
    Crossing env p c p.T l.materials w mr.results w' ∧
    mr.total_result = finishTotal (lastEnergy p.T mr.results)
      (accumulate l.materials mr.results (startTotal p ps)) := by
  unfold calculate_layers at h
  rw [api_bind] at h
  obtain ⟨⟨rs1, tot1, e1⟩, w1, h1, h2⟩ := h
  rw [api_pure] at h2
  obtain ⟨h2, rfl⟩ := h2
  subst h2
  obtain ⟨k1, k2, k3⟩ := (loop_crossing env p c _ _ _ _ _ _ _ _).mp h1
  refine ⟨k1, ?_⟩
  rw [← k2, ← k3]

/-- C62: the totals of energy loss and time of flight are the sums over the materials; the outgoing
energy is that of the last material. -/
theorem layers_totals (env : Env ℝ) (p : Projectile ℝ) (ps : Phasespace ℝ) (l : Layers ℝ)
    (c : Config ℝ) (w w' : World ℝ) (mr : MultiResult ℝ)
    (h : calculate_layers env p ps l c w = .ok (mr, w')) :
    mr.total_result.Ein = p.T ∧
    mr.total_result.Eloss = (mr.results.map Result.Eloss).sum ∧
    mr.total_result.tof = (mr.results.map Result.tof).sum ∧
    (∀ r, mr.results.getLast? = some r → mr.total_result.Eout = r.Eout) := by
  obtain ⟨h1, h2⟩ := layers_inv h
  have hlen := crossing_lengths h1
  obtain ⟨k1, k2, -, k4, k5⟩ := accumulate_sums (l.materials.zip mr.results) (startTotal p ps)
  have hz : (l.materials.zip mr.results).map Prod.snd = mr.results := List.map_snd_zip hlen.le
  have hEl : ∀ f : Result ℝ → ℝ, ((l.materials.zip mr.results).map fun x => f x.2) = mr.results.map f := by
    intro f
    rw [← hz, List.map_map, hz]
    rfl
  have hfin : ∀ (e : ℝ) (t : Result ℝ), (finishTotal e t).Ein = t.Ein ∧ (finishTotal e t).Eloss = t.Eloss ∧
      (finishTotal e t).tof = t.tof ∧ (finishTotal e t).Eout = t.Eout := by
    intro e t
    unfold finishTotal
    split <;> exact ⟨rfl, rfl, rfl, rfl⟩
  obtain ⟨f1, f2, f3, f4⟩ := hfin (lastEnergy p.T mr.results)
    (accumulate l.materials mr.results (startTotal p ps))
  rw [h2, f1, f2, f3, f4]
  refine ⟨k4.trans rfl, ?_, ?_, ?_⟩
  · refine k1.trans ?_
    rw [hEl Result.Eloss]
    simp only [startTotal, Result.init]
    norm_num
  · refine k2.trans ?_
    rw [hEl Result.tof]
    simp only [startTotal, Result.init]
    norm_num
  · intro r hr
    refine k5.trans ?_
    have : ((l.materials.zip mr.results).getLast?.map fun x => x.2.Eout) = some r.Eout := by
      have e : ((l.materials.zip mr.results).getLast?.map Prod.snd) = some r := by
        rw [← List.getLast?_map, hz, hr]
      cases hq : (l.materials.zip mr.results).getLast? with
      | none => rw [hq] at e; cases e
      | some q =>
        rw [hq] at e
        simp only [Option.map_some, Option.some.injEq] at e ⊢
        rw [e]
    rw [this]
    rfl

theorem crossing_energy (env : Env ℝ) (p : Projectile ℝ) (c : Config ℝ) (e : ℝ) (ms : List (Material ℝ))
    (w w' : World ℝ) (rs : List (Result ℝ)) (h : Crossing env p c e ms w rs w')
    (he : e = 0 ∨ 1e-3 ≤ e) (hE : ∀ r ∈ rs, r.Eout = 0 ∨ 1e-3 ≤ r.Eout) :
    (rs.map Result.Eloss).sum = p.A * (e - lastEnergy e rs) := by
  induction h with
  | nil => simp [lastEnergy]
  | cons h hs ih =>
    rename_i e m ms w w1 w2 r rs
    rw [lastEnergy_cons, List.map_cons, List.sum_cons,
      ih (hE r (by simp)) (fun r hr => hE r (by simp [hr]))]
    have hloss : r.Eloss = p.A * (e - r.Eout) := by
      rcases he with rfl | he
      · have := calculate_below_limit env (p.withT 0) m c w (by
          show (0 : ℝ) < _
          norm_num)
        rw [this] at h
        cases h
        norm_num
      · obtain ⟨b1, b2, -⟩ := calculate_balance env (p.withT e) m c w w1 r h
        rw [b1, b2 he, mul_comm]
        rfl
    rw [hloss]
    ring

/-- C62: the total loss is the difference of the energies, provided every material stops the
projectile or leaves it above the limit of 1e-3 MeV/u. -/
theorem layers_balance (env : Env ℝ) (p : Projectile ℝ) (ps : Phasespace ℝ) (l : Layers ℝ)
    (c : Config ℝ) (w w' : World ℝ) (mr : MultiResult ℝ) (hT : 1e-3 ≤ p.T) (hne : l.materials ≠ [])
    (h : calculate_layers env p ps l c w = .ok (mr, w'))
    (hE : ∀ r ∈ mr.results, r.Eout = 0 ∨ 1e-3 ≤ r.Eout) :
    mr.total_result.Eloss = p.A * (p.T - mr.total_result.Eout) := by
  obtain ⟨-, t1, -, t3⟩ := layers_totals env p ps l c w w' mr h
  obtain ⟨h1, -⟩ := layers_inv h
  rw [t1, crossing_energy env p c p.T l.materials w w' mr.results h1 (.inr hT) hE]
  have hlen := crossing_lengths h1
  have hrs : mr.results ≠ [] := by
    intro h0
    rw [h0] at hlen
    exact hne (List.length_eq_zero_iff.mp hlen.symm)
  have hl := List.getLast?_eq_some_getLast hrs
  rw [t3 _ hl]
  unfold lastEnergy
  rw [hl]
  rfl

/-! ## C64 -/

theorem Moments.drift_drift (s : Moments) (a b : ℝ) : (s.drift a).drift b = s.drift (a + b) := by
  simp only [Moments.drift, Moments.mk.injEq]
  refine ⟨by ring, by ring, trivial⟩

theorem Moments.drift_add (s t : Moments) (a : ℝ) : (s.add t).drift a = (s.drift a).add (t.drift a) := by
  simp only [Moments.drift, Moments.add, Moments.mk.injEq]
  refine ⟨by ring, by ring, trivial⟩

theorem Moments.add_assoc (s t u : Moments) : (s.add t).add u = s.add (t.add u) := by
  simp only [Moments.add, Moments.mk.injEq]
  refine ⟨by ring, by ring, by ring⟩

theorem behind_cons (s m : Moments) (L : ℝ) (rest : List (ℝ × Moments)) :
    behind s ((L, m) :: rest) = behind ((s.drift L).add m) rest := by
  unfold behind
  rw [Moments.drift_add, Moments.drift_drift, Moments.add_assoc, List.map_cons, List.sum_cons]
  rfl

/-- The running total of `calculate` read as moments (variances, no square roots yet). -/
def Result.raw (t : Result ℝ) : Moments := ⟨t.sigma_x, t.cov, t.sigma_a⟩

theorem accumulate_moments (prs : List (Material ℝ × Result ℝ)) (tot : Result ℝ) :
    (prs.foldl (fun t mr => addLayerResult mr.1 mr.2 t) tot).raw =
      behind tot.raw (prs.map fun x => (x.1.th / x.1.rho, x.2.moments)) := by
  induction prs generalizing tot with
  | nil =>
    simp only [List.foldl_nil, List.map_nil, behind, produced, Moments.add, Moments.drift, List.sum_nil,
      Result.raw, Moments.mk.injEq]
    refine ⟨by ring, by ring, by ring⟩
  | cons x prs ih =>
    rw [List.foldl_cons, ih, List.map_cons, behind_cons]
    congr 1
    simp only [Result.raw, addLayerResult, Result.moments, Moments.add, Moments.drift, Material.thickness_cm,
      Moments.mk.injEq]
    refine ⟨by norm_num; ring, by ring, by ring⟩

theorem Moments.Valid.drift {s : Moments} (h : s.Valid) (L : ℝ) : (s.drift L).Valid := by
  obtain ⟨h1, h2, h3⟩ := h
  refine ⟨?_, h2, ?_⟩
  · show 0 ≤ s.xx + 2 * L * s.xa + L ^ 2 * s.aa
    rcases h2.eq_or_lt with h0 | h0
    · rw [← h0, mul_zero] at h3
      have : s.xa = 0 := by nlinarith
      rw [this, ← h0]
      linarith
    · have : 0 ≤ s.aa * (s.xx + 2 * L * s.xa + L ^ 2 * s.aa) := by
        nlinarith [sq_nonneg (s.xa + L * s.aa)]
      exact nonneg_of_mul_nonneg_right this h0
  · show (s.xa + L * s.aa) ^ 2 ≤ (s.xx + 2 * L * s.xa + L ^ 2 * s.aa) * s.aa
    nlinarith

theorem Moments.Valid.add {s t : Moments} (h : s.Valid) (h' : t.Valid) : (s.add t).Valid := by
  obtain ⟨h1, h2, h3⟩ := h
  obtain ⟨k1, k2, k3⟩ := h'
  refine ⟨add_nonneg h1 k1, add_nonneg h2 k2, ?_⟩
  show (s.xa + t.xa) ^ 2 ≤ (s.xx + t.xx) * (s.aa + t.aa)
  have hk : 2 * s.xa * t.xa ≤ s.xx * t.aa + t.xx * s.aa := by
    refine (abs_le_of_sq_le_sq' (?_ : (2 * s.xa * t.xa) ^ 2 ≤ (s.xx * t.aa + t.xx * s.aa) ^ 2)
      (by positivity)).2
    have := mul_le_mul h3 k3 (sq_nonneg _) (by positivity)
    nlinarith [sq_nonneg (s.xx * t.aa - t.xx * s.aa)]
  nlinarith

theorem behind_valid (stack : List (ℝ × Moments)) (s : Moments) (hs : s.Valid)
    (h : ∀ x ∈ stack, x.2.Valid) : (behind s stack).Valid := by
  induction stack generalizing s with
  | nil =>
    have : behind s [] = s := by
      simp only [behind, produced, Moments.add, Moments.drift, List.sum_nil, List.map_nil]
      cases s
      simp
    rw [this]; exact hs
  | cons x stack ih =>
    obtain ⟨L, m⟩ := x
    rw [behind_cons]
    exact ih _ ((hs.drift L).add (h (L, m) (by simp))) fun x hx => h x (by simp [hx])

/-- C64: the totals are the moments behind the stack; the energy spread is the quadratic sum.  If the
beam's moments and those of every material are those of a covariance matrix, so is the result, and the
absolute value under the square root changes nothing. -/
theorem layers_transport (env : Env ℝ) (p : Projectile ℝ) (ps : Phasespace ℝ) (l : Layers ℝ)
    (c : Config ℝ) (w w' : World ℝ) (mr : MultiResult ℝ)
    (h : calculate_layers env p ps l c w = .ok (mr, w')) (S : Moments)
    (hS : S = behind ⟨ps.sigma_x ^ 2, ps.cov_x, ps.sigma_a ^ 2⟩
      ((l.materials.zip mr.results).map fun x => (x.1.th / x.1.rho, x.2.moments)))
    (e : ℝ) (he : e = (mr.results.getLast?.map Result.Eout).getD p.T) :
    mr.total_result.cov = S.xa ∧ mr.total_result.sigma_x = √|S.xx| ∧
    (1e-3 < e → mr.total_result.sigma_a = √S.aa ∧
      mr.total_result.sigma_E = √((mr.results.map fun r => r.sigma_E ^ 2).sum)) ∧
    (e ≤ 1e-3 → mr.total_result.sigma_a = 0 ∧ mr.total_result.sigma_E = 0) ∧
    (ps.cov_x ^ 2 ≤ ps.sigma_x ^ 2 * ps.sigma_a ^ 2 →
      (∀ r ∈ mr.results, r.cov ^ 2 ≤ r.sigma_x ^ 2 * r.sigma_a ^ 2) →
      S.Valid ∧ mr.total_result.sigma_x = √S.xx) := by
  obtain ⟨h1, h2⟩ := layers_inv h
  have hlen := crossing_lengths h1
  have hm := accumulate_moments (l.materials.zip mr.results) (startTotal p ps)
  have hst : (startTotal p ps).raw = ⟨ps.sigma_x ^ 2, ps.cov_x, ps.sigma_a ^ 2⟩ := by
    simp only [startTotal, Result.raw, sq]
  rw [hst, ← hS] at hm
  obtain ⟨-, -, hsE, -⟩ := accumulate_sums (l.materials.zip mr.results) (startTotal p ps)
  set t := accumulate l.materials mr.results (startTotal p ps) with ht
  have hraw : t.raw = S := hm
  have hx : t.sigma_x = S.xx := congrArg Moments.xx hraw
  have hc : t.cov = S.xa := congrArg Moments.xa hraw
  have ha : t.sigma_a = S.aa := congrArg Moments.aa hraw
  have hE : t.sigma_E = (mr.results.map fun r => r.sigma_E ^ 2).sum := by
    refine hsE.trans ?_
    have hz : (l.materials.zip mr.results).map Prod.snd = mr.results := List.map_snd_zip hlen.le
    have : ((l.materials.zip mr.results).map fun x => x.2.sigma_E ^ 2) =
        mr.results.map fun r => r.sigma_E ^ 2 := by
      conv_rhs => rw [← hz]
      rw [List.map_map]
      rfl
    rw [this]
    simp only [startTotal, Result.init]
    norm_num
  have hlast : lastEnergy p.T mr.results = e := he.symm
  rw [hlast] at h2
  have hsx : mr.total_result.sigma_x = √|S.xx| := by
    rw [h2]
    unfold finishTotal
    split
    · show Scalar.sqrt (Scalar.fabs t.sigma_x) = _
      rw [hx, sqrt_real, fabs_real]
    · show Scalar.sqrt (Scalar.fabs t.sigma_x) = _
      rw [hx, sqrt_real, fabs_real]
  refine ⟨?_, hsx, ?_, ?_, ?_⟩
  · rw [h2]
    unfold finishTotal
    split <;> exact hc
  · intro hgt
    have hb : Scalar.gt e (Ezero : ℝ) = true := by
      show Scalar.lt Ezero e = true
      rw [lt_real]; unfold Ezero; norm_num at hgt ⊢; linarith
    rw [h2]
    unfold finishTotal
    rw [if_pos hb]
    refine ⟨?_, ?_⟩
    · show Scalar.sqrt t.sigma_a = _
      rw [ha, sqrt_real]
    · show Scalar.sqrt t.sigma_E = _
      rw [hE, sqrt_real]
  · intro hle
    have hb : ¬ Scalar.gt e (Ezero : ℝ) = true := by
      show ¬ Scalar.lt Ezero e = true
      rw [lt_real]; unfold Ezero; norm_num at hle ⊢; linarith
    rw [h2]
    unfold finishTotal
    rw [if_neg hb]
    exact ⟨by norm_num, by norm_num⟩
  · intro h0 hr
    have hv : S.Valid := by
      rw [hS]
      apply behind_valid
      · exact ⟨sq_nonneg _, sq_nonneg _, h0⟩
      · intro x hx
        obtain ⟨y, hy, rfl⟩ := List.mem_map.mp hx
        exact ⟨sq_nonneg _, sq_nonneg _, hr y.2 (List.of_mem_zip hy).2⟩
    exact ⟨hv, by rw [hsx, abs_of_nonneg hv.1]⟩

/-! ## C65 -/

/-- The non-reaction probability reported for one material: -1 or positive; with a projectile below
30 MeV/u it is -1 or 1; if it is -1, the projectile is below 30 MeV/u in front of or behind the
material. -/
theorem calculate_sp (env : Env ℝ) (p : Projectile ℝ) (t : Material ℝ) (c : Config ℝ) (w w' : World ℝ)
    (r : Result ℝ) (hr : ReachableW env w) (h : calculate env p t c w = .ok (r, w')) :
    (r.sp = -1 ∨ 0 < r.sp) ∧ (p.T < 30 → r.sp = -1 ∨ r.sp = 1) ∧
    (r.sp = -1 → p.T < 30 ∨ r.Eout < 30) := by
  rcases calculate_steps h with ⟨hs, rfl, -⟩ | ⟨hs, w1, d, rs, ss, hst, h0 | h0⟩
  · have : (Result.init : Result ℝ).sp = 1 := by simp only [Result.init]; norm_num
    rw [this]
    norm_num
  · have : r.sp = 1 := by
      rw [h0.2.2]
      simp only [Result.init]; norm_num
    rw [this]
    norm_num
  · have hth : t.th ≠ 0 := by
      have := h0.1
      rw [beq_real_false] at this
      norm_num at this
      exact this
    obtain ⟨-, -, ⟨w2, hsp⟩, -⟩ := calculate_agrees_out env p t c w w' r hr (key_refl_real _) hs h0.1 h
    obtain ⟨k1, k2, k3⟩ := nonreaction_cases env p t c w w2 r.sp hsp
    rcases lt_or_ge p.T 30 with hT | hT
    · exact ⟨.inl (k1 hT), fun _ => .inl (k1 hT), fun _ => .inl hT⟩
    · rcases le_or_gt t.th 0 with ht | ht
      · rw [k2 hT ht]
        norm_num
      · obtain ⟨E, hE, k4, k5⟩ := k3 hT ht
        obtain ⟨-, -, hb⟩ := calculate_balance env p t c w w' r h
        obtain ⟨w3, hE'⟩ := hb (le_trans (by norm_num) hT) hth
        rw [hE] at hE'
        cases hE'
        rcases lt_or_ge r.Eout 30 with hE30 | hE30
        · exact ⟨.inl (k4 hE30), fun h => absurd hT (not_le.mpr h), fun _ => .inr hE30⟩
        · have := k5 hE30
          exact ⟨.inr this, fun h => absurd hT (not_le.mpr h), fun h => by linarith⟩

/-- The total as the layers are accumulated. -/
theorem accumulate_sp (prs : List (Material ℝ × Result ℝ)) (tot : Result ℝ) :
    (prs.foldl (fun t mr => addLayerResult mr.1 mr.2 t) tot).sp =
      prs.foldl (fun s mr => if 0 ≤ mr.2.sp then s * mr.2.sp else -1) tot.sp := by
  induction prs generalizing tot with
  | nil => rfl
  | cons x prs ih =>
    rw [List.foldl_cons, List.foldl_cons, ih]
    congr 1
    simp only [addLayerResult]
    by_cases hx : 0 ≤ x.2.sp
    · rw [if_pos (by show Scalar.le _ _ = true; rw [le_real]; norm_num; exact hx), if_pos hx]
    · rw [if_neg (by show ¬ Scalar.le _ _ = true; rw [le_real]; norm_num; exact not_le.mp hx), if_neg hx]
      norm_num

theorem crossing_sp (env : Env ℝ) (p : Projectile ℝ) (c : Config ℝ) (e : ℝ) (ms : List (Material ℝ))
    (w w' : World ℝ) (rs : List (Result ℝ)) (h : Crossing env p c e ms w rs w') (hr : ReachableW env w)
    (hE : ∀ r ∈ rs, r.Eout ≤ r.Ein) (s : ℝ) (hs : s = -1 ∧ e < 30 ∨ s ≠ -1 ∧ 0 < s) :
    rs.foldl (fun s r => if 0 ≤ r.sp then s * r.sp else -1) s =
      if s = -1 ∨ ∃ r ∈ rs, r.sp = -1 then -1 else s * (rs.map Result.sp).prod := by
  induction h generalizing s with
  | nil =>
    rcases hs with ⟨rfl, -⟩ | ⟨h1, -⟩
    · simp
    · simp [h1]
  | cons h hs' ih =>
    rename_i e m ms w w1 w2 r rs
    have hr1 : ReachableW env w1 := reachableW_call hr (.calculate (p.withT e) m c)
      (r := .result r) (by
        show (do let r ← calculate env (p.withT e) m c; pure (Response.result r) : Api ℝ _) w = _
        rw [api_bind]
        exact ⟨r, w1, h, rfl⟩)
    obtain ⟨k1, k2, k3⟩ := calculate_sp env (p.withT e) m c w w1 r hr h
    have hEin : r.Ein = e ∨ r.Ein = 0 ∧ r.Eout = 0 := by
      rcases calculate_steps h with ⟨-, rfl, -⟩ | ⟨-, w3, d, rs', ss, hst, -⟩
      · right
        simp only [Result.init]; norm_num
      · exact .inl hst.ein
    have hle := hE r (by simp)
    have hout : e < 30 → r.Eout < 30 := by
      intro he
      rcases hEin with h1 | ⟨-, h2⟩
      · linarith
      · linarith
    rw [List.foldl_cons]
    have hs2 : (if 0 ≤ r.sp then s * r.sp else -1) = -1 ∧ r.Eout < 30 ∨
        (if 0 ≤ r.sp then s * r.sp else -1) ≠ -1 ∧ 0 < (if 0 ≤ r.sp then s * r.sp else -1) := by
      by_cases h0 : 0 ≤ r.sp
      · rw [if_pos h0]
        have hp : 0 < r.sp := by rcases k1 with h1 | h1 <;> linarith
        rcases hs with ⟨rfl, he⟩ | ⟨h1, h2⟩
        · rcases k2 he with h1 | h1
          · linarith
          · left; rw [h1]; exact ⟨by norm_num, hout he⟩
        · right
          have := mul_pos h2 hp
          exact ⟨by intro h; linarith, this⟩
      · rw [if_neg h0]
        have h1 : r.sp = -1 := by rcases k1 with h1 | h1 <;> [exact h1; linarith]
        left
        refine ⟨rfl, ?_⟩
        rcases k3 h1 with h2 | h2
        · exact hout h2
        · exact h2
    rw [ih hr1 (fun x hx => hE x (by simp [hx])) _ hs2]
    by_cases h0 : 0 ≤ r.sp
    · simp only [if_pos h0]
      have hne : r.sp ≠ -1 := by intro h; linarith
      have hiff : (s * r.sp = -1) ↔ s = -1 := by
        rcases hs with ⟨rfl, he⟩ | ⟨h1, h2⟩
        · rcases k2 he with h1 | h1
          · exact absurd h1 hne
          · rw [h1]; norm_num
        · constructor
          · intro h
            have := mul_nonneg h2.le h0
            linarith
          · exact fun h => absurd h h1
      have hex : (s * r.sp = -1 ∨ ∃ x ∈ rs, x.sp = -1) ↔ (s = -1 ∨ ∃ x ∈ r :: rs, x.sp = -1) := by
        rw [hiff]
        simp [hne]
      by_cases hc : s * r.sp = -1 ∨ ∃ x ∈ rs, x.sp = -1
      · rw [if_pos hc, if_pos (hex.mp hc)]
      · rw [if_neg hc, if_neg (fun h => hc (hex.mpr h)), List.map_cons, List.prod_cons, mul_assoc]
    · simp only [if_neg h0]
      have h1 : r.sp = -1 := by rcases k1 with h1 | h1 <;> [exact h1; linarith]
      rw [if_pos (.inl trivial), if_pos (.inr ⟨r, by simp, h1⟩)]

/-- C65: the total non-reaction probability is the product over the materials, or -1 if it is not
available for one of them, whatever follows. -/
theorem layers_sp (env : Env ℝ) (p : Projectile ℝ) (ps : Phasespace ℝ) (l : Layers ℝ)
    (c : Config ℝ) (w w' : World ℝ) (mr : MultiResult ℝ) (hr : ReachableW env w)
    (h : calculate_layers env p ps l c w = .ok (mr, w')) (hE : ∀ r ∈ mr.results, r.Eout ≤ r.Ein) :
    ((∀ r ∈ mr.results, r.sp ≠ -1) → mr.total_result.sp = (mr.results.map Result.sp).prod) ∧
    ((∃ r ∈ mr.results, r.sp = -1) → mr.total_result.sp = -1) ∧
    (∀ r ∈ mr.results, r.sp = -1 ∨ 0 < r.sp) := by
  obtain ⟨h1, h2⟩ := layers_inv h
  have hlen := crossing_lengths h1
  have hfin : ∀ (e : ℝ) (t : Result ℝ), (finishTotal e t).sp = t.sp := by
    intro e t; unfold finishTotal; split <;> rfl
  have ha := accumulate_sp (l.materials.zip mr.results) (startTotal p ps)
  have hz : (l.materials.zip mr.results).map Prod.snd = mr.results := List.map_snd_zip hlen.le
  have hs1 : (startTotal p ps).sp = 1 := by simp only [startTotal, Result.init]; norm_num
  have hf : (l.materials.zip mr.results).foldl (fun s mr => if 0 ≤ mr.2.sp then s * mr.2.sp else -1) (1 : ℝ) =
      mr.results.foldl (fun s r => if 0 ≤ r.sp then s * r.sp else -1) 1 := by
    conv_rhs => rw [← hz]
    rw [List.foldl_map]
  have hc := crossing_sp env p c p.T l.materials w w' mr.results h1 hr hE 1 (.inr (by norm_num))
  have htot : mr.total_result.sp = if (1 : ℝ) = -1 ∨ ∃ r ∈ mr.results, r.sp = -1 then -1
      else 1 * (mr.results.map Result.sp).prod := by
    rw [h2, hfin, ← hc, ← hf]
    rw [hs1] at ha
    exact ha
  refine ⟨fun hn => ?_, fun hn => ?_, ?_⟩
  · rw [htot, if_neg, one_mul]
    rintro (h | ⟨r, hr, h⟩)
    · norm_num at h
    · exact hn r hr h
  · rw [htot, if_pos (.inr hn)]
  · clear htot hc hf ha hz h2 hE hlen h
    clear hs1 hfin
    generalize mr.results = rs at h1
    generalize p.T = e at h1
    generalize l.materials = ms at h1
    induction h1 with
    | nil => simp
    | cons h hs' ih =>
      rename_i e m ms w w1 w2 r rs
      have hr1 : ReachableW env w1 := reachableW_call hr (.calculate (p.withT e) m c)
        (r := .result r) (by
          show (do let r ← calculate env (p.withT e) m c; pure (Response.result r) : Api ℝ _) w = _
          rw [api_bind]
          exact ⟨r, w1, h, rfl⟩)
      intro x hx
      rcases List.mem_cons.mp hx with rfl | hx
      · exact (calculate_sp env _ m c w w1 x hr h).1
      · exact ih hr1 x hx

/-! ## C66 -/

/-- C66, refuted: without materials the total says that the projectile is stopped. -/
theorem no_layers_stopped (env : Env ℝ) (w : World ℝ) (c : Config ℝ) (ps : Phasespace ℝ) :
    ∃ p : Projectile ℝ, ∃ mr, calculate_layers env p ps .empty c w = .ok (mr, w) ∧
      mr.total_result.Eout ≠ p.T := by
  refine ⟨⟨12, 6, 6, 100⟩, _, rfl, ?_⟩
  show (finishTotal _ _ : Result ℝ).Eout ≠ _
  have : ∀ (e : ℝ) (t : Result ℝ), (finishTotal e t).Eout = t.Eout := by
    intro e t; unfold finishTotal; split <;> rfl
  rw [this]
  simp only [startTotal, Result.init]
  norm_num

/-- C66, what holds: no results, no energy loss, no time of flight, the phase space unchanged (and the
outgoing energy reported as 0). -/
theorem no_layers_partial (env : Env ℝ) (w : World ℝ) (c : Config ℝ) (ps : Phasespace ℝ)
    (p : Projectile ℝ) : ∃ mr, calculate_layers env p ps .empty c w = .ok (mr, w) ∧
      mr.results = [] ∧ mr.total_result.Ein = p.T ∧ mr.total_result.Eloss = 0 ∧ mr.total_result.tof = 0 ∧
      mr.total_result.sp = 1 ∧ mr.total_result.cov = ps.cov_x ∧ mr.total_result.sigma_x = |ps.sigma_x| ∧
      (1e-3 < p.T → mr.total_result.sigma_a = |ps.sigma_a|) ∧ mr.total_result.sigma_E = 0 ∧
      mr.total_result.Eout = 0 := by
  obtain ⟨mr, hmr⟩ : ∃ mr, calculate_layers env p ps .empty c w = .ok (mr, w) := ⟨_, rfl⟩
  have hres : mr.results = [] := by cases hmr; rfl
  have ht := layers_totals env p ps .empty c w w mr hmr
  have hp := layers_transport env p ps .empty c w w mr hmr _ rfl _ rfl
  rw [hres] at ht hp
  simp only [Layers.empty, List.zip_nil_left, List.map_nil, behind, produced, List.sum_nil,
    Moments.add, Moments.drift, List.getLast?_nil, Option.map_none, Option.getD_none] at ht hp
  refine ⟨mr, hmr, hres, ht.1, ht.2.1, ht.2.2.1, ?_, ?_, ?_, ?_, ?_, ?_⟩
  · cases hmr
    show (finishTotal _ _ : Result ℝ).sp = 1
    have : ∀ (e : ℝ) (t : Result ℝ), (finishTotal e t).sp = t.sp := by
      intro e t; unfold finishTotal; split <;> rfl
    rw [this]
    simp only [startTotal, Result.init]
    norm_num
  · rw [hp.1]; ring
  · rw [hp.2.1]
    have e : ps.sigma_x ^ 2 + 2 * 0 * ps.cov_x + 0 ^ 2 * ps.sigma_a ^ 2 + 0 = ps.sigma_x ^ 2 := by ring
    rw [e, abs_of_nonneg (sq_nonneg _), Real.sqrt_sq_eq_abs]
  · intro h
    rw [(hp.2.2.1 h).1, add_zero, Real.sqrt_sq_eq_abs]
  · rcases lt_or_ge (1e-3) p.T with h | h
    · rw [(hp.2.2.1 h).2, Real.sqrt_zero]
    · exact (hp.2.2.2.1 h).2
  · cases hmr
    show (finishTotal _ _ : Result ℝ).Eout = 0
    have : ∀ (e : ℝ) (t : Result ℝ), (finishTotal e t).Eout = t.Eout := by
      intro e t; unfold finishTotal; split <;> rfl
    rw [this]
    simp only [startTotal, Result.init]
    norm_num

/-- C61 to C65 apply to protons of 100 MeV sent into two thick layers of water in a fresh process (they
stop in the first one). -/
example (env : Env ℝ) (hdbg : env.debug = false) (ps : Phasespace ℝ) : ∃ m mr w', 0 < m.th ∧
    calculate_layers env ⟨1.00794, 1, 1, 100⟩ ps ⟨[m, m]⟩ .default .init = .ok (mr, w') ∧
    mr.results.length = 2 ∧ ∀ r ∈ mr.results, (r.Eout = 0 ∨ 1e-3 ≤ r.Eout) ∧ r.Eout ≤ r.Ein := by
  obtain ⟨th, r, w', hth, h, hEin, hE, -⟩ := proton_stopped env hdbg
  set m : Material ℝ :=
    Material.set_thickness ⟨1, 1, 18.015, 0, [⟨1.00794, 1, 2⟩, ⟨15.9994, 8, 1⟩]⟩ th with hm
  have h2 := calculate_below_limit env (Projectile.withT ⟨1.00794, 1, 1, 100⟩ r.Eout) m .default w' (by
    show r.Eout < _
    rw [hE]; norm_num)
  obtain ⟨mr, hmr⟩ := (layers_crossing env ⟨1.00794, 1, 1, 100⟩ ps ⟨[m, m]⟩ .default .init w' _).mpr
    (Crossing.cons h (Crossing.cons h2 (Crossing.nil _ _)))
  refine ⟨m, _, w', hth, hmr, rfl, ?_⟩
  intro x hx
  simp only [List.mem_cons, List.not_mem_nil, or_false] at hx
  rcases hx with rfl | rfl
  · refine ⟨.inl hE, ?_⟩
    rw [hE, hEin]; norm_num
  · exact ⟨.inl rfl, le_rfl⟩

end Catima
