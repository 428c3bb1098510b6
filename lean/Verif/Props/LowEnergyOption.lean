import Verif.Props.StragglingConvex

/-!
# C146: what the low-energy option of the configuration changes
-/

namespace Catima

/-- C146: the option selects between two stopping-power tables that are used below 30 MeV/u; from there on, and for ions at rest, the stopping
power is the same, and any two values other than 1 (srim_95) mean the same at every energy. -/
theorem low_energy_above (env : Env ℝ) (p : Projectile ℝ) (m : Material ℝ) (c : Config ℝ) (k k' : Nat)
    (h : 30 ≤ p.T ∨ p.T ≤ 0 ∨ k ≠ 1 ∧ k' ≠ 1) : dedx env p m { c with low_energy := k } = dedx env p m { c with low_energy := k' } := by
  have eb : bethek_dedx_e env p m { c with low_energy := k } = bethek_dedx_e env p m { c with low_energy := k' } := rfl
  rcases h with h | h | ⟨h1, h2⟩
  · rw [dedx_eq env p m _ (by linarith), dedx_eq env p m _ (by linarith)]
    have ee : ∀ c', electronic env p m c' = bethek_dedx_e env p m c' := fun c' => by
      unfold electronic
      rw [if_neg (by rw [le_real]; norm_num; linarith), if_neg (by
        rw [Bool.and_eq_true, not_and, lt_real]
        intro _
        norm_num
        linarith)]
    rw [ee, ee, eb]
  · unfold dedx
    rw [if_pos (by rw [le_real]; norm_num; exact h), if_pos (by rw [le_real]; norm_num; exact h)]
  · have e1 : (k == 1) = false := by simpa using h1
    have e2 : (k' == 1) = false := by simpa using h2
    have es : sezi_dedx_e p m { c with low_energy := k } = sezi_dedx_e p m { c with low_energy := k' } := by
      unfold sezi_dedx_e
      dsimp only
      rw [e1, e2]
    unfold dedx
    rw [es, eb]

/-- C146: the energy-loss variance and the scattering power do not depend on the option. -/
theorem low_energy_others (env : Env ℝ) (p : Projectile ℝ) (m : Material ℝ) (c : Config ℝ) (k k' : Nat) :
    domega2dx env p m { c with low_energy := k } = domega2dx env p m { c with low_energy := k' } ∧
    da2dx p m { c with low_energy := k } = da2dx p m { c with low_energy := k' } := ⟨rfl, rfl⟩

/-- Tables of functions that agree from one energy of the table on grow alike from there on. -/
theorem tables_grow_alike (A : ℝ) (f g : ℝ → M ℝ) (l l' : List ℝ) (hl : cumulative 599 A energy_table f = .ok l)
    (hl' : cumulative 599 A energy_table g = .ok l') (i : Nat) (h : ∀ x, (energy_table : EnergyTable ℝ).val i ≤ x → f x = g x)
    (hf : ∀ k < 599, ∃ I, integrator.integrate f ((energy_table : EnergyTable ℝ).val k) ((energy_table : EnergyTable ℝ).val (k + 1)) = .ok I)
    (hg : ∀ k < 599, ∃ I, integrator.integrate g ((energy_table : EnergyTable ℝ).val k) ((energy_table : EnergyTable ℝ).val (k + 1)) = .ok I)
    (j : Nat) (hj : i + j < 600) :
    ∃ a b a' b', l[i]? = some a ∧ l[i + j]? = some b ∧ l'[i]? = some a' ∧ l'[i + j]? = some b' ∧ b - a = b' - a' := by
  have hb := energy_table_bounds
  have ord : ∀ k, (energy_table : EnergyTable ℝ).val k < (energy_table : EnergyTable ℝ).val (k + 1) :=
    fun k => (EnergyTable.val_lt_iff _ hb.1 hb.2.1 k (k + 1)).mpr (by omega)
  choose! I hI using hf
  choose! J hJ using hg
  obtain ⟨n1, -, t1⟩ := table_step A f l hl I hI
  obtain ⟨n2, -, t2⟩ := table_step A g l' hl' J hJ
  have e : ∀ k, i ≤ k → k < 599 → I k = J k := by
    intro k hk hk'
    have ik := (EnergyTable.val_le_iff (energy_table : EnergyTable ℝ) hb.1 hb.2.1 i k).mpr (by omega)
    have := gl_integrate_congr integrator f g ((energy_table : EnergyTable ℝ).val k) ((energy_table : EnergyTable ℝ).val (k + 1)) fun e he => by
      obtain ⟨i1, -⟩ := node_inner _ _ (ord k).le e he
      refine h _ ?_
      have := ord k
      linarith
    rw [hI k hk', hJ k hk'] at this
    exact Except.ok.inj this
  induction j with
  | zero => exact ⟨_, _, _, _, List.getElem?_eq_getElem (by omega), List.getElem?_eq_getElem (by omega), List.getElem?_eq_getElem (by omega),
      List.getElem?_eq_getElem (by omega), by simp⟩
  | succ j ih =>
    obtain ⟨a, b, a', b', ha, hb, ha', hb', hab⟩ := ih (by omega)
    obtain ⟨u, v, hu, hv, huv⟩ := t1 (i + j) (by omega)
    obtain ⟨u', v', hu', hv', huv'⟩ := t2 (i + j) (by omega)
    rw [hb] at hu
    rw [hb'] at hu'
    cases hu
    cases hu'
    rw [e (i + j) (by omega) (by omega)] at huv
    exact ⟨a, v, a', v', ha, hv, ha', hv', by linarith⟩

/-- The integrals of the tables are defined. -/
theorem table_integrals (env : Env ℝ) {p : Projectile ℝ} {n : Int} {m : Material ℝ} {c : Config ℝ} (h : Computable p n m c) (k : Nat) (hk : k < 599) :
    (∃ I, integrator.integrate (fdedx env p m c) ((energy_table : EnergyTable ℝ).val k) ((energy_table : EnergyTable ℝ).val (k + 1)) = .ok I) ∧
    ∃ I, integrator.integrate (fomega env p m c) ((energy_table : EnergyTable ℝ).val k) ((energy_table : EnergyTable ℝ).val (k + 1)) = .ok I := by
  have hb := energy_table_bounds
  have ord := ((EnergyTable.val_lt_iff (energy_table : EnergyTable ℝ) hb.1 hb.2.1 k (k + 1)).mpr (by omega)).le
  constructor
  · refine integrator_defined _ _ _ ord fun x hx => ?_
    obtain ⟨-, -, -, -, x0, hr⟩ := inner_grid k hk x hx
    obtain ⟨s, hs⟩ := h.dedx env x x0 hr
    exact ⟨1.0 / s, by unfold fdedx; rw [hs]; rfl⟩
  · refine integrator_defined _ _ _ ord fun x hx => ?_
    obtain ⟨-, -, -, -, x0, hr⟩ := inner_grid k hk x hx
    obtain ⟨s, hs⟩ := h.dedx env x x0 hr
    obtain ⟨u, hu⟩ : ∃ u, domega2dx env (p.withT x) m c = .ok u := by
      by_cases hc : c.calculation = 0
      · obtain ⟨u, v, -, e2, -⟩ := straggling_option_order env (h.withT x) 1 (by decide) x0 hr
        refine ⟨v, ?_⟩
        rw [← hc] at e2
        exact e2
      · obtain ⟨u, v, e1, -⟩ := straggling_option_order env (h.withT x) c.calculation hc x0 hr
        exact ⟨u, e1⟩
    exact ⟨u / power s 3.0, by unfold fomega; rw [hu, hs]; rfl⟩

/-- C146: what the ion passes between two energies of the table, both at least 30 MeV/u, and the variance of this way are the same with
both settings, after any histories. -/
theorem low_energy_range (env : Env ℝ) (p : Projectile ℝ) (n : Int) (m : Material ℝ) (c : Config ℝ) (h : Computable p n m c) (k k' : Nat)
    (n1 : NonDefault p m { c with low_energy := k }) (n2 : NonDefault p m { c with low_energy := k' }) (w1 w2 : World ℝ)
    (r1 : ReachableW env w1) (r2 : ReachableW env w2) (i j : Nat) (hij : i ≤ j) (hj : j < 600) (h30 : 30 ≤ (energy_table : EnergyTable ℝ).val i) :
    (∃ R1 R2 S1 S2, (Call.range (p.withT ((energy_table : EnergyTable ℝ).val i)) m { c with low_energy := k }).respond env w1 = .ok (.num R1) ∧
      (Call.range (p.withT ((energy_table : EnergyTable ℝ).val j)) m { c with low_energy := k }).respond env w1 = .ok (.num R2) ∧
      (Call.range (p.withT ((energy_table : EnergyTable ℝ).val i)) m { c with low_energy := k' }).respond env w2 = .ok (.num S1) ∧
      (Call.range (p.withT ((energy_table : EnergyTable ℝ).val j)) m { c with low_energy := k' }).respond env w2 = .ok (.num S2) ∧
      R2 - R1 = S2 - S1) ∧
    ∃ V1 V2 U1 U2 w1' w2', range_variance env p ((energy_table : EnergyTable ℝ).val i) m { c with low_energy := k } w1 = .ok (V1, w1') ∧
      range_variance env p ((energy_table : EnergyTable ℝ).val j) m { c with low_energy := k } w1 = .ok (V2, w1') ∧
      range_variance env p ((energy_table : EnergyTable ℝ).val i) m { c with low_energy := k' } w2 = .ok (U1, w2') ∧
      range_variance env p ((energy_table : EnergyTable ℝ).val j) m { c with low_energy := k' } w2 = .ok (U2, w2') ∧ V2 - V1 = U2 - U1 := by
  have hc : ∀ k, Computable p n m { c with low_energy := k } := fun k => ⟨h.ion, h.small, h.sound, h.known, h.charge⟩
  have key : ∀ x, (energy_table : EnergyTable ℝ).val i ≤ x →
      dedx env (p.withT x) m { c with low_energy := k } = dedx env (p.withT x) m { c with low_energy := k' } := fun x hx =>
    low_energy_above env (p.withT x) m c k k' (.inl (h30.trans hx))
  obtain ⟨j, rfl⟩ := Nat.exists_eq_add_of_le hij
  constructor
  · obtain ⟨d1, hd1, v1⟩ := ranges_of_table env p n m _ (hc k) n1
    obtain ⟨d2, hd2, v2⟩ := ranges_of_table env p n m _ (hc k') n2
    obtain ⟨a, b, a', b', ha, hb, ha', hb', e⟩ := tables_grow_alike p.A _ _ _ _ (data_point_parts env p m _ d1 hd1).1
      (data_point_parts env p m _ d2 hd2).1 i (fun x hx => by unfold fdedx; rw [key x hx]) (fun q hq => (table_integrals env (hc k) q hq).1)
      (fun q hq => (table_integrals env (hc k') q hq).1) j hj
    exact ⟨a, b, a', b', v1 w1 r1 i (by omega) a ha, v1 w1 r1 _ hj b hb, v2 w2 r2 i (by omega) a' ha', v2 w2 r2 _ hj b' hb', e⟩
  · obtain ⟨d1, hd1, v1⟩ := variances_of_table env p n m _ (hc k) n1
    obtain ⟨d2, hd2, v2⟩ := variances_of_table env p n m _ (hc k') n2
    obtain ⟨a, b, a', b', ha, hb, ha', hb', e⟩ := tables_grow_alike p.A _ _ _ _ (data_point_parts env p m _ d1 hd1).2.2
      (data_point_parts env p m _ d2 hd2).2.2 i (fun x hx => by
        unfold fomega
        rw [key x hx, (low_energy_others env (p.withT x) m c k k').1]) (fun q hq => (table_integrals env (hc k) q hq).2)
      (fun q hq => (table_integrals env (hc k') q hq).2) j hj
    obtain ⟨w1', q1⟩ := v1 w1 r1
    obtain ⟨w2', q2⟩ := v2 w2 r2
    exact ⟨a, b, a', b', w1', w2', q1 i (by omega) a ha, q1 _ hj b hb, q2 i (by omega) a' ha', q2 _ hj b' hb', e⟩

/-- Protons in water. The points 280 and 300 of the table lie above 30 MeV/u, as shown for C134. -/
example (env : Env ℝ) (w : World ℝ) (hw : ReachableW env w) (i j : Nat) (hij : i ≤ j) (hj : j < 600)
    (h0 : 30 ≤ (energy_table : EnergyTable ℝ).val i) :
    ∃ R1 R2 S1 S2, (Call.range (⟨1.007, 1, 1, (energy_table : EnergyTable ℝ).val i⟩ : Projectile ℝ)
        ⟨1, 1, 18.015, 0, [⟨1.00794, 1, 2⟩, ⟨15.9994, 8, 1⟩]⟩ { Config.default with low_energy := 0 }).respond env w = .ok (.num R1) ∧
      (Call.range (⟨1.007, 1, 1, (energy_table : EnergyTable ℝ).val j⟩ : Projectile ℝ)
        ⟨1, 1, 18.015, 0, [⟨1.00794, 1, 2⟩, ⟨15.9994, 8, 1⟩]⟩ { Config.default with low_energy := 0 }).respond env w = .ok (.num R2) ∧
      (Call.range (⟨1.007, 1, 1, (energy_table : EnergyTable ℝ).val i⟩ : Projectile ℝ)
        ⟨1, 1, 18.015, 0, [⟨1.00794, 1, 2⟩, ⟨15.9994, 8, 1⟩]⟩ { Config.default with low_energy := 1 }).respond env w = .ok (.num S1) ∧
      (Call.range (⟨1.007, 1, 1, (energy_table : EnergyTable ℝ).val j⟩ : Projectile ℝ)
        ⟨1, 1, 18.015, 0, [⟨1.00794, 1, 2⟩, ⟨15.9994, 8, 1⟩]⟩ { Config.default with low_energy := 1 }).respond env w = .ok (.num S2) ∧
      R2 - R1 = S2 - S1 := by
  have hk : ∀ c, NonDefault (⟨1.007, 1, 1, 0⟩ : Projectile ℝ) ⟨1, 1, 18.015, 0, [⟨1.00794, 1, 2⟩, ⟨15.9994, 8, 1⟩]⟩ c := by
    intro c
    simp only [NonDefault, Key.eq, Key.default, Projectile.eq, Projectile.default]
    simp
    intro h
    norm_num at h
  exact (low_energy_range env _ 1 _ _ proton_water_falling.computable 0 1 (hk _) (hk _) w w hw hw i j hij hj h0).1

end Catima
