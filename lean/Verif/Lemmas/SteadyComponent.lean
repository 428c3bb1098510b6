import Verif.Lemmas.ProtonBlend
import Verif.Lemmas.BetheValue
import Verif.Lemmas.RadiativeSteady
import Verif.Props.RangeIncreasing

/-!
# Helper lemmas: the electronic stopping power of one component changes by at most 36 % over one step of the grid
-/

namespace Catima

/-- The electronic stopping power of one component from its low-energy and its Bethe value. -/
theorem electronic_only (env : Env ℝ) {p : Projectile ℝ} {n : Int} (hp : p.Ion n) (m : Material ℝ) (t : Target ℝ) (hA : t.A ≠ 0)
    (c : Config ℝ) (x s b : ℝ) (hs : srim_dedx_e n t.Z x (c.low_energy == 1) = .ok s) :
    (x ≤ 10 → electronic env (p.withT x) (m.only t) c = .ok (602.2140857 * s / t.A)) ∧
    (bethek_dedx_e_target env (p.withT x) t c m.i_potential = .ok b →
      (10 ≤ x → x < 30 → electronic env (p.withT x) (m.only t) c =
        .ok ((1 - (x - 10) / 20) * (602.2140857 * s / t.A) + (x - 10) / 20 * b)) ∧
      (30 ≤ x → electronic env (p.withT x) (m.only t) c = .ok b)) := by
  have hcast : castInt p.Z = .ok n := by
    rw [hp.Z]
    exact castInt_real n (by linarith [hp.pos]) hp.int
  have e1 : sezi_dedx_e (p.withT x) (m.only t) c = .ok (602.2140857 * s / t.A) := by
    rw [sezi_eq, componentSum_only m t hA]
    show (do
      let pZ ← castInt p.Z
      let s ← srim_dedx_e pZ t.Z x (c.low_energy == 1)
      return 100.0 * (s / t.A) * Avogadro) = _
    rw [hcast, bind_ok, hs, bind_ok]
    show Except.ok _ = _
    congr 1
    unfold Avogadro
    norm_num
    ring
  have ex : (p.withT x).T = x := rfl
  have low : x ≤ 10 → electronic env (p.withT x) (m.only t) c = .ok (602.2140857 * s / t.A) := by
    intro h
    unfold electronic
    rw [if_pos (by rw [le_real, ex]; norm_num; exact h), e1]
  refine ⟨low, fun hb => ?_⟩
  have e2 : bethek_dedx_e env (p.withT x) (m.only t) c = .ok b := by
    unfold bethek_dedx_e
    rw [componentSum_only m t hA]
    exact hb
  refine ⟨fun h h' => ?_, fun h => ?_⟩
  · rcases h.eq_or_lt with h | h
    · rw [low h.ge, ← h]
      norm_num
    · unfold electronic
      rw [if_neg (by rw [le_real, ex]; norm_num; exact h), if_pos (by
        rw [Bool.and_eq_true]
        refine ⟨?_, ?_⟩
        · show Scalar.lt 10.0 (p.withT x).T = true
          rw [lt_real, ex]; norm_num; exact h
        · rw [lt_real, ex]; norm_num; exact h'), e1, e2]
      simp only [bind_ok, ex]
      show Except.ok _ = _
      congr 1
      generalize 602.2140857 * s / t.A = S
      norm_num
      ring
  · unfold electronic
    rw [if_neg (by rw [le_real, ex]; norm_num; linarith), if_neg (by
      rw [Bool.and_eq_true]
      rintro ⟨-, h2⟩
      rw [lt_real, ex] at h2
      norm_num at h2
      linarith), e2]

/-- One step of the electronic stopping power of one component, for the conditions on the low-energy model named here. -/
theorem component_step (env : Env ℝ) {p : Projectile ℝ} {n : Int} (hp : p.Ion n) (hn : n ≤ 108) (hA : p.A ≤ 3 * element_atomic_weight n)
    (hZA : p.Z ≤ 2 * p.A) (m : Material ℝ) (t : Target ℝ) (tZ : 1 ≤ t.Z) (tZ' : t.Z ≤ 120) (t85 : t.Z ≠ 85) (t87 : t.Z ≠ 87)
    (tA : 0 < t.A) (c : Config ℝ) (hc : c.z_effective = 1) (hI : TypicalI m.i_potential t.Z) (x r : ℝ) (h1 : 1.039 ≤ r) (h2 : r ≤ 1.0393)
    (hx : 0 < x) (h9 : r * x ≤ (ls_energy_table : EnergyTable ℝ).val 199) (hx9 : r * x ≤ 10100000) (hT : LindhardReadable x) (hT' : LindhardReadable (r * x))
    (s s' : ℝ) (hs : srim_dedx_e n t.Z x (c.low_energy == 1) = .ok s) (hs' : srim_dedx_e n t.Z (r * x) (c.low_energy == 1) = .ok s')
    (st0 : Step 1.36 1.36 s s') (st : 9.6 ≤ x → Step 1.25 1.25 s s') (st' : 10 ≤ x → Step 1.223 1.172 s s')
    (hR : ∀ y, 10 ≤ y → y ≤ 32.5 → LindhardReadable y → ∀ s v, srim_dedx_e n t.Z y (c.low_energy == 1) = .ok s →
      bethek_dedx_e_target env (p.withT y) t c m.i_potential = .ok v →
      v ≤ 5 * (602.2140857 * s / t.A) ∧ 602.2140857 * s / t.A ≤ 3.3 * v) :
    ∃ e e', electronic env (p.withT x) (m.only t) c = .ok e ∧ electronic env (p.withT (r * x)) (m.only t) c = .ok e' ∧ Step 1.36 1.36 e e' := by
  have scale : ∀ u d, Step u d s s' → Step u d (602.2140857 * s / t.A) (602.2140857 * s' / t.A) := fun u d h => by
    have := h.scale (602.2140857 / t.A) (by positivity)
    rwa [div_mul_eq_mul_div, div_mul_eq_mul_div] at this
  have S1 := scale _ _ st0
  have r0 : 0 < r := by norm_num at h1; linarith
  have rx0 : x < r * x := by norm_num at h1; nlinarith
  have rx1 : r * x ≤ 1.0393 * x := mul_le_mul_of_nonneg_right h2 hx.le
  have V := electronic_only env hp m t tA.ne' c x s
  have V' := electronic_only env hp m t tA.ne' c (r * x) s'
  have pZ1 : 1 ≤ p.Z := by rw [hp.Z]; exact_mod_cast (by linarith [hp.pos] : 1 ≤ n)
  have pZ108 : p.Z ≤ 108 := by rw [hp.Z]; exact_mod_cast hn
  rcases le_or_gt x 10 with hx10 | hx10
  · rcases le_or_gt (r * x) 10 with hr10 | hr10
    · exact ⟨_, _, (V 0 hs).1 hx10, (V' 0 hs').1 hr10, S1⟩
    · -- the blending starts within this step
      have S1 := scale _ _ (st (by norm_num at rx1 ⊢; linarith))
      have rx2 : r * x ≤ 10.393 := by norm_num at rx1 ⊢; linarith
      have ionT : (p.withT (r * x)).Ion n := ⟨hp.Z, hp.pos, hp.int, hp.A⟩
      obtain ⟨z, z', hz, -, z0, -⟩ := charge_step env.debug p t c hc (by linarith) (r * x) 1.039 hr10.le (by norm_num) (by norm_num)
      obtain ⟨b', hb'⟩ := bethe_target_defined env ionT hn t tZ tA c m.i_potential (by show 0 < r * x; linarith) hT' z hz z0.le (Or.inr tZ')
      obtain ⟨q1, q2⟩ := hR (r * x) hr10.le (by norm_num at rx2 ⊢; linarith) hT' s' b' hs' hb'
      refine ⟨_, _, (V 0 hs).1 hx10, ((V' b' hs').2 hb').1 hr10.le (by norm_num at rx2; linarith), ?_⟩
      generalize 602.2140857 * s / t.A = S at *
      generalize 602.2140857 * s' / t.A = S' at *
      obtain ⟨a1, a2, a3, a4⟩ := S1
      have F0 : 0 ≤ (r * x - 10) / 20 := by linarith
      have F1 : (r * x - 10) / 20 ≤ 0.01965 := by norm_num at rx2 ⊢; linarith
      have b0 : 0 < b' := by norm_num at q2; linarith
      generalize (r * x - 10) / 20 = F at *
      have k1 : F * b' ≤ F * (5 * S') := mul_le_mul_of_nonneg_left q1 F0
      have k2 : 0 ≤ F * b' := by positivity
      have k3 : F * S' ≤ 0.01965 * S' := mul_le_mul_of_nonneg_right F1 a2.le
      norm_num at *
      exact ⟨a1, by nlinarith, by nlinarith, by nlinarith⟩
  obtain ⟨z, z', hz, hz', z0, zz, zb, zbig⟩ := charge_step env.debug p t c hc (by linarith) x r hx10.le h1 h2
  obtain ⟨v, v', hv, hv', B1, B2, B3⟩ := bethe_step env hp hn hA t tZ tZ' t85 t87 tA c m.i_potential hI x r h1 h2 hx10.le h9 hT hT' z z' hz hz' z0 zz zb
  obtain ⟨R1, R2, R3⟩ := radiative_step p t c pZ1 hZA tZ tZ' tA x r h1 h2 hx9
  have rad0 : ∀ y, y ≤ 50000 → radiative (p.withT y) t c = 0 := by
    intro y hy
    unfold radiative
    rw [if_neg]
    rintro ⟨h, -⟩
    have : (p.withT y).T = y := rfl
    rw [this] at h
    linarith
  rcases lt_or_ge x 30 with hx30 | hx30
  · -- blending
    have rx2 : r * x ≤ 31.2 := by norm_num at rx1 ⊢; linarith
    rw [rad0 x (by linarith), add_zero] at hv
    rw [rad0 (r * x) (by norm_num at rx2; linarith), add_zero] at hv'
    obtain ⟨q1, -⟩ := hR x hx10.le (by norm_num; linarith) hT s v hs hv
    obtain ⟨-, q2⟩ := hR (r * x) (by linarith) (by norm_num at rx2 ⊢; linarith) hT' s' v' hs' hv'
    have dF : r * x - x ≤ 0.0393 * x := by norm_num at rx1 ⊢; linarith
    rcases lt_or_ge (r * x) 30 with h30 | h30
    · refine ⟨_, _, ((V v hs).2 hv).1 hx10.le hx30, ((V' v' hs').2 hv').1 (by linarith) h30, ?_⟩
      refine blend_step _ _ _ _ _ _ (B2 (by norm_num; linarith)) (scale _ _ (st' hx10.le)) (by linarith) (by linarith) (by linarith) ?_ q1 q2
      norm_num at dF ⊢
      linarith
    · refine ⟨_, _, ((V v hs).2 hv).1 hx10.le hx30, ((V' v' hs').2 hv').2 h30, ?_⟩
      have := blend_step v v' _ _ ((x - 10) / 20) 1 (B2 (by norm_num; linarith)) (scale _ _ (st' hx10.le)) (by linarith) (by linarith) le_rfl (by
        norm_num at dF ⊢; linarith) q1 q2
      rwa [sub_self, zero_mul, one_mul, zero_add] at this
  · refine ⟨_, _, ((V _ hs).2 hv).2 hx30, ((V' _ hs').2 hv').2 (by linarith), ?_⟩
    by_cases h3 : c.corrections.testBit 3 = true
    · rw [(R3 h3).1, (R3 h3).2, add_zero, add_zero]
      exact B1.mono (by norm_num) (by norm_num)
    rcases le_or_gt x 50000 with h5 | h5
    · obtain ⟨r1, r2, r3⟩ := R2 h5
      rw [r1, add_zero]
      rcases le_or_gt (r * x) 50000 with h6 | h6
      · rw [rad0 _ h6, add_zero]
        exact B1.mono (by norm_num) (by norm_num)
      · have h7 : 48000 ≤ x := by norm_num at rx1; linarith
        obtain ⟨-, c2, c3⟩ := B3 h7 (by linarith)
        obtain ⟨-, d2⟩ := zbig h7 pZ1 pZ108
        have k : radiative (p.withT (r * x)) t c ≤ 0.248 * v' := by
          have hz2 : 0.9025 * p.Z ^ 2 ≤ z' ^ 2 := by
            have := pow_le_pow_left₀ (by positivity) d2 2
            norm_num [mul_pow] at this ⊢
            linarith
          have hw : 0.9025 * (dedx_constant * p.Z ^ 2 * t.Z / t.A) ≤ dedx_constant * z' ^ 2 * t.Z / t.A := by
            have hdc : (0 : ℝ) < dedx_constant := by norm_num [dedx_constant]
            have htz : (1 : ℝ) ≤ (t.Z : ℝ) := by exact_mod_cast tZ
            generalize (t.Z : ℝ) = w at *
            have : 0 ≤ dedx_constant * w / t.A := by positivity
            calc 0.9025 * (dedx_constant * p.Z ^ 2 * w / t.A) = dedx_constant * w / t.A * (0.9025 * p.Z ^ 2) := by ring
              _ ≤ dedx_constant * w / t.A * z' ^ 2 := mul_le_mul_of_nonneg_left hz2 this
              _ = _ := by ring
          generalize dedx_constant * p.Z ^ 2 * t.Z / t.A = W at *
          generalize dedx_constant * z' ^ 2 * t.Z / t.A = W' at *
          norm_num at *
          linarith
        obtain ⟨a1, a2, a3, a4⟩ := c3
        exact ⟨a1, by linarith, by norm_num at *; linarith, by norm_num at *; linarith⟩
    · have := R1 h5 (by simpa using h3)
      exact (B1.add (this.mono (by norm_num) (by norm_num))).mono (by norm_num) (by norm_num)

/-- Sums over the components, and the nuclear part. -/
theorem steady_of_components (env : Env ℝ) {p : Projectile ℝ} {n : Int} {m : Material ℝ} {c : Config ℝ} (h : Computable p n m c)
    (x r : ℝ) (h1 : 1 ≤ r) (h2 : r ≤ 1.0393) (hx : 0 < x)
    (hc : ∀ t ∈ m.atoms, ∃ e e', electronic env (p.withT x) (m.only t) c = .ok e ∧ electronic env (p.withT (r * x)) (m.only t) c = .ok e' ∧ Step 1.36 1.36 e e')
    (u v : ℝ) (hu : dedx env (p.withT x) m c = .ok u) (hv : dedx env (p.withT (r * x)) m c = .ok v) : Step 1.36 1.36 u v := by
  choose! g g' hg using hc
  have pZ : 0 < p.Z := by rw [h.ion.Z]; exact_mod_cast (by linarith [h.ion.pos] : 0 < n)
  obtain ⟨a, a', ha, ha', st⟩ := nuclear_step env.debug p pZ h.ion.A m h.sound x r hx h1 h2
  have hA : ∀ t ∈ m.atoms, t.A ≠ 0 := fun t ht => (h.sound.A t ht).ne'
  have e1 := electronic_additive env (p.withT x) m c hA g fun t ht => (hg t ht).1
  have e2 := electronic_additive env (p.withT (r * x)) m c hA g' fun t ht => (hg t ht).2.1
  rw [dedx_eq env _ m c hx, ha, e1] at hu
  rw [dedx_eq env _ m c (by show 0 < r * x; positivity), ha', e2] at hv
  cases hu
  cases hv
  exact (st.mono (by norm_num) (by norm_num)).add (Step.sum _ _ _ _ h.sound.nonempty (m.wfrac_pos h.sound) fun t ht => (hg t ht).2.2)

/-- Any ion, for the conditions on the low-energy model named here. -/
theorem steady_of_srim (env : Env ℝ) (p : Projectile ℝ) {n : Int} (hn : n ≤ 108) (m : Material ℝ) (c : Config ℝ) (h : Computable p n m c)
    (hA : p.A ≤ 3 * element_atomic_weight n) (hZA : p.Z ≤ 2 * p.A) (hc : c.z_effective = 1)
    (hI : ∀ t ∈ m.atoms, TypicalI m.i_potential t.Z) (hd : ∀ t ∈ m.atoms, t.Z ≠ 85 ∧ t.Z ≠ 87)
    (hS : ∀ t ∈ m.atoms, ∀ x r, 0 < x → 1.039 ≤ r → r ≤ 1.0393 → ∃ s s', srim_dedx_e n t.Z x (c.low_energy == 1) = .ok s ∧
      srim_dedx_e n t.Z (r * x) (c.low_energy == 1) = .ok s' ∧
      Step 1.36 1.36 s s' ∧ (9.6 ≤ x → Step 1.25 1.25 s s') ∧ (10 ≤ x → Step 1.223 1.172 s s'))
    (hR : ∀ t ∈ m.atoms, ∀ y, 10 ≤ y → y ≤ 32.5 → LindhardReadable y → ∀ s v, srim_dedx_e n t.Z y (c.low_energy == 1) = .ok s →
      bethek_dedx_e_target env (p.withT y) t c m.i_potential = .ok v →
      v ≤ 5 * (602.2140857 * s / t.A) ∧ 602.2140857 * s / t.A ≤ 3.3 * v) : SteadyStopping env p m c := by
  intro x x0 x1 hT hT' u v hu hv
  obtain ⟨g1, g2⟩ := gridRatio_bounds
  have g1' : (1.039 : ℝ) ≤ gridRatio := le_trans (by norm_num) g1
  have g2' : gridRatio ≤ (1.0393 : ℝ) := le_trans g2 (by norm_num)
  have hx : 0 < x := lt_of_lt_of_le (EnergyTable.val_pos _ _) x0
  have top : gridRatio * x ≤ 10100000 := by
    have := (abs_le.mp energy_table_range.2.2).2
    norm_num at this
    linarith
  have := steady_of_components env h x gridRatio (le_trans (by norm_num) g1) g2' hx (fun t ht => by
    obtain ⟨s, s', hs, hs', st, st9, st'⟩ := hS t ht x gridRatio hx g1' g2'
    exact component_step env h.ion hn hA hZA m t (h.sound.Z t ht) (h.known t ht) (hd t ht).1 (hd t ht).2
      (h.sound.A t ht) c hc (hI t ht) x gridRatio g1' g2' hx (by rw [ls_top]; exact x1) top hT hT' s s' hs hs' st st9 st' (hR t ht)) u v hu hv
  obtain ⟨a1, a2, a3, a4⟩ := this
  refine ⟨a1, a2, ?_, ?_⟩ <;> norm_num at * <;> linarith

/-- Protons, deuterons and tritons. -/
theorem proton_steady_stopping (env : Env ℝ) (p : Projectile ℝ) (m : Material ℝ) (c : Config ℝ) (h : Computable p 1 m c)
    (hA : p.A ≤ 3 * element_atomic_weight 1) (hZA : 1 ≤ 2 * p.A) (hc : c.z_effective = 1)
    (hI : ∀ t ∈ m.atoms, TypicalI m.i_potential t.Z) (hI' : 0 < m.i_potential → 10 ≤ m.i_potential)
    (hd : ∀ t ∈ m.atoms, t.Z ≠ 85 ∧ t.Z ≠ 87) : SteadyStopping env p m c := by
  have pZ : p.Z = 1 := by rw [h.ion.Z]; norm_num
  have fold : ∀ (tZ : Int) y, srim_dedx_e 1 tZ y (c.low_energy == 1) = (if c.low_energy == 1 then p_se tZ else p_se85 tZ : ℝ → M ℝ) y :=
    fun _ y => rfl
  refine steady_of_srim env p (by norm_num) m c h hA (by rw [pZ]; exact hZA) hc hI hd (fun t ht x r hx r1 r2 => ?_) fun t ht y y0 y1 hy s v hs hv => ?_
  · obtain ⟨s, s', hs, hs', st, st'⟩ := proton_step (c.low_energy == 1) t.Z (h.sound.Z t ht) x r hx (le_trans (by norm_num) r1) r2
    exact ⟨s, s', hs, hs', st.mono (by norm_num) (by norm_num), fun _ => st.mono (by norm_num) (by norm_num),
      fun h10 => (st' h10).mono (by norm_num) (by norm_num)⟩
  · exact proton_ratio env h.ion hA t (h.sound.Z t ht) (h.known t ht) (hd t ht).1 (hd t ht).2 (h.sound.A t ht) c hc m.i_potential (hI t ht) hI'
      y y0 y1 hy (c.low_energy == 1) s v hs hv

end Catima
