import Verif.Props.Continuity

/-!
# C128: where the stopping power of heavier ions jumps
-/

namespace Catima

open Filter Topology

/-! ## The pieces of the effective charge -/

theorem relV_continuousAt (v : ℝ) (hv : 0 < v) : ContinuousAt relV v := by
  have e : ∀ u : ℝ, 0 < u → relV u = 3 / 4 * (1 + min u 1 * min u 1 * (2 / 3 - min u 1 * min u 1 / 15)) +
      max u 1 * (1 + 0.2 / (max u 1 * max u 1)) - 1.2 := by
    intro u hu
    unfold relV
    rcases le_or_gt 1 u with h | h
    · rw [if_pos h, min_eq_right h, max_eq_left h]; norm_num
    · rw [if_neg (not_le.mpr h), min_eq_left h.le, max_eq_right h.le]; norm_num
  have hm : (0 : ℝ) < max v 1 := lt_max_of_lt_left hv
  have c1 : ContinuousAt (fun u : ℝ => max u 1) v := by fun_prop
  have c2 : ContinuousAt (fun u : ℝ => 0.2 / (max u 1 * max u 1)) v := continuousAt_const.div (c1.mul c1) (by positivity)
  have c3 : ContinuousAt (fun u : ℝ => 3 / 4 * (1 + min u 1 * min u 1 * (2 / 3 - min u 1 * min u 1 / 15))) v := by fun_prop
  have c4 : ContinuousAt (fun u : ℝ => 3 / 4 * (1 + min u 1 * min u 1 * (2 / 3 - min u 1 * min u 1 / 15)) +
      max u 1 * (1 + 0.2 / (max u 1 * max u 1)) - 1.2) v := (c3.add (c1.mul (continuousAt_const.add c2))).sub continuousAt_const
  refine c4.congr ?_
  filter_upwards [lt_mem_nhds hv] with u hu
  exact (e u hu).symm

/-- The reduced velocity before it is cut off (srim.cpp:96-108). -/
noncomputable def rawY (iz vf x : ℝ) : ℝ := vf * relV (√(1000 * x / 25) / vf) * (iz * iz)

theorem rawY_continuousAt (iz vf x : ℝ) (hv : 0 < vf) (hx : 0 < x) : ContinuousAt (rawY iz vf) x := by
  have hs : 0 < √(1000 * x / 25) := Real.sqrt_pos.mpr (by positivity)
  have c1 : ContinuousAt (fun x : ℝ => √(1000 * x / 25) / vf) x := by fun_prop
  have c2 : ContinuousAt (fun x : ℝ => relV (√(1000 * x / 25) / vf)) x := ContinuousAt.comp (f := fun x : ℝ => √(1000 * x / 25) / vf) (g := relV) (relV_continuousAt _ (by positivity)) c1
  exact (continuousAt_const.mul c2).mul continuousAt_const

theorem ionY_continuousAt (iz vf x : ℝ) (hv : 0 < vf) (hx : 0 < x) : ContinuousAt (ionY iz vf) x := by
  have h := rawY_continuousAt iz vf x hv hx
  exact (continuousAt_const.max h).max continuousAt_const

theorem hiQ_continuousAt (y : ℝ) (hy : 0 < y) : ContinuousAt (hiQ : ℝ → ℝ) y := by
  have c3 : ContinuousAt (fun y : ℝ => y ^ (0.3 : ℝ)) y := Real.continuousAt_rpow_const _ _ (.inl hy.ne')
  have c6 : ContinuousAt (fun y : ℝ => y ^ (0.6 : ℝ)) y := Real.continuousAt_rpow_const _ _ (.inl hy.ne')
  unfold hiQ
  simp only [smin_real, smax_real, exp_real, pow_real]
  have ca : ContinuousAt (fun y : ℝ => -0.803 * y ^ (0.3 : ℝ) + 1.3167 * y ^ (0.6 : ℝ) + 0.38157 * y + 0.008983 * y * y) y :=
    (((continuousAt_const.mul c3).add (continuousAt_const.mul c6)).add (by fun_prop)).add (by fun_prop)
  exact continuousAt_const.min (continuousAt_const.max (continuousAt_const.sub (Real.continuous_exp.continuousAt.comp (ca.min continuousAt_const).neg)))

/-- The screening length, off the second switch of its formula, which exists for ions up to cobalt. -/
theorem scrL_continuousAt (pZ : Int) (h3 : 3 ≤ pZ) (iz lam q : ℝ) (hi : 0 < iz) (hl : 0.81 ≤ lam)
    (h : pZ ≤ 27 → q ≠ 0.9 - 0.025 * (pZ : ℝ)) : ContinuousAt (scrL pZ iz lam) q := by
  have z3 : (3 : ℝ) ≤ pZ := by exact_mod_cast h3
  have e0 : (0.0 : ℝ) = 0 := by norm_num
  have e1 : (1.0 : ℝ) = 1 := by norm_num
  obtain ⟨b, hb⟩ : ∃ b : ℝ, b = min 0.43 (max 0.32 (0.12 + 0.025 * (pZ : ℝ))) := ⟨_, rfl⟩
  have b0 : 0.32 ≤ b := by rw [hb]; exact le_min (by norm_num) (le_max_left _ _)
  have b1 : b ≤ 0.43 := by rw [hb]; exact min_le_left _ _
  obtain ⟨k, hk⟩ : ∃ k : ℝ, k = 0.025 * min 16 (pZ : ℝ) := ⟨_, rfl⟩
  have k0 : 0 < k := by rw [hk]; have : (3 : ℝ) ≤ min 16 (pZ : ℝ) := le_min (by norm_num) z3; positivity
  have k1 : k ≤ 0.4 := by rw [hk]; have := min_le_left 16 (pZ : ℝ); norm_num; linarith
  have e16 : (16.0 : ℝ) = 16 := by norm_num
  have hL : ∀ r, hiL1 (pZ : ℝ) r iz = if r < 0.2 then 0 else if r < max 0 (0.9 - 0.025 * (pZ : ℝ)) then
      b * iz * (r - 0.2) / |max 0 (0.9 - 0.025 * (pZ : ℝ)) - 0.2000001| else if r < 1 - k then b * iz else b * iz * (1 - r) / k := by
    intro r
    unfold hiL1
    simp only [smin_real, smax_real, fabs_real, lt_real, e0, e1, e16, ← hb, ← hk]
    have : max 0 (1 - k) = 1 - k := max_eq_right (by norm_num at k1; linarith)
    rw [this]
  -- above the switch
  have up : ∀ r, 0.2 ≤ r → max 0 (0.9 - 0.025 * (pZ : ℝ)) ≤ r → hiL1 (pZ : ℝ) r iz = b * iz * min 1 ((1 - r) / k) := by
    intro r r1 r2
    rw [hL, if_neg (not_lt.mpr r1), if_neg (not_lt.mpr r2)]
    split
    · next hr => rw [min_eq_left (by rw [le_div_iff₀ k0]; linarith), mul_one]
    · next hr => rw [min_eq_right (by rw [div_le_iff₀ k0]; linarith), mul_div_assoc]
  have cU : Continuous fun r : ℝ => b * iz * min 1 ((1 - r) / k) := by fun_prop
  have cR : Continuous fun r : ℝ => (0.8 - r * min 1.2 (0.6 + (pZ : ℝ) / 30)) * iz * lam := by fun_prop
  have hi27 : 28 ≤ pZ → max 0 (0.9 - 0.025 * (pZ : ℝ)) ≤ 0.2 := by
    intro h28
    have : (28 : ℝ) ≤ pZ := by exact_mod_cast h28
    exact max_le (by norm_num) (by norm_num; linarith)
  have lo27 : pZ ≤ 27 → max 0 (0.9 - 0.025 * (pZ : ℝ)) = 0.9 - 0.025 * (pZ : ℝ) ∧ 0.225 ≤ 0.9 - 0.025 * (pZ : ℝ) := by
    intro h27
    have : (pZ : ℝ) ≤ 27 := by exact_mod_cast h27
    have : 0.225 ≤ 0.9 - 0.025 * (pZ : ℝ) := by norm_num; linarith
    exact ⟨max_eq_right (by norm_num at this ⊢; linarith), this⟩
  by_cases hc : pZ ≤ 27
  · obtain ⟨m1, m2⟩ := lo27 hc
    rcases lt_or_gt_of_ne (h hc) with hq | hq
    · have cD : Continuous fun r : ℝ => b * iz * max 0 (r - 0.2) / |0.9 - 0.025 * (pZ : ℝ) - 0.2000001| := by fun_prop
      refine (cD.max cR).continuousAt.congr ?_
      filter_upwards [gt_mem_nhds hq] with r hr
      unfold scrL
      congr 1
      rw [hL, m1, if_pos hr]
      split
      · next h2 => rw [max_eq_left (by linarith)]; simp
      · next h2 => rw [max_eq_right (by linarith)]
    · refine (cU.max cR).continuousAt.congr ?_
      filter_upwards [lt_mem_nhds hq] with r hr
      unfold scrL
      congr 1
      exact (up r (by norm_num at m2 hr ⊢; linarith) (by rw [m1]; exact hr.le)).symm
  · have h28 : 28 ≤ pZ := by omega
    have z28 : (28 : ℝ) ≤ pZ := by exact_mod_cast h28
    have hm := hi27 h28
    have mn : min 1.2 (0.6 + (pZ : ℝ) / 30) = 1.2 := min_eq_left (by norm_num; linarith)
    have big : ∀ r, r < 0.22 → b * iz ≤ (0.8 - r * min 1.2 (0.6 + (pZ : ℝ) / 30)) * iz * lam := by
      intro r hr
      rw [mn]
      have a1 : 0.536 ≤ 0.8 - r * 1.2 := by norm_num at hr ⊢; linarith
      have a2 : 0.536 * 0.81 ≤ (0.8 - r * 1.2) * lam := mul_le_mul a1 hl (by norm_num) (by norm_num at a1 ⊢; linarith)
      have a3 : b ≤ (0.8 - r * 1.2) * lam := by norm_num at a2 b1 ⊢; linarith
      have := mul_le_mul_of_nonneg_right a3 hi.le
      linarith
    have bi : 0 ≤ b * iz := mul_nonneg (by norm_num at b0; linarith) hi.le
    rcases lt_or_ge q 0.22 with hq | hq
    · refine cR.continuousAt.congr ?_
      filter_upwards [gt_mem_nhds hq] with r hr
      unfold scrL
      rw [max_eq_right]
      refine le_trans ?_ (big r hr)
      rcases lt_or_ge r 0.2 with h2 | h2
      · rw [hL, if_pos h2]; exact bi
      · rw [up r h2 (hm.trans h2)]
        exact (mul_le_mul_of_nonneg_left (min_le_left _ _) bi).trans_eq (mul_one _)
    · refine (cU.max cR).continuousAt.congr ?_
      filter_upwards [lt_mem_nhds (show (0.2 : ℝ) < q by norm_num at hq ⊢; linarith)] with r hr
      unfold scrL
      congr 1
      exact (up r hr.le (hm.trans hr.le)).symm

theorem ionZeta_continuousAt (pZ tZ : Int) (h3 : 3 ≤ pZ) (iz lam vf x : ℝ) (hi : 0 < iz) (hl : 0.81 ≤ lam) (hv : 0 < vf) (hx : 0 < x)
    (h : pZ ≤ 27 → hiQ (ionY iz vf x) ≠ 0.9 - 0.025 * (pZ : ℝ)) : ContinuousAt (ionZeta pZ tZ iz lam vf) x := by
  have y0 : 0 < ionY iz vf x := lt_of_lt_of_le (by norm_num) ((le_max_left (0.13 : ℝ) _).trans (le_max_left _ _))
  have cq : ContinuousAt (fun x => hiQ (ionY iz vf x)) x := ContinuousAt.comp (g := hiQ) (f := ionY iz vf) (hiQ_continuousAt _ y0) (ionY_continuousAt iz vf x hv hx)
  have cs : ContinuousAt (fun x => scrL pZ iz lam (hiQ (ionY iz vf x))) x :=
    ContinuousAt.comp (g := scrL pZ iz lam) (f := fun x => hiQ (ionY iz vf x)) (scrL_continuousAt pZ h3 iz lam _ hi hl h) cq
  have cm : Continuous (scrM vf) := by
    unfold scrM
    refine continuous_const.mul (Continuous.log (by fun_prop) fun l => ?_)
    positivity
  have cz : ContinuousAt (fun x => zeta0 pZ iz lam vf (hiQ (ionY iz vf x))) x := by
    unfold zeta0
    exact cq.add ((continuousAt_const.sub cq).mul (cm.continuousAt.comp cs))
  have cl : ContinuousAt (fun x : ℝ => Real.log (1000 * x)) x := ContinuousAt.log (by fun_prop) (by positivity)
  refine cz.mul (continuousAt_const.add (continuousAt_const.mul (Real.continuous_exp.continuousAt.comp ?_)))
  exact ((continuousAt_const.sub (continuousAt_const.max cl)).pow 2).neg

/-! ## The low-energy model -/

/-- The switches of the effective charge of heavier ions at which the stopping power may jump. -/
structure OffHeavySwitches (n : Int) (m : Material ℝ) (x : ℝ) : Prop where
  /-- srim.cpp:121-124, the ionisation level at which the screening length stops growing, for ions up to cobalt -/
  level : n ≤ 27 → ∀ t ∈ m.atoms, ∀ vf, rdDec (α := ℝ) atima_vfermi (srimIdx t.Z) = .ok vf →
    hiQ (ionY (1 / (n : ℝ) ^ (1 / 3 : ℝ)) vf x) ≠ 0.9 - 0.025 * (n : ℝ)
  /-- srim.cpp:143-156, the reduced velocity below which the stopping is extrapolated, when the relative velocity there is below
  1.2 times the Fermi velocity of the target -/
  slow : ∀ t ∈ m.atoms, ∀ vf, rdDec (α := ℝ) atima_vfermi (srimIdx t.Z) = .ok vf →
    ionVR (1 / (n : ℝ) ^ (1 / 3 : ℝ)) < 1.2 * vf →
    rawY (1 / (n : ℝ) ^ (1 / 3 : ℝ)) vf x ≠ max 0.13 ((1 / (n : ℝ) ^ (1 / 3 : ℝ)) * (1 / (n : ℝ) ^ (1 / 3 : ℝ)))

theorem relV_slow_lt (v : ℝ) (h0 : 0 < v) (h : v < 1) : relV v < 1.2 := by
  unfold relV
  rw [if_neg (not_le.mpr h)]
  have s1 : v * v < 1 := by nlinarith
  have s0 : 0 < v * v := by positivity
  generalize v * v = s at *
  norm_num
  nlinarith

/-- Where the two formulae of the low-energy model meet, if the ion is faster than the Fermi velocity there. -/
theorem vmin_meets (iz vf x : ℝ) (hi : 0 < iz) (hv : 0 < vf) (hx : 0 < x) (hVR : 1.2 * vf ≤ ionVR iz)
    (h : rawY iz vf x = max 0.13 (iz * iz)) : 25 * ionVmin iz vf * ionVmin iz vf = 1000 * x := by
  have hs : 0 < √(1000 * x / 25) := Real.sqrt_pos.mpr (by positivity)
  have hsq : √(1000 * x / 25) * √(1000 * x / 25) = 1000 * x / 25 := Real.mul_self_sqrt (by positivity)
  have ii : 0 < iz * iz := by positivity
  have e1 : vf * relV (√(1000 * x / 25) / vf) = ionVR iz := by
    have : max 0.13 (iz * iz) = ionVR iz * (iz * iz) := by
      unfold ionVR
      rw [max_mul_of_nonneg _ _ ii.le, div_mul_cancel₀ _ ii.ne', one_mul, max_comm]
    unfold rawY at h
    rw [this] at h
    exact mul_right_cancel₀ ii.ne' h
  generalize hu : √(1000 * x / 25) = u at *
  have v1 : 1 ≤ u / vf := by
    by_contra hc
    push Not at hc
    have := mul_lt_mul_of_pos_left (relV_slow_lt (u / vf) (by positivity) hc) hv
    norm_num at this hVR
    linarith
  rw [relV_fast _ v1] at e1
  have vu : vf ≤ u := by rwa [le_div_iff₀ hv, one_mul] at v1
  have e2 : u * u + 0.2 * vf * vf = ionVR iz * u := by
    rw [← e1]
    field_simp
  have e3 : ionVR iz * ionVR iz - 0.8 * vf * vf = (2 * u - ionVR iz) * (2 * u - ionVR iz) := by
    norm_num at e2 ⊢
    linarith
  have e4 : 0 ≤ 2 * u - ionVR iz := by
    have : ionVR iz * u ≤ 2 * u * u := by rw [← e2]; norm_num; nlinarith
    have := le_of_mul_le_mul_right this hs
    linarith
  have e5 : ionVmin iz vf = u := by
    unfold ionVmin
    rw [e3, max_eq_right (mul_self_nonneg _), Real.sqrt_mul_self e4]
    ring
  rw [e5, mul_assoc, hsq]
  ring

theorem srim_heavy_no_jump (n tZ : Int) (hn : 3 ≤ n) (hn' : n ≤ 108) (htZ : 1 ≤ tZ) (b : Bool) (x : ℝ) (hx : 0 < x)
    (h1 : n ≤ 27 → ∀ vf, rdDec (α := ℝ) atima_vfermi (srimIdx tZ) = .ok vf → hiQ (ionY (1 / (n : ℝ) ^ (1 / 3 : ℝ)) vf x) ≠ 0.9 - 0.025 * (n : ℝ))
    (h2 : ∀ vf, rdDec (α := ℝ) atima_vfermi (srimIdx tZ) = .ok vf → ionVR (1 / (n : ℝ) ^ (1 / 3 : ℝ)) < 1.2 * vf →
      rawY (1 / (n : ℝ) ^ (1 / 3 : ℝ)) vf x ≠ max 0.13 ((1 / (n : ℝ) ^ (1 / 3 : ℝ)) * (1 / (n : ℝ) ^ (1 / 3 : ℝ)))) :
    NoJump (fun T => srim_dedx_e n tZ T b) x := by
  obtain ⟨F, hF⟩ : ∃ F : ℝ → ℝ, ∀ e, 0 < e → (if b then p_se tZ else p_se85 tZ : ℝ → M ℝ) e = .ok (F e) ∧ ContinuousAt F e := by
    cases b
    · exact pseGen_continuous _ proton_ok.1 proton_ok.2 tZ htZ
    · exact pseGen_continuous _ pse_95_ok.1 pse_95_ok.2 tZ htZ
  obtain ⟨lam, vf1, hlam, -, hS, -⟩ := ion_tables n 1 hn hn' le_rfl (by norm_num)
  obtain ⟨v0, v1⟩ := srimIdx_range tZ htZ
  obtain ⟨dv, hdv, hv⟩ := rdDec_get atima_vfermi _ v0 (by rw [vfermi_ok.1]; exact_mod_cast v1)
  have hv0 : (0 : ℝ) < dv.toScalar := dv.toScalar_pos (vfermi_ok.2 _ hdv)
  obtain ⟨vf, hvf⟩ : ∃ vf : ℝ, vf = dv.toScalar := ⟨_, rfl⟩
  rw [← hvf] at hv hv0
  have i0 := hS.iz0
  have l0 := hS.lam0
  have k1 := fun h => h1 h vf hv
  have k2 := h2 vf hv
  clear h1 h2 hS
  obtain ⟨iz, hiz⟩ : ∃ iz : ℝ, iz = 1 / (n : ℝ) ^ (1 / 3 : ℝ) := ⟨_, rfl⟩
  rw [← hiz] at i0 k1 k2
  have ee : ∀ y : ℝ, srim_dedx_e n tZ y b = srimHeavy (if b then p_se tZ else p_se85 tZ) n tZ y := fun y => by
    unfold srim_dedx_e
    rw [if_neg (by omega), if_neg (by omega)]
  have vr1 : 1 ≤ ionVR iz := le_max_left _ _
  have vm : 0 < ionVmin iz vf := by
    unfold ionVmin
    have := Real.sqrt_nonneg (max 0 (ionVR iz * ionVR iz - 0.8 * vf * vf))
    linarith
  have lim : ∀ y, ionY iz vf y ≤ max 0.13 (iz * iz) ↔ rawY iz vf y ≤ max 0.13 (iz * iz) := by
    intro y
    show max (max 0.13 (rawY iz vf y)) (iz * iz) ≤ _ ↔ _
    constructor
    · exact fun h => (le_trans ((le_max_right _ _).trans (le_max_left _ _)) h)
    · exact fun h => max_le (max_le (le_max_left _ _) h) (le_max_right _ _)
  have val : ∀ y, 0 < y → srim_dedx_e n tZ y b = .ok (if rawY iz vf y ≤ max 0.13 (iz * iz) then
      F (25 * ionVmin iz vf * ionVmin iz vf * 0.001) * (ionZeta n tZ iz lam vf y * n) * (ionZeta n tZ iz lam vf y * n) *
        (1000 * y / (25 * ionVmin iz vf * ionVmin iz vf)) ^ ionPow n tZ
      else F y * (ionZeta n tZ iz lam vf y * n) ^ 2) := by
    intro y hy
    rw [ee, srimHeavy_eq _ n tZ y lam vf hy hlam hv hv0 iz hiz, (hF _ (by positivity)).1, (hF y hy).1]
    by_cases h : rawY iz vf y ≤ max 0.13 (iz * iz)
    · rw [if_pos ((lim y).mpr h), if_pos h, bind_ok]; rfl
    · rw [if_neg (mt (lim y).mp h), if_neg h, bind_ok]; rfl
  refine ⟨_, by filter_upwards [lt_mem_nhds hx] with T hT using val T hT, ?_⟩
  have cz := ionZeta_continuousAt n tZ hn iz lam vf x i0 l0 hv0 hx k1
  have czn : ContinuousAt (fun y => ionZeta n tZ iz lam vf y * n) x := cz.mul continuousAt_const
  have cp : ContinuousAt (fun y : ℝ => (1000 * y / (25 * ionVmin iz vf * ionVmin iz vf)) ^ ionPow n tZ) x :=
    ContinuousAt.rpow_const (by fun_prop) (.inl (by positivity))
  have cA : ContinuousAt (fun y => F (25 * ionVmin iz vf * ionVmin iz vf * 0.001) * (ionZeta n tZ iz lam vf y * n) * (ionZeta n tZ iz lam vf y * n) *
        (1000 * y / (25 * ionVmin iz vf * ionVmin iz vf)) ^ ionPow n tZ) x := ((continuousAt_const.mul czn).mul czn).mul cp
  have cB : ContinuousAt (fun y => F y * (ionZeta n tZ iz lam vf y * n) ^ 2) x := (hF x hx).2.mul (czn.pow 2)
  have cr := rawY_continuousAt iz vf x hv0 hx
  rcases lt_trichotomy (rawY iz vf x) (max 0.13 (iz * iz)) with h | h | h
  · refine cA.congr ?_
    filter_upwards [cr.eventually_lt_const h] with y hy
    rw [if_pos hy.le]
  · -- the two formulae meet
    have hVR : 1.2 * vf ≤ ionVR iz := by
      by_contra hc
      exact k2 (not_le.mp hc) h
    have meet := vmin_meets iz vf x i0 hv0 hx hVR h
    have e1 : F (25 * ionVmin iz vf * ionVmin iz vf * 0.001) * (ionZeta n tZ iz lam vf x * n) * (ionZeta n tZ iz lam vf x * n) *
        (1000 * x / (25 * ionVmin iz vf * ionVmin iz vf)) ^ ionPow n tZ = F x * (ionZeta n tZ iz lam vf x * n) ^ 2 := by
      rw [meet, div_self (by positivity), Real.one_rpow, show 1000 * x * 0.001 = x by norm_num; ring]
      ring
    unfold ContinuousAt at cA cB ⊢
    simp only [h, le_refl, if_true]
    refine Tendsto.if' cA ?_
    rw [e1]
    exact cB
  · refine cB.congr ?_
    filter_upwards [cr.eventually_const_lt h] with y hy
    rw [if_neg (not_le.mpr hy)]

theorem sezi_no_jump_heavy {p : Projectile ℝ} {n : Int} (hp : p.Ion n) (hn' : n ≤ 108) {m : Material ℝ} (hm : m.Sound)
    (c : Config ℝ) (x : ℝ) (hx : 0 < x) (ho : 3 ≤ n → OffHeavySwitches n m x) : NoJump (fun T => sezi_dedx_e (p.withT T) m c) x := by
  rcases le_or_gt n 2 with h2 | h2
  · exact sezi_no_jump hp h2 hm c x hx
  have hcast : castInt p.Z = .ok n := by
    rw [hp.Z]
    exact castInt_real n (by linarith [hp.pos]) hp.int
  simp only [sezi_eq]
  refine NoJump.sum fun t ht => ?_
  obtain ⟨F, hF, cF⟩ := srim_heavy_no_jump n t.Z h2 hn' (hm.Z t ht) (c.low_energy == 1) x hx
    (fun h => (ho h2).level h t ht) ((ho h2).slow t ht)
  refine ⟨fun T => 100.0 * (F T / t.A) * Avogadro, ?_, ?_⟩
  · filter_upwards [hF] with T hT
    show (do let pZ ← castInt p.Z; let s ← srim_dedx_e pZ t.Z T (c.low_energy == 1); return 100.0 * (s / t.A) * Avogadro) = _
    rw [hcast, bind_ok, hT, bind_ok]
    rfl
  · exact (continuousAt_const.mul (cF.div_const _)).mul continuousAt_const

/-- From molybdenum on the effective charge has no such switches, except in protactinium. -/
theorem off_heavy_42 (n : Int) (h42 : 42 ≤ n) (hn : n ≤ 108) (m : Material ℝ) (hm : m.Sound) (h91 : ∀ t ∈ m.atoms, t.Z ≠ 91) (x : ℝ) :
    OffHeavySwitches n m x where
  level := fun h => absurd h (by omega)
  slow := fun t ht vf hv h => by
    exfalso
    obtain ⟨lam, vf', -, hv', hS, -⟩ := ion_tables n t.Z (by omega) hn (hm.Z t ht) (h91 t ht)
    rw [hv] at hv'
    cases hv'
    have i0 := hS.iz0
    have i3 := hS.cube
    have v1 := hS.vf1
    have z : (42 : ℝ) ≤ n := by exact_mod_cast h42
    have h2 : 0.13 / ((1 / (n : ℝ) ^ (1 / 3 : ℝ)) * (1 / (n : ℝ) ^ (1 / 3 : ℝ))) ≤ ionVR (1 / (n : ℝ) ^ (1 / 3 : ℝ)) := le_max_right _ _
    generalize 1 / (n : ℝ) ^ (1 / 3 : ℝ) = iz at *
    have i1 : iz ≤ 0.2878 := by
      by_contra hc
      push Not at hc
      have := pow_lt_pow_left₀ hc (by norm_num) (n := 3) (by norm_num)
      have : 42 * (0.2878 : ℝ) ^ 3 < n * iz ^ 3 := by nlinarith [pow_pos i0 3]
      rw [i3] at this
      norm_num at this
    have i2 : iz * iz ≤ 0.2878 * 0.2878 := mul_le_mul i1 i1 i0.le (by norm_num)
    have : 0.13 / (0.2878 * 0.2878) ≤ 0.13 / (iz * iz) := div_le_div_of_nonneg_left (by norm_num) (by positivity) i2
    norm_num at this h2 v1 h
    linarith

theorem off_heavy {n : Int} {m : Material ℝ} {x : ℝ} (hn : n ≤ 108) (hm : m.Sound)
    (h : 3 ≤ n → n < 42 ∨ (∃ t ∈ m.atoms, t.Z = 91) → OffHeavySwitches n m x) : 3 ≤ n → OffHeavySwitches n m x := by
  intro h3
  by_cases hc : n < 42 ∨ ∃ t ∈ m.atoms, t.Z = 91
  · exact h h3 hc
  · push Not at hc
    exact off_heavy_42 n hc.1 hn m hm hc.2 x

/-- C128, what holds: the stopping power has no jump at any energy off the switches named in `OffSwitches` and, up to 30 MeV/u and
for ions from lithium to niobium, in `OffHeavySwitches`.  Missing: these energies, see `stopping_jumps`. -/
theorem stopping_no_jump_partial (env : Env ℝ) (p : Projectile ℝ) (n : Int) (m : Material ℝ) (c : Config ℝ) (h : Computable p n m c)
    (hI : ∀ t ∈ m.atoms, TypicalI m.i_potential t.Z) (x : ℝ) (hx : 0 < x) (ho : OffSwitches p m c x)
    (hn : x ≤ 30 → 3 ≤ n → n < 42 ∨ (∃ t ∈ m.atoms, t.Z = 91) → OffHeavySwitches n m x) :
    NoJump (fun T => dedx env (p.withT T) m c) x := by
  refine NoJump.congr ?_ (NoJump.map₂ ((nuclear_jumps env.debug p h.posZ h.ion.A m h.sound x hx).mpr ho.nuclear)
    (electronic_no_jump env h hI x hx (fun h3 => sezi_no_jump_heavy h.ion h.small h.sound c x hx (off_heavy h.small h.sound (hn h3))) fun _ => ho) (fun a b => a + b) (by fun_prop))
  filter_upwards [lt_mem_nhds hx] with T hT
  exact dedx_eq env (p.withT T) m c hT

/-- C128 fails: below 10 MeV/u the stopping power jumps at every energy at which the reduced energy with respect to a component is
30, and nowhere else but, for ions from lithium to niobium, at the switches of the effective charge. -/
theorem stopping_jumps (env : Env ℝ) (p : Projectile ℝ) (n : Int) (m : Material ℝ) (c : Config ℝ) (h : Computable p n m c)
    (hI : ∀ t ∈ m.atoms, TypicalI m.i_potential t.Z) (x : ℝ) (hx : 0 < x) (hx' : x < 10)
    (hn : 3 ≤ n → n < 42 ∨ (∃ t ∈ m.atoms, t.Z = 91) → OffHeavySwitches n m x) :
    NoJump (fun T => dedx env (p.withT T) m c) x ↔ ∀ t ∈ m.atoms, reduced_energy_loss_unit (p.withT x) t ≠ 30 := by
  have he := electronic_no_jump env h hI x hx (fun _ => sezi_no_jump_heavy h.ion h.small h.sound c x hx (off_heavy h.small h.sound hn)) fun h => absurd hx' (not_lt.mpr h)
  rw [← nuclear_jumps env.debug p h.posZ h.ion.A m h.sound x hx]
  constructor
  · rintro ⟨D, hD, cD⟩
    obtain ⟨E, hE, cE⟩ := he
    refine ⟨fun T => D T - E T, ?_, cD.sub cE⟩
    filter_upwards [hD, hE, lt_mem_nhds hx] with T h1 h2 hT
    rw [dedx_eq env (p.withT T) m c hT] at h1
    obtain ⟨v, hv, -, -⟩ := nuclear_nonneg env.debug (p.withT T) h.posZ h.ion.A m h.sound
    rw [hv, bind_ok, h2, bind_ok] at h1
    rw [hv, ← Except.ok.inj h1]
    refine congrArg Except.ok ?_
    ring
  · intro hnuc
    refine NoJump.congr ?_ (NoJump.map₂ hnuc he (fun a b => a + b) (by fun_prop))
    filter_upwards [lt_mem_nhds hx] with T hT
    exact dedx_eq env (p.withT T) m c hT

/-- Protons in hydrogen, in the default configuration: the stopping power jumps at 12/3253 MeV/u. -/
theorem stopping_jumps_wrong (env : Env ℝ) : ¬ NoJump (fun T => dedx env ((⟨1, 1, 1, 0⟩ : Projectile ℝ).withT T)
    (⟨0.0000838, 1, 1, 0, [⟨1, 1, 1⟩]⟩ : Material ℝ) .default) (12 / 3253) := by
  have h : Computable (⟨1, 1, 1, 0⟩ : Projectile ℝ) 1 (⟨0.0000838, 1, 1, 0, [⟨1, 1, 1⟩]⟩ : Material ℝ) .default :=
    ⟨⟨by norm_num, by norm_num, by norm_num, by norm_num⟩, by norm_num, ⟨by simp, by simp, by simp, by simp, by norm_num⟩, by simp,
      Or.inl rfl⟩
  rw [stopping_jumps env _ 1 _ _ h (by simp [TypicalI]) _ (by norm_num) (by norm_num) (by norm_num)]
  intro hne
  refine hne ⟨1, 1, 1⟩ (by simp) ?_
  unfold reduced_energy_loss_unit
  simp only [Projectile.withT, pow_real, ofInt_real, Int.cast_one, Real.one_rpow]
  norm_num

/-- Protons of 1 MeV in hydrogen, in the default configuration: no jump there. -/
example (env : Env ℝ) : NoJump (fun T => dedx env ((⟨1, 1, 1, 0⟩ : Projectile ℝ).withT T)
    (⟨0.0000838, 1, 1, 0, [⟨1, 1, 1⟩]⟩ : Material ℝ) .default) 1 := by
  refine stopping_no_jump_partial env _ 1 _ _ ⟨⟨by norm_num, by norm_num, by norm_num, by norm_num⟩, by norm_num,
    ⟨by simp, by simp, by simp, by simp, by norm_num⟩, by simp, Or.inl rfl⟩ (by simp [TypicalI]) 1 (by norm_num)
    ⟨?_, by norm_num, by norm_num, by norm_num, by norm_num⟩ (by norm_num)
  simp only [List.mem_singleton, forall_eq]
  unfold reduced_energy_loss_unit
  simp only [Projectile.withT, pow_real, ofInt_real, Int.cast_one, Real.one_rpow]
  norm_num

/-- Carbon ions of 100 MeV/u in hydrogen, without the Lindhard-Sørensen correction: no jump there. -/
example (env : Env ℝ) : NoJump (fun T => dedx env ((⟨12, 6, 6, 0⟩ : Projectile ℝ).withT T)
    (⟨0.0000838, 1, 1, 0, [⟨1, 1, 1⟩]⟩ : Material ℝ) { Config.default with corrections := 2 }) 100 := by
  have hlow : etaSq 100 < 1 := by unfold etaSq; norm_num
  have hlow' : (0.2 : ℝ) < etaSq 100 := by unfold etaSq; norm_num
  refine stopping_no_jump_partial env _ 6 _ _ ⟨⟨by norm_num, by norm_num, by norm_num, by norm_num⟩, by norm_num,
    ⟨by simp, by simp, by simp, by simp, by norm_num⟩, by simp, Or.inl rfl⟩ (by simp [TypicalI]) 100 (by norm_num)
    ⟨?_, fun _ _ => ?_, fun _ => ?_, fun _ h => ?_, fun _ => by norm_num⟩ (by norm_num)
  · simp only [List.mem_singleton, forall_eq]
    unfold reduced_energy_loss_unit
    simp only [Projectile.withT, pow_real, ofInt_real, Int.cast_one, Real.one_rpow]
    intro h
    have k : (6 : ℝ) ^ (0.23 : ℝ) ≤ 6 := by
      calc (6 : ℝ) ^ (0.23 : ℝ) ≤ 6 ^ (1 : ℝ) := Real.rpow_le_rpow_of_exponent_le (by norm_num) (by norm_num)
        _ = 6 := Real.rpow_one _
    have k0 : (0 : ℝ) < (6 : ℝ) ^ (0.23 : ℝ) := by positivity
    generalize (6 : ℝ) ^ (0.23 : ℝ) = r at h k k0
    rw [div_eq_iff (by positivity)] at h
    norm_num at h
    linarith
  · simp only [List.mem_singleton, forall_eq, Int.cast_one, Real.sqrt_one, mul_one]
    intro h
    have := Real.sq_sqrt (show (0 : ℝ) ≤ etaSq 100 by linarith)
    rw [h] at this
    norm_num [fine_structure] at this
    linarith
  · simp only [List.mem_singleton, forall_eq]
    intro d hd
    have hd' : (0 : ℚ) < d.rat := by
      have he : density_effect_x0[(min (1 : Int) 97).toNat - 1]? = some ⟨18639, 4⟩ := rfl
      rw [he, Option.some.injEq] at hd
      rw [← hd]
      norm_num [Dec.rat]
    have : Real.log √(etaSq 100) < 0 := Real.log_neg (Real.sqrt_pos.mpr (by linarith))
      (by rw [Real.sqrt_lt' one_pos]; simpa using hlow)
    have h2 : Real.log √(etaSq 100) / 2.3025851 < 0 := div_neg_of_neg_of_pos this (by norm_num)
    have h3 : (0 : ℝ) < (d.rat : ℝ) := by exact_mod_cast hd'
    linarith
  · simp [Nat.testBit] at h


/-- Uranium ions in hydrogen below 10 MeV/u: the stopping power jumps where the reduced energy is 30 and nowhere else. -/
example (env : Env ℝ) (x : ℝ) (hx : 0 < x) (hx' : x < 10) : NoJump (fun T => dedx env ((⟨238, 92, 92, 0⟩ : Projectile ℝ).withT T)
    (⟨0.0000838, 1, 1, 0, [⟨1, 1, 1⟩]⟩ : Material ℝ) .default) x ↔
      reduced_energy_loss_unit (⟨238, 92, 92, x⟩ : Projectile ℝ) (⟨1, 1, 1⟩ : Target ℝ) ≠ 30 := by
  rw [stopping_jumps env _ 92 _ _ ⟨⟨by norm_num, by norm_num, by norm_num, by norm_num⟩, by norm_num,
    ⟨by simp, by simp, by simp, by simp, by norm_num⟩, by simp, Or.inl rfl⟩ (by simp [TypicalI]) x hx hx' (by simp)]
  simp [Projectile.withT]

end Catima
