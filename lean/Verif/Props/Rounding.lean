import Verif.Lemmas.Binary64
import Verif.Lemmas.Run
import Verif.Lemmas.Basic
import Verif.Lemmas.Kronrod
import Verif.Lemmas.IntegrateTotal
import Verif.Spec.Quadrature
import Verif.Model.Reactions
import Verif.Model.Calculator
import Mathlib.Tactic.Linarith
import Mathlib.Tactic.FieldSimp
import Mathlib.Analysis.Complex.ExponentialBounds

/-!
# C99-C103: rounded arithmetic

The theorems of this file hold in every floating point arithmetic in the sense of `Spec/Rounding.lean`.
-/

namespace Catima

open FloatModel

variable {F : FloatModel}

theorem val_one : (1.0 : F.Fl).val = 1 := by
  rw [val_lit]
  have : (OfScientific.ofScientific 10 true 1 : ℝ) = 1 := by norm_num
  rw [this, rd_one]

theorem val_zero : (0.0 : F.Fl).val = 0 := by
  rw [val_lit]
  have : (OfScientific.ofScientific 0 true 1 : ℝ) = 0 := by norm_num
  rw [this, rd_zero]

/-- Literals are not negative. -/
theorem val_lit_nonneg (m : ℕ) (s : Bool) (e : ℕ) : 0 ≤ (OfScientific.ofScientific m s e : F.Fl).val := by
  rw [val_lit]
  apply rd_nonneg
  cases s
  · rw [OfScientific.ofScientific]
    show (0 : ℝ) ≤ ((OfScientific.ofScientific m false e : NNRat) : ℝ)
    positivity
  · show (0 : ℝ) ≤ ((OfScientific.ofScientific m true e : NNRat) : ℝ)
    positivity

section nonneg
variable {a b : F.Fl}
theorem val_mul_nonneg (ha : 0 ≤ a.val) (hb : 0 ≤ b.val) : 0 ≤ (a * b).val := rd_nonneg (mul_nonneg ha hb)
theorem val_div_nonneg (ha : 0 ≤ a.val) (hb : 0 ≤ b.val) : 0 ≤ (a / b).val := rd_nonneg (div_nonneg ha hb)
theorem val_add_nonneg (ha : 0 ≤ a.val) (hb : 0 ≤ b.val) : 0 ≤ (a + b).val := rd_nonneg (add_nonneg ha hb)
theorem val_exp_nonneg : 0 ≤ (Scalar.exp a).val := rd_nonneg (F.exp_nonneg _)
theorem val_exp_le_one (ha : a.val ≤ 0) : (Scalar.exp a).val ≤ 1 := rd_le_one (F.exp_le_one _ ha)
theorem val_neg_mul (ha : a.val ≤ 0) (hb : 0 ≤ b.val) : (a * b).val ≤ 0 :=
  rd_nonpos (mul_nonpos_of_nonpos_of_nonneg ha hb)
theorem val_neg_div (ha : a.val ≤ 0) (hb : 0 ≤ b.val) : (a / b).val ≤ 0 :=
  rd_nonpos (div_nonpos_of_nonpos_of_nonneg ha hb)
theorem val_one_sub (h0 : 0 ≤ a.val) (h1 : a.val ≤ 1) : 0 ≤ (1.0 - a).val ∧ (1.0 - a).val ≤ 1 := by
  rw [val_sub, val_one]
  exact ⟨rd_nonneg (by linarith), rd_le_one (by linarith)⟩
end nonneg

/-- The relative error of one operation, `2^-53`. -/
noncomputable def ulp : ℝ := 2 ^ (-53 : ℤ)

theorem ulp_pos : 0 < ulp := by unfold ulp; positivity

theorem ulp_small : ulp ≤ 2e-16 := by unfold ulp; norm_num

theorem rd_rel {x : ℝ} (h : 2 ^ (-1022 : ℤ) ≤ |x|) : ∃ δ, |δ| ≤ ulp ∧ F.rd x = x * (1 + δ) := by
  have hx : x ≠ 0 := by
    rintro rfl
    rw [abs_zero] at h
    have : (0 : ℝ) < 2 ^ (-1022 : ℤ) := by positivity
    linarith
  refine ⟨(F.rd x - x) / x, ?_, ?_⟩
  · rw [abs_div, div_le_iff₀ (abs_pos.mpr hx)]
    exact F.rel x h
  · field_simp
    ring

theorem rd_upper {x : ℝ} (h : 2 ^ (-1022 : ℤ) ≤ x) : F.rd x ≤ x * (1 + ulp) ∧ x * (1 - ulp) ≤ F.rd x := by
  have hx : 0 < x := lt_of_lt_of_le (by positivity) h
  obtain ⟨δ, h1, h2⟩ := rd_rel (F := F) (x := x) (by rwa [abs_of_pos hx])
  have := abs_le.mp h1
  rw [h2]
  constructor <;> apply mul_le_mul_of_nonneg_left _ hx.le <;> linarith

theorem val_small (n : ℕ) (h : n ≤ 2 ^ 53) : (ofInt (n : ℤ) : F.Fl).val = n := by
  rw [val_ofInt, F.int]
  · push_cast; rfl
  · rw [abs_of_nonneg (by positivity)]
    exact_mod_cast h

/-! ## C99: velocities, charges and probabilities stay in their ranges -/

/-- C99: the Lorentz factor is at least 1 and does not decrease with the energy. -/
theorem rounded_gamma (T T' : F.Fl) (h0 : 0 ≤ T.val) (h : T.val ≤ T'.val) :
    1 ≤ (gamma_from_T T).val ∧ (gamma_from_T T).val ≤ (gamma_from_T T').val := by
  have hu : 0 ≤ (atomic_mass_unit : F.Fl).val := val_lit_nonneg _ _ _
  unfold gamma_from_T
  simp only [val_add, val_one, val_div]
  constructor
  · apply one_le_rd
    have := rd_nonneg (F := F) (div_nonneg h0 hu)
    linarith
  · apply F.mono
    have := F.mono (div_le_div_of_nonneg_right h hu)
    linarith

/-- C99: the velocity is a number between 0 and 1 (the argument of its square root is not negative) and does not
decrease with the energy. -/
theorem rounded_beta (T T' : F.Fl) (h0 : 0 ≤ T.val) (h : T.val ≤ T'.val) :
    0 ≤ (1.0 - 1.0 / (gamma_from_T T * gamma_from_T T)).val ∧
    0 ≤ (beta_from_T T).val ∧ (beta_from_T T).val ≤ 1 ∧ (beta_from_T T).val ≤ (beta_from_T T').val := by
  obtain ⟨g1, g2⟩ := rounded_gamma T T' h0 h
  obtain ⟨g1', -⟩ := rounded_gamma T' T' (h0.trans h) le_rfl
  have sq : ∀ g : F.Fl, 1 ≤ g.val → 1 ≤ (g * g).val := fun g hg => by
    rw [val_mul]; exact one_le_rd (by nlinarith)
  have inv : ∀ g : F.Fl, 1 ≤ g.val → 0 ≤ (1.0 / g).val ∧ (1.0 / g).val ≤ 1 := fun g hg => by
    rw [val_div, val_one]
    exact ⟨rd_nonneg (by positivity), rd_le_one ((div_le_one (by linarith)).mpr hg)⟩
  obtain ⟨i1, i2⟩ := inv _ (sq _ g1)
  obtain ⟨j1, j2⟩ := val_one_sub i1 i2
  refine ⟨j1, rd_nonneg (Real.sqrt_nonneg _), ?_, ?_⟩
  · unfold beta_from_T
    rw [val_sqrt]
    exact rd_le_one (Real.sqrt_le_one.mpr j2)
  · unfold beta_from_T
    rw [val_sqrt, val_sqrt]
    apply F.mono
    apply Real.sqrt_le_sqrt
    rw [val_sub, val_sub]
    apply F.mono
    have hsq : (gamma_from_T T * gamma_from_T T).val ≤ (gamma_from_T T' * gamma_from_T T').val := by
      rw [val_mul, val_mul]
      apply F.mono
      nlinarith
    have hd : (1.0 / (gamma_from_T T' * gamma_from_T T')).val ≤ (1.0 / (gamma_from_T T * gamma_from_T T)).val := by
      rw [val_div, val_div, val_one]
      apply F.mono
      exact one_div_le_one_div_of_le (by have := sq _ g1; linarith) hsq
    linarith

theorem rounded_pierce_blann (z beta : F.Fl) (hz : 0 ≤ z.val) (hb : 0 ≤ beta.val) :
    0 ≤ (z_eff_Pierce_Blann z beta).val ∧ (z_eff_Pierce_Blann z beta).val ≤ z.val := by
  unfold z_eff_Pierce_Blann
  have hf : 0 ≤ (fine_structure_inverted : F.Fl).val :=
    val_div_nonneg (val_lit_nonneg _ _ _) (val_div_nonneg (val_lit_nonneg _ _ _) (val_lit_nonneg _ _ _))
  have harg : (-0.95 * fine_structure_inverted * beta / Scalar.pow z (2.0 / 3.0)).val ≤ 0 := by
    refine val_neg_div (val_neg_mul (val_neg_mul ?_ hf) hb) (rd_nonneg (F.pow_nonneg _ _ hz))
    rw [val_neg]
    have := val_lit_nonneg (F := F) 95 true 2
    linarith
  obtain ⟨h0, h1⟩ := val_one_sub val_exp_nonneg (val_exp_le_one harg)
  refine ⟨val_mul_nonneg hz h0, ?_⟩
  rw [val_mul]
  exact rd_le z (mul_le_of_le_one_right hz h1)

/-- C99: the default effective charge lies between 0 and the charge of the projectile. -/
theorem rounded_z_effective (debug : Bool) (p : Projectile F.Fl) (t : Target F.Fl) (c : Config F.Fl)
    (hc : c.z_effective = 1) (hZ : 0 < p.Z.val) (hT : 0 ≤ p.T.val) :
    ∃ q, z_effective debug p t c = .ok q ∧ 0 ≤ q.val ∧ q.val ≤ p.Z.val := by
  obtain ⟨-, hb, -, -⟩ := rounded_beta p.T p.T hT le_rfl
  refine ⟨z_eff_Pierce_Blann p.Z (beta_from_T p.T), ?_, rounded_pierce_blann _ _ hZ.le hb⟩
  unfold z_effective
  simp only [hc]
  rfl

/-- C99: the reaction probabilities lie between 0 and 1. -/
theorem rounded_reaction (s t : F.Fl) (hs : 0 ≤ s.val) (ht : 0 ≤ t.val) :
    0 ≤ (nonreaction_rate_sigma s t).val ∧ (nonreaction_rate_sigma s t).val ≤ 1 ∧
    0 ≤ (reaction_rate s t).val ∧ (reaction_rate s t).val ≤ 1 := by
  have harg : (-s * t * 0.0001).val ≤ 0 :=
    val_neg_mul (val_neg_mul (by rw [val_neg]; linarith) ht) (val_lit_nonneg _ _ _)
  have h1 := val_exp_le_one harg
  obtain ⟨a, b⟩ := val_one_sub val_exp_nonneg h1
  exact ⟨val_exp_nonneg, h1, a, b⟩

/-- C99: a product of survival probabilities is one. -/
theorem rounded_survival (s s' : F.Fl) (h0 : 0 ≤ s.val) (h1 : s.val ≤ 1) (h0' : 0 ≤ s'.val) (h1' : s'.val ≤ 1) :
    0 ≤ (s * s').val ∧ (s * s').val ≤ s.val ∧ (s * s').val ≤ s'.val := by
  refine ⟨val_mul_nonneg h0 h0', ?_, ?_⟩
  · rw [val_mul]; exact rd_le s (mul_le_of_le_one_right h0 h1')
  · rw [val_mul]; exact rd_le s' (mul_le_of_le_one_left h0' h1)

/-- Every sum over the components of a material with terms that are not negative is not negative. -/
theorem rounded_componentSum (m : Material F.Fl) (f : Target F.Fl → M F.Fl) (v : F.Fl)
    (hM : 0 ≤ m.molar_mass.val) (hm : ∀ t ∈ m.atoms, 0 ≤ t.stn.val ∧ 0 ≤ t.A.val)
    (hf : ∀ t ∈ m.atoms, ∀ w, f t = .ok w → 0 ≤ w.val) (h : componentSum m f = .ok v) : 0 ≤ v.val := by
  unfold componentSum at h
  have key : ∀ (l : List (Target F.Fl)), (∀ t ∈ l, t ∈ m.atoms) → ∀ s : F.Fl, 0 ≤ s.val →
      l.foldlM (fun sum t => do return sum + m.wfrac t * (← f t)) s = .ok v → 0 ≤ v.val := by
    intro l
    induction l with
    | nil => intro _ s hs h; cases h; exact hs
    | cons t l ih =>
      intro hl s hs h
      rw [List.foldlM_cons, ok_bind] at h
      obtain ⟨s', h1, h2⟩ := h
      rw [ok_bind] at h1
      obtain ⟨w, hw, h1⟩ := h1
      cases h1
      have ht := hl t List.mem_cons_self
      obtain ⟨a1, a2⟩ := hm t ht
      refine ih (fun t' ht' => hl t' (List.mem_cons_of_mem _ ht')) _ ?_ h2
      refine val_add_nonneg hs (val_mul_nonneg ?_ (hf t ht w hw))
      unfold Material.wfrac
      split_ifs
      · exact a1
      · exact val_div_nonneg (val_mul_nonneg a1 a2) hM
  exact key m.atoms (fun _ h => h) _ (by rw [val_zero]) h

/-- C99: nuclear stopping is not negative. -/
theorem rounded_dedx_n (debug : Bool) (p : Projectile F.Fl) (m : Material F.Fl) (v : F.Fl)
    (hA : 0 ≤ p.A.val) (hZ : 0 ≤ p.Z.val) (hT : 0 ≤ p.T.val) (hM : 0 ≤ m.molar_mass.val)
    (hm : ∀ t ∈ m.atoms, 0 ≤ t.stn.val ∧ 0 ≤ t.A.val ∧ 0 ≤ t.Z) (h : dedx_n debug p m = .ok v) : 0 ≤ v.val := by
  refine rounded_componentSum m _ v hM (fun t ht => ⟨(hm t ht).1, (hm t ht).2.1⟩) (fun t ht w hw => ?_) h
  obtain ⟨-, ha, hz⟩ := hm t ht
  have hzt : 0 ≤ (Scalar.ofInt t.Z : F.Fl).val := by
    rw [val_ofInt]; exact rd_nonneg (by exact_mod_cast hz)
  have hzp : 0 ≤ (Scalar.pow p.Z 0.23 + Scalar.pow (ofInt t.Z) 0.23 : F.Fl).val :=
    val_add_nonneg (rd_nonneg (F.pow_nonneg _ _ hZ)) (rd_nonneg (F.pow_nonneg _ _ hzt))
  have has : 0 ≤ (p.A + t.A).val := val_add_nonneg hA ha
  unfold dedx_n_target at hw
  dsimp only at hw
  generalize hze : (Scalar.pow p.Z 0.23 + Scalar.pow (ofInt t.Z) 0.23 : F.Fl) = zp at hw hzp
  generalize hep : 32.53 * t.A * 1000.0 * p.T * p.A / (p.Z * ofInt t.Z * (p.A + t.A) * zp) = ep at hw
  rw [ok_ite] at hw
  rcases hw with ⟨-, hw⟩ | ⟨he, hw⟩
  · cases hw; rw [val_zero]
  rw [le_fl, val_zero, not_le] at he
  rw [ok_bind] at hw
  obtain ⟨-, -, hw⟩ := hw
  rw [ok_bind] at hw
  obtain ⟨-, -, hw⟩ := hw
  cases hw
  have l1 : ∀ m s e, 0 ≤ (OfScientific.ofScientific m s e : F.Fl).val := val_lit_nonneg
  have hp : ∀ y, 0 ≤ (Scalar.pow ep y).val := fun y => rd_nonneg (F.pow_nonneg _ _ he.le)
  refine val_div_nonneg (val_mul_nonneg (val_mul_nonneg (val_mul_nonneg (val_mul_nonneg (val_mul_nonneg
    (val_mul_nonneg (l1 _ _ _) (l1 _ _ _)) hZ) hzt) hA) ?_) (l1 _ _ _)) (val_mul_nonneg (val_mul_nonneg has hzp) ha)
  split_ifs with h30
  · refine val_div_nonneg (rd_nonneg (F.log1p_nonneg _ (val_mul_nonneg (l1 _ _ _) he.le))) ?_
    exact val_mul_nonneg (l1 _ _ _) (val_add_nonneg (val_add_nonneg he.le (val_mul_nonneg (l1 _ _ _) (hp _)))
      (val_mul_nonneg (l1 _ _ _) (hp _)))
  · refine val_div_nonneg (rd_nonneg (F.log_nonneg _ ?_)) (val_mul_nonneg (l1 _ _ _) he.le)
    rw [le_fl, not_le] at h30
    have : (1 : ℝ) ≤ (30.0 : F.Fl).val := by
      rw [val_lit]
      exact one_le_rd (by norm_num)
    linarith

/-- Concrete cases, in every floating point arithmetic: 100 MeV/u and 200 MeV/u. -/
example : 1 ≤ (gamma_from_T (ofInt (100 : ℕ) : F.Fl)).val ∧
    (beta_from_T (ofInt (100 : ℕ) : F.Fl)).val ≤ (beta_from_T (ofInt (200 : ℕ) : F.Fl)).val := by
  have h1 := val_small (F := F) 100 (by norm_num)
  have h2 := val_small (F := F) 200 (by norm_num)
  have h : (ofInt (100 : ℕ) : F.Fl).val ≤ (ofInt (200 : ℕ) : F.Fl).val := by rw [h1, h2]; norm_num
  have h0 : 0 ≤ (ofInt (100 : ℕ) : F.Fl).val := by rw [h1]; norm_num
  exact ⟨(rounded_gamma _ _ h0 h).1, (rounded_beta _ _ h0 h).2.2.2⟩

/-- Carbon of 100 MeV/u with the default configuration. -/
example : ∃ q, z_effective (α := F.Fl) false ⟨ofInt (12 : ℕ), ofInt (6 : ℕ), ofInt (6 : ℕ), ofInt (100 : ℕ)⟩
    ⟨ofInt (1 : ℕ), 1, 1.0⟩ Config.default = .ok q ∧ 0 ≤ q.val ∧ q.val ≤ (ofInt (6 : ℕ) : F.Fl).val :=
  rounded_z_effective _ _ _ _ rfl
    (by show 0 < (ofInt (6 : ℕ) : F.Fl).val; rw [val_small _ (by norm_num)]; norm_num)
    (by show 0 ≤ (ofInt (100 : ℕ) : F.Fl).val; rw [val_small _ (by norm_num)]; norm_num)

/-- Two barn and 1e21 atoms. -/
example : (reaction_rate (2.0 : F.Fl) 1000.0).val ≤ 1 :=
  (rounded_reaction _ _ (val_lit_nonneg _ _ _) (val_lit_nonneg _ _ _)).2.2.2

/-- The same carbon in hydrogen: nuclear stopping is defined and not negative. -/
example : ∃ v, dedx_n (α := F.Fl) false ⟨ofInt (12 : ℕ), ofInt (6 : ℕ), ofInt (6 : ℕ), ofInt (100 : ℕ)⟩
    ⟨1.0, 1.0, 1.0, 0.0, [⟨ofInt (1 : ℕ), 1, 1.0⟩]⟩ = .ok v ∧ 0 ≤ v.val := by
  have hok : ∃ v, dedx_n (α := F.Fl) false ⟨ofInt (12 : ℕ), ofInt (6 : ℕ), ofInt (6 : ℕ), ofInt (100 : ℕ)⟩
      ⟨1.0, 1.0, 1.0, 0.0, [⟨ofInt (1 : ℕ), 1, 1.0⟩]⟩ = .ok v := by
    have ht : ∀ p t, ∃ v, dedx_n_target (α := F.Fl) false p t = .ok v := by
      intro p t
      unfold dedx_n_target
      dsimp only
      split_ifs <;> exact ⟨_, rfl⟩
    unfold dedx_n componentSum
    simp only [List.foldlM_cons, List.foldlM_nil]
    obtain ⟨v, hv⟩ := ht ⟨ofInt (12 : ℕ), ofInt (6 : ℕ), ofInt (6 : ℕ), ofInt (100 : ℕ)⟩ ⟨ofInt (1 : ℕ), 1, 1.0⟩
    rw [hv]
    exact ⟨_, rfl⟩
  obtain ⟨v, hv⟩ := hok
  have e : ∀ n : ℕ, 0 ≤ (ofInt (n : ℤ) : F.Fl).val := fun n => by
    rw [val_ofInt]; exact rd_nonneg (by positivity)
  refine ⟨v, hv, rounded_dedx_n _ _ _ v (e _) (e _) (e _) (val_lit_nonneg _ _ _) ?_ hv⟩
  intro t ht
  rw [List.mem_singleton] at ht
  subst ht
  exact ⟨val_lit_nonneg _ _ _, e _, by norm_num⟩

/-! ## C100: quadrature -/

/-- The weights and abscissas of the tables are not negative, and odd rules begin with abscissa 0. -/
theorem gl_tables_signs : ∀ d ∈ GLData.supported, (∀ w ∈ d.w, 0 ≤ w.m) ∧
    (d.order % 2 = 1 → ∀ x w rest, d.x.zip d.w = (x, w) :: rest → x.m = 0) := by
  have h : ∀ d ∈ GLData.supported, (∀ w ∈ d.w, 0 ≤ w.m) ∧
      (d.order % 2 = 1 → (d.x.zip d.w).head?.map (fun e => e.1.m) = some 0) := by decide +kernel
  intro d hd
  refine ⟨(h d hd).1, fun ho x w rest he => ?_⟩
  have := (h d hd).2 ho
  rw [he] at this
  simpa using this

theorem toScalar_nonneg (d : Dec) (h : 0 ≤ d.m) : 0 ≤ (d.toScalar : F.Fl).val := by
  unfold Dec.toScalar
  rw [if_neg (by omega)]
  exact val_lit_nonneg _ _ _

theorem toScalar_zero (d : Dec) (h : d.m = 0) : (d.toScalar : F.Fl).val = 0 := by
  have hr : (d.toScalar : ℝ) = 0 := by rw [Dec.toScalar_real, h]; simp
  unfold Dec.toScalar at hr ⊢
  rw [if_neg (by omega)] at hr ⊢
  rw [val_lit, hr, rd_zero]

/-- Two numbers with the same value are added in either order. -/
theorem fl_add_comm (a b : F.Fl) : a + b = b + a := val_inj (by rw [val_add, val_add, add_comm])

theorem fl_neg_neg (a : F.Fl) : -(-a) = a := val_inj (by rw [val_neg, val_neg, neg_neg])

theorem fl_neg_mul (a b : F.Fl) : -a * b = -(a * b) :=
  val_inj (by rw [val_mul, val_neg, val_neg, val_mul, neg_mul, F.neg])

/-- C100: exchanging the bounds changes the sign of the integral and nothing else, to the last bit. -/
theorem rounded_antisymm (d : GLData) (hd : d ∈ GLData.supported) (f : F.Fl → M F.Fl) (a b v : F.Fl)
    (h : d.integrate f a b = .ok v) : d.integrate f b a = .ok (-v) := by
  have hp : (0.5 : F.Fl) * (a - b) = -(0.5 * (b - a)) := by
    apply val_inj
    rw [val_mul, val_sub, val_neg, val_mul, val_sub, ← F.neg]
    rw [show a.val - b.val = -(b.val - a.val) by ring, F.neg]
    congr 1; ring
  have hq : (0.5 : F.Fl) * (a + b) = 0.5 * (b + a) := by rw [fl_add_comm]
  have hstep : ∀ (p q r : F.Fl) (xw : F.Fl × F.Fl) v, GLData.step f p q r xw = .ok v →
      GLData.step f (-p) q r xw = .ok v := by
    intro p q r xw v h
    unfold GLData.step at h ⊢
    rw [ok_bind] at h
    obtain ⟨v1, h1, h⟩ := h
    rw [ok_bind] at h
    obtain ⟨v2, h2, h⟩ := h
    cases h
    rw [h2, fl_neg_neg, h1]
    show Except.ok (r + xw.2 * (v2 + v1)) = Except.ok (r + xw.2 * (v1 + v2))
    rw [fl_add_comm v2]
  have hfold : ∀ (p q : F.Fl) (l : List (F.Fl × F.Fl)) (r v : F.Fl), l.foldlM (GLData.step f p q) r = .ok v →
      l.foldlM (GLData.step f (-p) q) r = .ok v := by
    intro p q l
    induction l with
    | nil => intro r v h; exact h
    | cons e l ih =>
      intro r v h
      rw [List.foldlM_cons, ok_bind] at h ⊢
      obtain ⟨r', h1, h2⟩ := h
      exact ⟨r', hstep p q r e r' h1, ih r' v h2⟩
  rw [integrate_start] at h ⊢
  rw [hp, hq]
  generalize (0.5 : F.Fl) * (b - a) = p at h ⊢
  generalize (0.5 : F.Fl) * (b + a) = q at h ⊢
  rw [ok_bind] at h ⊢
  obtain ⟨r0, h0, h⟩ := h
  rw [ok_bind] at h
  obtain ⟨r, h1, h⟩ := h
  cases h
  refine ⟨r0, ?_, ?_⟩
  · unfold glStart at h0 ⊢
    by_cases ho : d.order % 2 = 1
    · rw [if_pos ho] at h0 ⊢
      cases hn : d.nodes (α := F.Fl) with
      | nil => rw [hn] at h0; exact h0
      | cons e l =>
        rw [hn] at h0
        obtain ⟨x0, w0⟩ := e
        have hx : x0.val = 0 := by
          unfold GLData.nodes at hn
          cases hz : d.x.zip d.w with
          | nil => rw [hz] at hn; cases hn
          | cons e l' =>
            rw [hz] at hn
            have h1 := (List.cons.inj hn).1
            have h2 : x0 = e.1.toScalar := (congrArg Prod.fst h1).symm
            rw [h2]
            exact toScalar_zero _ ((gl_tables_signs d hd).2 ho e.1 e.2 l' hz)
        have e : -p * x0 + q = p * x0 + q := by
          apply val_inj
          rw [val_add, val_add, val_mul, val_mul, hx, mul_zero, mul_zero]
        simp only at h0 ⊢
        rw [e]
        exact h0
    · rw [if_neg ho] at h0 ⊢
      exact h0
  · rw [ok_bind]
    refine ⟨r, hfold p q _ r0 r h1, ?_⟩
    rw [fl_neg_mul]

theorem nodes_weight_nonneg (d : GLData) (hd : d ∈ GLData.supported) : ∀ e ∈ d.nodes (α := F.Fl), 0 ≤ e.2.val := by
  intro e he
  unfold GLData.nodes at he
  obtain ⟨s, hs, rfl⟩ := List.mem_map.mp he
  exact toScalar_nonneg _ ((gl_tables_signs d hd).1 _ (List.of_mem_zip hs).2)

/-- C100: a larger integrand has a larger integral. -/
theorem rounded_mono (d : GLData) (hd : d ∈ GLData.supported) (f g : F.Fl → M F.Fl) (a b v w : F.Fl)
    (hab : a.val ≤ b.val) (hfg : ∀ x y z, f x = .ok y → g x = .ok z → y.val ≤ z.val)
    (hf : d.integrate f a b = .ok v) (hg : d.integrate g a b = .ok w) : v.val ≤ w.val := by
  have hwn := nodes_weight_nonneg (F := F) d hd
  have hp : 0 ≤ ((0.5 : F.Fl) * (b - a)).val :=
    val_mul_nonneg (val_lit_nonneg _ _ _) (rd_nonneg (by linarith))
  have madd : ∀ {a b a' b' : F.Fl}, a.val ≤ a'.val → b.val ≤ b'.val → (a + b).val ≤ (a' + b').val := by
    intro a b a' b' h1 h2
    rw [val_add, val_add]
    exact F.mono (add_le_add h1 h2)
  have mmul : ∀ {c a a' : F.Fl}, 0 ≤ c.val → a.val ≤ a'.val → (c * a).val ≤ (c * a').val := by
    intro c a a' h1 h2
    rw [val_mul, val_mul]
    exact F.mono (mul_le_mul_of_nonneg_left h2 h1)
  have hfold : ∀ (p q : F.Fl) (l : List (F.Fl × F.Fl)), (∀ e ∈ l, 0 ≤ e.2.val) → ∀ (r r' v w : F.Fl),
      r.val ≤ r'.val → l.foldlM (GLData.step f p q) r = .ok v → l.foldlM (GLData.step g p q) r' = .ok w →
      v.val ≤ w.val := by
    intro p q l
    induction l with
    | nil => intro _ r r' v w hr h1 h2; cases h1; cases h2; exact hr
    | cons e l ih =>
      intro hl r r' v w hr h1 h2
      rw [List.foldlM_cons, ok_bind] at h1 h2
      obtain ⟨s, h3, h4⟩ := h1
      obtain ⟨s', h5, h6⟩ := h2
      refine ih (fun e he => hl e (List.mem_cons_of_mem _ he)) s s' v w ?_ h4 h6
      unfold GLData.step at h3 h5
      simp only [ok_bind] at h3 h5
      obtain ⟨y1, a1, y2, a2, h3⟩ := h3
      obtain ⟨z1, b1, z2, b2, h5⟩ := h5
      cases h3; cases h5
      exact madd hr (mmul (hl e List.mem_cons_self) (madd (hfg _ _ _ a1 b1) (hfg _ _ _ a2 b2)))
  rw [integrate_start] at hf hg
  simp only [ok_bind] at hf hg
  obtain ⟨r0, h0, r, h1, hf⟩ := hf
  obtain ⟨s0, k0, s, k1, hg⟩ := hg
  cases hf; cases hg
  refine mmul hp (hfold _ _ _ (fun e he => hwn e (List.mem_of_mem_drop he)) r0 s0 r s ?_ h1 k1)
  unfold glStart at h0 k0
  by_cases ho : d.order % 2 = 1
  · rw [if_pos ho] at h0 k0
    cases hn : d.nodes (α := F.Fl) with
    | nil => rw [hn] at h0; cases h0
    | cons e l =>
      rw [hn] at h0 k0
      simp only [ok_bind] at h0 k0
      obtain ⟨y, a1, h0⟩ := h0
      obtain ⟨z, b1, k0⟩ := k0
      cases h0; cases k0
      exact madd le_rfl (mmul (hwn e (by rw [hn]; exact List.mem_cons_self)) (hfg _ _ _ a1 b1))
  · rw [if_neg ho] at h0 k0
    cases h0; cases k0
    exact le_rfl

/-- The integral of a function that is not negative at the points where it is evaluated. -/
theorem rounded_nonneg_on (d : GLData) (hd : d ∈ GLData.supported) (f : F.Fl → M F.Fl) (a b v : F.Fl)
    (hab : a.val ≤ b.val) (P : F.Fl → Prop)
    (hP : ∀ e ∈ d.nodes (α := F.Fl), P (0.5 * (b - a) * e.1 + 0.5 * (b + a)) ∧ P (-(0.5 * (b - a)) * e.1 + 0.5 * (b + a)))
    (hf0 : ∀ x y, P x → f x = .ok y → 0 ≤ y.val) (hf : d.integrate f a b = .ok v) :
    0 ≤ v.val := by
  have hwn := nodes_weight_nonneg (F := F) d hd
  have hfold : ∀ (p q : F.Fl) (l : List (F.Fl × F.Fl)), (∀ e ∈ l, 0 ≤ e.2.val) →
      (∀ e ∈ l, P (p * e.1 + q) ∧ P (-p * e.1 + q)) → ∀ (r v : F.Fl),
      0 ≤ r.val → l.foldlM (GLData.step f p q) r = .ok v → 0 ≤ v.val := by
    intro p q l
    induction l with
    | nil => intro _ _ r v hr h1; cases h1; exact hr
    | cons e l ih =>
      intro hl hl2 r v hr h1
      rw [List.foldlM_cons, ok_bind] at h1
      obtain ⟨s, h3, h4⟩ := h1
      obtain ⟨k1, k2⟩ := hl2 e List.mem_cons_self
      refine ih (fun e he => hl e (List.mem_cons_of_mem _ he)) (fun e he => hl2 e (List.mem_cons_of_mem _ he)) s v ?_ h4
      unfold GLData.step at h3
      simp only [ok_bind] at h3
      obtain ⟨y1, a1, y2, a2, h3⟩ := h3
      cases h3
      exact val_add_nonneg hr (val_mul_nonneg (hl e List.mem_cons_self) (val_add_nonneg (hf0 _ _ k1 a1) (hf0 _ _ k2 a2)))
  rw [integrate_start] at hf
  simp only [ok_bind] at hf
  obtain ⟨r0, h0, r, h1, hf⟩ := hf
  cases hf
  refine val_mul_nonneg (val_mul_nonneg (val_lit_nonneg _ _ _) (rd_nonneg (by linarith)))
    (hfold _ _ _ (fun e he => hwn e (List.mem_of_mem_drop he)) (fun e he => hP e (List.mem_of_mem_drop he)) r0 r ?_ h1)
  unfold glStart at h0
  by_cases ho : d.order % 2 = 1
  · rw [if_pos ho] at h0
    cases hn : d.nodes (α := F.Fl) with
    | nil => rw [hn] at h0; cases h0
    | cons e l =>
      rw [hn] at h0
      simp only [ok_bind] at h0
      obtain ⟨y, a1, h0⟩ := h0
      cases h0
      exact val_add_nonneg (by rw [val_zero]) (val_mul_nonneg (hwn e (by rw [hn]; exact List.mem_cons_self))
        (hf0 _ _ (hP e (by rw [hn]; exact List.mem_cons_self)).1 a1))
  · rw [if_neg ho] at h0
    cases h0
    rw [val_zero]

/-- C100: the integral of a function that is not negative is not negative. -/
theorem rounded_nonneg (d : GLData) (hd : d ∈ GLData.supported) (f : F.Fl → M F.Fl) (a b v : F.Fl)
    (hab : a.val ≤ b.val) (hf0 : ∀ x y, f x = .ok y → 0 ≤ y.val) (hf : d.integrate f a b = .ok v) :
    0 ≤ v.val :=
  rounded_nonneg_on d hd f a b v hab (fun _ => True) (fun _ _ => ⟨trivial, trivial⟩) (fun x y _ => hf0 x y) hf

/-- The abscissas of the tables lie between 0 and 0.9999. -/
theorem gl_tables_nodes : ∀ d ∈ GLData.supported, ∀ x ∈ d.x, 0 ≤ x.m ∧ x.m * 10000 ≤ 9999 * 10 ^ x.e := by
  decide +kernel

theorem nodes_bound (d : GLData) (hd : d ∈ GLData.supported) :
    ∀ e ∈ d.nodes (α := F.Fl), 0 ≤ e.1.val ∧ e.1.val ≤ 0.99991 := by
  intro e he
  unfold GLData.nodes at he
  obtain ⟨s, hs, rfl⟩ := List.mem_map.mp he
  obtain ⟨h0, h1⟩ := gl_tables_nodes d hd s.1 (List.of_mem_zip hs).1
  refine ⟨toScalar_nonneg _ h0, ?_⟩
  have hr : (s.1.toScalar : ℝ) ≤ 0.9999 := by
    rw [Dec.toScalar_real, div_le_iff₀ (by positivity)]
    have : ((s.1.m * 10000 : ℤ) : ℝ) ≤ ((9999 * 10 ^ s.1.e : ℤ) : ℝ) := by exact_mod_cast h1
    push_cast at this
    linarith
  have he : (s.1.toScalar : F.Fl).val = F.rd (s.1.toScalar : ℝ) := by
    unfold Dec.toScalar
    rw [if_neg (by omega), if_neg (by omega), val_lit]
  show (s.1.toScalar : F.Fl).val ≤ _
  rw [he]
  have h2 := F.mono hr
  have h3 := (rd_upper (F := F) (x := 0.9999) (le_trans (zpow_le_zpow_right₀ (by norm_num)
    (by norm_num : (-1022 : ℤ) ≤ -1)) (by norm_num))).1
  have := ulp_small
  nlinarith

/-- The points at which an integral from `a` to `b` evaluates its integrand are positive if the bounds are. -/
theorem rounded_points_pos (d : GLData) (hd : d ∈ GLData.supported) (a b : F.Fl) (ha : 0 < a.val)
    (hab : a.val ≤ b.val) (hb : 2 ^ (-1000 : ℤ) ≤ b.val) : ∀ e ∈ d.nodes (α := F.Fl),
      0 < (0.5 * (b - a) * e.1 + 0.5 * (b + a)).val ∧ 0 < (-(0.5 * (b - a)) * e.1 + 0.5 * (b + a)).val := by
  intro e he
  obtain ⟨e0, e1⟩ := nodes_bound d hd e he
  have hu := ulp_small
  have hu0 := ulp_pos
  have hb0 : 0 < b.val := by linarith
  have hhalf : (0.5 : F.Fl).val ≤ 0.5 * (1 + ulp) ∧ 0.5 * (1 - ulp) ≤ (0.5 : F.Fl).val := by
    rw [val_lit]
    have := rd_upper (F := F) (x := 0.5) (le_trans (zpow_le_zpow_right₀ (by norm_num)
      (by norm_num : (-1022 : ℤ) ≤ -1)) (by norm_num))
    exact ⟨this.1, this.2⟩
  have hnorm : ∀ c : ℝ, 1 / 4 ≤ c → (2 : ℝ) ^ (-1022 : ℤ) ≤ c * b.val := by
    intro c hc
    have h1 : (2 : ℝ) ^ (-1022 : ℤ) = 1 / 4 * 2 ^ (-1020 : ℤ) := by
      rw [show (1 / 4 : ℝ) = 2 ^ (-2 : ℤ) by norm_num, ← zpow_add₀ (by norm_num)]; norm_num
    have h2 : (2 : ℝ) ^ (-1020 : ℤ) ≤ 2 ^ (-1000 : ℤ) := zpow_le_zpow_right₀ (by norm_num) (by norm_num)
    rw [h1]
    exact mul_le_mul hc (h2.trans hb) (by positivity) (by linarith)
  -- half of the sum
  have hq : b.val * (0.5 * (1 - ulp) * (1 - ulp)) ≤ ((0.5 : F.Fl) * (b + a)).val := by
    rw [val_mul, val_add]
    have h1 : b.val ≤ F.rd (b.val + a.val) := le_rd b (by linarith)
    have h2 : 0.5 * (1 - ulp) * b.val ≤ (0.5 : F.Fl).val * F.rd (b.val + a.val) :=
      mul_le_mul hhalf.2 h1 hb0.le (le_trans (by linarith) hhalf.2)
    have h3 := F.mono h2
    have h4 := (rd_upper (F := F) (hnorm (0.5 * (1 - ulp)) (by linarith))).2
    linarith
  -- half of the difference
  have hp0 : 0 ≤ ((0.5 : F.Fl) * (b - a)).val :=
    val_mul_nonneg (val_lit_nonneg _ _ _) (rd_nonneg (by linarith))
  have hp : ((0.5 : F.Fl) * (b - a)).val ≤ b.val * (0.5 * (1 + ulp) * (1 + ulp)) := by
    rw [val_mul, val_sub]
    have h1 : F.rd (b.val - a.val) ≤ b.val := rd_le b (by linarith)
    have h2 : (0.5 : F.Fl).val * F.rd (b.val - a.val) ≤ 0.5 * (1 + ulp) * b.val :=
      mul_le_mul hhalf.1 h1 (rd_nonneg (by linarith)) (by linarith)
    have h3 := F.mono h2
    have h4 := (rd_upper (F := F) (hnorm (0.5 * (1 + ulp)) (by linarith))).1
    linarith
  have hpx : ((0.5 : F.Fl) * (b - a) * e.1).val ≤ b.val * 0.49998 := by
    rw [val_mul]
    have h1 : ((0.5 : F.Fl) * (b - a)).val * e.1.val ≤ b.val * (0.5 * (1 + ulp) * (1 + ulp)) * 0.99991 :=
      mul_le_mul hp e1 e0 (mul_nonneg hb0.le (by nlinarith))
    have h2 : (0.5 * (1 + ulp) * (1 + ulp)) * 0.99991 ≤ 0.49996 := by nlinarith
    have h3 : ((0.5 : F.Fl) * (b - a)).val * e.1.val ≤ 0.49996 * b.val := by nlinarith
    have h4 := F.mono h3
    have h5 := (rd_upper (F := F) (hnorm 0.49996 (by norm_num))).1
    nlinarith
  have hq2 : b.val * 0.49999 ≤ ((0.5 : F.Fl) * (b + a)).val := by
    have : (0.49999 : ℝ) ≤ 0.5 * (1 - ulp) * (1 - ulp) := by nlinarith
    nlinarith
  have hpx0 : 0 ≤ ((0.5 : F.Fl) * (b - a) * e.1).val := val_mul_nonneg hp0 e0
  have pos : ∀ x : ℝ, b.val * 0.00001 ≤ x → 0 < F.rd x := by
    intro x hx
    have h1 : (2 : ℝ) ^ (-1022 : ℤ) ≤ b.val * 0.00001 := by
      have h2 : (2 : ℝ) ^ (-1022 : ℤ) ≤ 2 ^ (-1000 : ℤ) * 2 ^ (-20 : ℤ) := by
        rw [← zpow_add₀ (by norm_num)]
        exact zpow_le_zpow_right₀ (by norm_num) (by norm_num)
      refine h2.trans (mul_le_mul hb (by norm_num) (by positivity) hb0.le)
    have h3 := (rd_upper (F := F) (h1.trans hx)).2
    have h4 : 0 < x * (1 - ulp) := mul_pos (by nlinarith) (by linarith)
    linarith
  constructor
  · rw [val_add]
    apply pos
    nlinarith
  · rw [val_add, fl_neg_mul, val_neg]
    apply pos
    linarith

/-- C100: the reaction probability for an energy-dependent cross section lies between 0 and 1. -/
theorem rounded_reaction_rate_f (f : F.Fl → M F.Fl) (t v : F.Fl) (ht : 0 ≤ t.val)
    (hf : ∀ x y, f x = .ok y → 0 ≤ y.val) (h : reaction_rate_f f t = .ok v) : 0 ≤ v.val ∧ v.val ≤ 1 := by
  unfold reaction_rate_f at h
  rw [ok_bind] at h
  obtain ⟨i, hi, h⟩ := h
  cases h
  have hi0 := rounded_nonneg GL_data8 (by simp [GLData.supported]) f 0.0 t i (by rw [val_zero]; exact ht) hf hi
  exact val_one_sub val_exp_nonneg (val_exp_le_one (val_neg_mul (by rw [val_neg]; linarith) (val_lit_nonneg _ _ _)))

/-- Concrete cases: the identity and the square from 0 to 1. -/
example : ∃ v, GL_data8.integrate (fun x : F.Fl => .ok x) 0.0 1.0 = .ok v ∧
    GL_data8.integrate (fun x : F.Fl => .ok x) 1.0 0.0 = .ok (-v) := by
  obtain ⟨v, hv⟩ := integrate_total GL_data8 (by simp [GLData.supported]) (fun x : F.Fl => x) 0.0 1.0
  exact ⟨v, hv, rounded_antisymm _ (by simp [GLData.supported]) _ _ _ _ hv⟩

example : ∃ v w, GL_data8.integrate (fun x : F.Fl => .ok (x * x)) 0.0 1.0 = .ok v ∧
    GL_data8.integrate (fun x : F.Fl => .ok (x * x + 1.0)) 0.0 1.0 = .ok w ∧ 0 ≤ v.val ∧ v.val ≤ w.val := by
  obtain ⟨v, hv⟩ := integrate_total GL_data8 (by simp [GLData.supported]) (fun x : F.Fl => x * x) 0.0 1.0
  obtain ⟨w, hw⟩ := integrate_total GL_data8 (by simp [GLData.supported]) (fun x : F.Fl => x * x + 1.0) 0.0 1.0
  have h01 : (0.0 : F.Fl).val ≤ (1.0 : F.Fl).val := by rw [val_zero, val_one]; norm_num
  have hsq : ∀ x : F.Fl, 0 ≤ (x * x).val := fun x => by rw [val_mul]; exact rd_nonneg (mul_self_nonneg _)
  refine ⟨v, w, hv, hw, rounded_nonneg _ (by simp [GLData.supported]) _ _ _ _ h01 ?_ hv,
    rounded_mono _ (by simp [GLData.supported]) _ _ _ _ _ _ h01 ?_ hv hw⟩
  · intro x y h
    cases h
    exact hsq x
  · intro x y z h1 h2
    cases h1; cases h2
    exact le_rd (x * x) (by rw [val_one]; linarith)

/-- A cross section of one barn at every depth. -/
example : ∃ v, reaction_rate_f (fun _ : F.Fl => .ok 1.0) 1000.0 = .ok v ∧ 0 ≤ v.val ∧ v.val ≤ 1 := by
  obtain ⟨i, hi⟩ := integrate_total GL_data8 (by simp [GLData.supported]) (fun _ : F.Fl => (1.0 : F.Fl)) 0.0 1000.0
  have h : ∃ v, reaction_rate_f (fun _ : F.Fl => .ok 1.0) 1000.0 = .ok v := by
    unfold reaction_rate_f
    rw [hi]
    exact ⟨_, rfl⟩
  obtain ⟨v, hv⟩ := h
  exact ⟨v, hv, rounded_reaction_rate_f _ _ _ (val_lit_nonneg _ _ _)
    (fun x y h => by cases h; rw [val_one]; norm_num) hv⟩

/-! ## C101: the tables -/

/-- Adding up increments that are not negative gives an ascending table. -/
theorem rounded_cumulative (n : ℕ) (A : F.Fl) (hA : 0 ≤ A.val) (tab : EnergyTable F.Fl) (f : F.Fl → M F.Fl)
    (htab : ∀ k < n, (tab.val k).val ≤ (tab.val (k + 1)).val) (h0 : 2 ^ (-1000 : ℤ) ≤ (tab.val 0).val)
    (hf : ∀ x y, 0 < x.val → f x = .ok y → 0 ≤ y.val)
    (l : List F.Fl) (h : cumulative n A tab f = .ok l) :
    l.length = n + 1 ∧ l.head? = some 0.0 ∧ l.Pairwise (fun a b => a.val ≤ b.val) := by
  unfold cumulative at h
  have hpos : ∀ k ≤ n, 2 ^ (-1000 : ℤ) ≤ (tab.val k).val := by
    intro k
    induction k with
    | zero => intro _; exact h0
    | succ k ih => intro hk; exact (ih (by omega)).trans (htab k (by omega))
  have key : ∀ m ≤ n, ∀ l, (List.range m).foldlM (fun acc k => do
      let r ← integrator.integrate f (tab.val k) (tab.val (k + 1))
      return acc ++ [A * r + acc.getLastD 0.0]) [0.0] = Except.ok (ε := Fault) l →
      l.length = m + 1 ∧ l.head? = some 0.0 ∧ l.Pairwise (fun a b => a.val ≤ b.val) := by
    intro m
    induction m with
    | zero =>
      intro _ l h
      cases h
      exact ⟨rfl, rfl, List.pairwise_singleton _ _⟩
    | succ m ih =>
      intro hm l h
      rw [List.range_succ, List.foldlM_append, ok_bind] at h
      obtain ⟨l', h1, h2⟩ := h
      obtain ⟨i1, i2, i3⟩ := ih (by omega) l' h1
      rw [List.foldlM_cons, ok_bind] at h2
      obtain ⟨l'', h2, h3⟩ := h2
      cases h3
      rw [ok_bind] at h2
      obtain ⟨r, hr, h2⟩ := h2
      cases h2
      have hne : l' ≠ [] := by rintro rfl; simp at i1
      have hr0 : 0 ≤ r.val := rounded_nonneg_on integrator (by simp [integrator, GLData.supported]) f _ _ r
        (htab m (by omega)) (fun x => 0 < x.val) (rounded_points_pos integrator (by simp [integrator, GLData.supported]) _ _
          (lt_of_lt_of_le (by positivity) (hpos m (by omega))) (htab m (by omega)) (hpos (m + 1) hm)) hf hr
      refine ⟨by simp [i1], ?_, ?_⟩
      · rw [List.head?_append, i2]; rfl
      · rw [List.pairwise_append]
        refine ⟨i3, List.pairwise_singleton _ _, fun x hx y hy => ?_⟩
        rw [List.mem_singleton] at hy
        subst hy
        have hlast : x.val ≤ (l'.getLastD 0.0).val := by
          rw [List.getLastD_eq_getLast?, List.getLast?_eq_getLast_of_ne_nil hne, Option.getD_some]
          exact i3.rel_getLast hx
        refine hlast.trans (le_rd (l'.getLastD 0.0) ?_)
        have : 0 ≤ (A * r).val := val_mul_nonneg hA hr0
        linarith
  exact key n le_rfl l h

/-- C101: the energies of a grid ascend if the exponential function of the library does not decrease. -/
theorem rounded_table_ascends (hexp : Monotone F.exp) (t : EnergyTable F.Fl) (hN : 2 ≤ t.N) (hN' : t.N ≤ 2 ^ 32)
    (ht : t.logmin.val ≤ t.logmax.val) (i j : ℕ) (hij : i ≤ j) : (t.val i).val ≤ (t.val j).val := by
  have hs : 0 ≤ t.step.val := by
    unfold EnergyTable.step
    refine val_div_nonneg (rd_nonneg (by linarith)) ?_
    rw [val_sub, val_one, val_ofInt, F.int]
    · apply rd_nonneg
      have : (2 : ℝ) ≤ ((t.N : ℤ) : ℝ) := by exact_mod_cast hN
      linarith
    · rw [abs_of_nonneg (by positivity)]
      exact_mod_cast hN'.trans (by norm_num)
  unfold EnergyTable.val
  rw [val_exp, val_exp]
  apply F.mono
  apply hexp
  rw [val_mul, val_mul]
  apply F.mono
  apply mul_le_mul_of_nonneg_left _ (val_lit_nonneg _ _ _)
  rw [val_add, val_add]
  apply F.mono
  have : (ofInt (i : ℤ) * t.step).val ≤ (ofInt (j : ℤ) * t.step).val := by
    rw [val_mul, val_mul, val_ofInt, val_ofInt]
    exact F.mono (mul_le_mul_of_nonneg_right (F.mono (by exact_mod_cast hij)) hs)
  linarith

/-- C101, partial: if the stopping power is positive at positive energies, the range table is a
list of 600 ascending numbers that begins with 0.  (Missing: that the stopping power is positive in rounded
arithmetic.) -/
theorem rounded_range_table_partial (env : Env F.Fl) (p : Projectile F.Fl) (t : Material F.Fl) (c : Config F.Fl)
    (hexp : Monotone F.exp) (hA : 0 ≤ p.A.val) (h0 : 2 ^ (-1000 : ℤ) ≤ ((energy_table : EnergyTable F.Fl).val 0).val)
    (hS : ∀ T v, 0 < T.val → dedx env (p.withT T) t c = .ok v → 0 < v.val) (d : DataPoint F.Fl)
    (h : calculate_DataPoint env p t c = .ok d) :
    d.range.length = 600 ∧ d.range.head? = some 0.0 ∧ d.range.Pairwise (fun a b => a.val ≤ b.val) := by
  unfold calculate_DataPoint at h
  simp only [ok_bind] at h
  obtain ⟨r, hr, a, -, s, -, h⟩ := h
  cases h
  have hlim : (logEmin : F.Fl).val ≤ (logEmax : F.Fl).val := by
    unfold logEmin logEmax
    rw [val_neg]
    have h1 := val_lit_nonneg (F := F) 30 true 1
    have h2 := val_lit_nonneg (F := F) 70 true 1
    exact le_trans (neg_nonpos.mpr h1) h2
  have hc := rounded_cumulative (max_datapoints - 1) p.A hA energy_table (fdedx env p t c)
    (fun k _ => rounded_table_ascends hexp energy_table
      (show 2 ≤ max_datapoints by decide) (show max_datapoints ≤ 2 ^ 32 by decide) hlim k (k + 1) (by omega)) h0
    (fun x y hx hy => ?_) r hr
  · exact hc
  unfold fdedx at hy
  rw [ok_bind] at hy
  obtain ⟨v, hv, hy⟩ := hy
  cases hy
  exact val_div_nonneg (by rw [val_one]; norm_num) (hS x v hx hv).le

/-- C101: at a grid point the interpolant returns the tabulated number to the last bit, whatever its coefficients are. -/
theorem rounded_knots (s : Spline F.Fl) (i : ℕ) (v y : F.Fl)
    (hlow : (s.grid.val 0).val ≤ (s.grid.val i).val) (hhigh : (s.grid.val i).val ≤ (s.grid.val (s.grid.n - 1)).val)
    (hidx : s.grid.index (s.grid.val i) = .ok (i : ℤ)) (hy : s.y[i]? = some y)
    (h : s.evaluate (s.grid.val i) = .ok v) : v = y := by
  unfold Spline.evaluate at h
  rw [hidx] at h
  have hmax : max (i : ℤ) 0 = i := by omega
  simp only [bind_ok, hmax, Int.toNat_natCast] at h
  rw [if_neg (by rw [lt_fl]; linarith), if_neg (by rw [lt_fl]; linarith)] at h
  simp only [ok_bind] at h
  obtain ⟨a, -, b, -, c, -, y', h1, h⟩ := h
  cases h
  have hyy : y' = y := by
    unfold Catima.rd at h1
    rw [if_neg (by omega), Int.toNat_natCast, hy] at h1
    cases h1; rfl
  subst hyy
  apply val_inj
  have hh : (s.grid.val i - s.grid.val i).val = 0 := by rw [val_sub, sub_self, rd_zero]
  rw [val_add, val_mul, hh, mul_zero, rd_zero, zero_add, rd_val]

/-- A table of 600 numbers is defined in every arithmetic and ascends: the increments belong to the integrand 1. -/
example (hexp : Monotone F.exp) (h0 : 2 ^ (-1000 : ℤ) ≤ ((energy_table : EnergyTable F.Fl).val 0).val) :
    ∃ l, cumulative 599 (ofInt (12 : ℕ) : F.Fl) energy_table (fun _ => .ok 1.0) = .ok l ∧
      l.Pairwise (fun a b => a.val ≤ b.val) := by
  have hok : ∀ m, ∃ l, cumulative m (ofInt (12 : ℕ) : F.Fl) energy_table (fun _ => .ok 1.0) = .ok l := by
    intro m
    unfold cumulative
    induction m with
    | zero => exact ⟨_, rfl⟩
    | succ m ih =>
      obtain ⟨l, hl⟩ := ih
      obtain ⟨v, hv⟩ := integrate_total integrator (by simp [integrator, GLData.supported]) (fun _ : F.Fl => (1.0 : F.Fl))
        ((energy_table : EnergyTable F.Fl).val m) ((energy_table : EnergyTable F.Fl).val (m + 1))
      rw [List.range_succ, List.foldlM_append, hl]
      simp only [bind_ok, List.foldlM_cons, List.foldlM_nil]
      rw [hv]
      exact ⟨_, rfl⟩
  obtain ⟨l, hl⟩ := hok 599
  have hlim : (logEmin : F.Fl).val ≤ (logEmax : F.Fl).val := by
    unfold logEmin logEmax
    rw [val_neg]
    exact le_trans (neg_nonpos.mpr (val_lit_nonneg (F := F) 30 true 1)) (val_lit_nonneg (F := F) 70 true 1)
  refine ⟨l, hl, (rounded_cumulative 599 _ ?_ energy_table _ ?_ h0 ?_ l hl).2.2⟩
  · rw [val_small _ (by norm_num)]; norm_num
  · exact fun k _ => rounded_table_ascends hexp energy_table (show 2 ≤ max_datapoints by decide)
      (show max_datapoints ≤ 2 ^ 32 by decide) hlim k (k + 1) (by omega)
  · intro x y _ h
    cases h
    rw [val_one]; norm_num

/-- Rounding to the nearest binary64 number with the exact exponential function meets the hypotheses on the grid. -/
example : ∃ F : FloatModel, (∀ x, F.rd x ∈ binary64) ∧ Monotone F.exp ∧
    2 ^ (-1000 : ℤ) ≤ ((energy_table : EnergyTable F.Fl).val 0).val := by
  obtain ⟨F, h1, -, h3⟩ := floatModel_exists
  refine ⟨F, h1, by rw [h3]; exact Real.exp_monotone, ?_⟩
  unfold EnergyTable.val
  rw [val_exp, h3]
  have hu := ulp_small
  have big : ∀ x : ℝ, 1 / 2 ≤ x → (2 : ℝ) ^ (-1022 : ℤ) ≤ x := fun x hx =>
    le_trans (zpow_le_zpow_right₀ (by norm_num) (by norm_num : (-1022 : ℤ) ≤ -1)) (by norm_num; linarith)
  have h30 : (3.0 : F.Fl).val = 3 := by
    rw [val_lit, show (OfScientific.ofScientific 30 true 1 : ℝ) = ((3 : ℤ) : ℝ) by norm_num, F.int 3 (by norm_num)]
    norm_num
  have hz : ((energy_table : EnergyTable F.Fl).logmin + ofInt ((0 : ℕ) : ℤ) * (energy_table : EnergyTable F.Fl).step).val = -3 := by
    rw [val_add, val_mul, val_small 0 (by norm_num)]
    push_cast
    rw [zero_mul, rd_zero, add_zero, rd_val]
    show (-(3.0 : F.Fl)).val = -3
    rw [val_neg, h30]
  have hln : (LN10 : F.Fl).val ≤ 3 := by
    unfold LN10
    rw [val_lit]
    have := F.mono (show (2.30258509299404568401799145468 : ℝ) ≤ ((3 : ℤ) : ℝ) by norm_num)
    rw [F.int 3 (by norm_num)] at this
    exact_mod_cast this
  have harg : (-9 : ℝ) ≤ (LN10 * ((energy_table : EnergyTable F.Fl).logmin + ofInt ((0 : ℕ) : ℤ) *
      (energy_table : EnergyTable F.Fl).step)).val := by
    rw [val_mul, hz]
    have := F.mono (show (((-9 : ℤ)) : ℝ) ≤ (LN10 : F.Fl).val * -3 by push_cast; linarith)
    rw [F.int (-9) (by norm_num)] at this
    exact_mod_cast this
  have he : (2 : ℝ) ^ (-18 : ℤ) ≤ Real.exp (-9) := by
    have h1 : Real.exp (-9) = (Real.exp (-1)) ^ 9 := by rw [← Real.exp_nat_mul]; norm_num
    have h2 : (1 / 4 : ℝ) ≤ Real.exp (-1) := by
      rw [Real.exp_neg]
      have := Real.exp_one_lt_d9
      rw [one_div]
      exact inv_anti₀ (Real.exp_pos 1) (by linarith)
    rw [h1]
    calc (2 : ℝ) ^ (-18 : ℤ) = (1 / 4) ^ 9 := by norm_num
      _ ≤ _ := pow_le_pow_left₀ (by norm_num) h2 9
  have hx : (2 : ℝ) ^ (-1000 : ℤ) * 2 ≤ Real.exp (-9) :=
    le_trans (by
      rw [show (2 : ℝ) ^ (-1000 : ℤ) * 2 = 2 ^ (-999 : ℤ) by
        rw [show (-999 : ℤ) = -1000 + 1 by norm_num, zpow_add₀ (by norm_num), zpow_one]]
      exact zpow_le_zpow_right₀ (by norm_num) (by norm_num)) he
  have h5 := F.mono (Real.exp_le_exp.mpr harg)
  have h6 := (rd_upper (F := F) (x := Real.exp (-9)) (le_trans
    (zpow_le_zpow_right₀ (by norm_num) (by norm_num)) he)).2
  have h7 : (0 : ℝ) < 2 ^ (-1000 : ℤ) := by positivity
  nlinarith

/-- A spline with two knots. -/
example (s : Spline F.Fl) (hs : s = ⟨⟨2, fun i => ofInt (i : ℤ), fun _ => .ok 0⟩, [1.0, 2.0], [0.5, 0.5], [0.1, 0.1],
    [0.3, 0.3], 0.0, 0.0⟩) : s.evaluate (s.grid.val 0) = .ok 1.0 := by
  subst hs
  have h : ∃ v, Spline.evaluate (α := F.Fl) ⟨⟨2, fun i => ofInt (i : ℤ), fun _ => .ok 0⟩, [1.0, 2.0], [0.5, 0.5],
      [0.1, 0.1], [0.3, 0.3], 0.0, 0.0⟩ (ofInt ((0 : ℕ) : ℤ)) = .ok v := by
    unfold Spline.evaluate
    simp only [bind_ok]
    split_ifs <;> exact ⟨_, rfl⟩
  obtain ⟨v, hv⟩ := h
  rw [hv]
  congr 1
  refine rounded_knots _ 0 v 1.0 le_rfl ?_ rfl rfl hv
  show (ofInt ((0 : ℕ) : ℤ) : F.Fl).val ≤ (ofInt ((1 : ℕ) : ℤ) : F.Fl).val
  rw [val_small _ (by norm_num), val_small _ (by norm_num)]
  norm_num

end Catima
