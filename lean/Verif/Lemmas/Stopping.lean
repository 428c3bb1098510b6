import Verif.Lemmas.Srim
import Verif.Lemmas.Grid
import Verif.Lemmas.Structures
import Verif.Model.Storage
import Mathlib.Algebra.BigOperators.Group.List.Basic

/-!
# Helper lemmas: sums over components, nuclear and Bethe stopping, table lookups
-/

namespace Catima

/-! ## Sums over components -/

/-- A weighted sum accumulated in a loop is the weighted sum of the values. -/
theorem foldlM_wsum {β : Type} (l : List β) (w : β → ℝ) (f : β → M ℝ) (a : ℝ) :
    l.foldlM (fun sum t => do return sum + w t * (← f t)) a =
      (l.mapM f).map fun vs => a + (List.zipWith (· * ·) (l.map w) vs).sum := by
  induction l generalizing a with
  | nil => simp [pure, Except.pure, Except.map]
  | cons t l ih =>
    rw [List.foldlM_cons, List.mapM_cons]
    cases hf : f t with
    | error e => simp [bind, Except.bind, Except.map]
    | ok v =>
      simp only [bind_ok, pure_bind, ih]
      cases l.mapM f with
      | error e => simp [bind, Except.bind, Except.map]
      | ok vs =>
        simp only [Except.map, bind_ok, pure, Except.pure, List.map_cons, List.zipWith_cons_cons,
          List.sum_cons]
        rw [add_assoc]

theorem componentSum_eq (m : Material ℝ) (f : Target ℝ → M ℝ) :
    componentSum m f = (m.atoms.mapM f).map fun vs =>
      (List.zipWith (· * ·) (m.atoms.map m.wfrac) vs).sum := by
  unfold componentSum
  rw [foldlM_wsum]
  congr 1
  funext vs
  norm_num

theorem mapM_ok' {β : Type} (l : List β) (f : β → M ℝ) (g : β → ℝ)
    (h : ∀ t ∈ l, f t = .ok (g t)) : l.mapM f = .ok (l.map g) := by
  induction l with
  | nil => rfl
  | cons t l ih =>
    rw [List.mapM_cons, h t (by simp), ih fun t ht => h t (by simp [ht])]
    rfl

theorem mapM_congr' {β : Type} (l : List β) (f g : β → M ℝ) (h : ∀ t ∈ l, f t = g t) :
    l.mapM f = l.mapM g := by
  induction l with
  | nil => rfl
  | cons t l ih =>
    rw [List.mapM_cons, List.mapM_cons, h t (by simp), ih fun t ht => h t (by simp [ht])]

theorem mapM_inv {β : Type} (l : List β) (f : β → M ℝ) (vs : List ℝ) (h : l.mapM f = .ok vs) :
    ∃ g : β → ℝ, (∀ t ∈ l, f t = .ok (g t)) ∧ vs = l.map g := by
  classical
  refine ⟨fun t => match f t with | .ok v => v | .error _ => 0, ?_⟩
  induction l generalizing vs with
  | nil =>
    rw [List.mapM_nil] at h
    exact ⟨by simp, by cases h; rfl⟩
  | cons t l ih =>
    rw [List.mapM_cons] at h
    cases hf : f t with
    | error e => rw [hf] at h; cases h
    | ok v =>
      cases hl : l.mapM f with
      | error e => rw [hf, hl] at h; cases h
      | ok us =>
        obtain ⟨h1, h2⟩ := ih us hl
        rw [hf, hl] at h
        cases h
        refine ⟨?_, by simp only [List.map_cons, hf]; rw [← h2]⟩
        intro u hu
        rcases List.mem_cons.mp hu with rfl | hu
        · simp only [hf]
        · exact h1 u hu

theorem zipWith_map_sum {β : Type} (l : List β) (w g : β → ℝ) :
    (List.zipWith (· * ·) (l.map w) (l.map g)).sum = (l.map fun t => w t * g t).sum := by
  induction l with
  | nil => rfl
  | cons t l ih => simp

theorem componentSum_ok (m : Material ℝ) (f : Target ℝ → M ℝ) (g : Target ℝ → ℝ)
    (h : ∀ t ∈ m.atoms, f t = .ok (g t)) :
    componentSum m f = .ok ((m.atoms.map fun t => m.wfrac t * g t).sum) := by
  rw [componentSum_eq, mapM_ok' _ _ _ h, ← zipWith_map_sum]
  rfl

/-- Values that exist pointwise can be collected into a function. -/
theorem exists_values {β : Type} (l : List β) (f : β → M ℝ) (P : ℝ → Prop)
    (h : ∀ t ∈ l, ∃ v, f t = .ok v ∧ P v) : ∃ g : β → ℝ, ∀ t ∈ l, f t = .ok (g t) ∧ P (g t) := by
  classical
  refine ⟨fun t => if ht : t ∈ l then (h t ht).choose else 0, fun t ht => ?_⟩
  simp only [ht, dif_pos]
  exact (h t ht).choose_spec

namespace Material

theorem wfrac_pos {m : Material ℝ} (hm : m.Sound) (t : Target ℝ) (ht : t ∈ m.atoms) :
    0 < m.wfrac t := by
  unfold wfrac
  have := hm.A t ht
  have := hm.stn t ht
  have := hm.molar
  split <;> positivity

theorem only_atoms (m : Material ℝ) (t : Target ℝ) :
    (m.only t).atoms = [{ t with stn := 1 }] := rfl

theorem only_wfrac (m : Material ℝ) (t : Target ℝ) (h : t.A ≠ 0) :
    (m.only t).wfrac { t with stn := 1 } = 1 := by
  unfold wfrac only
  rw [if_neg (by rw [lt_real]; norm_num)]
  simp [h]

end Material

theorem sum_nonneg_map {β : Type} (l : List β) (f : β → ℝ) (h : ∀ x ∈ l, 0 ≤ f x) :
    0 ≤ (l.map f).sum := by
  apply List.sum_nonneg
  intro x hx
  obtain ⟨t, ht, rfl⟩ := List.mem_map.mp hx
  exact h t ht

/-! ## Nuclear stopping -/

theorem nuclear_eps_pos (p : Projectile ℝ) (t : Target ℝ) (hZ : 0 < p.Z) (hA : 0 < p.A)
    (tZ : 1 ≤ t.Z) (tA : 0 < t.A) (hT : 0 < p.T) : 0 < reduced_energy_loss_unit p t := by
  have htz : (0 : ℝ) < t.Z := by exact_mod_cast (by omega : 0 < t.Z)
  unfold reduced_energy_loss_unit
  simp only [pow_real, ofInt_real]
  have h1 := Real.rpow_pos_of_pos hZ 0.23
  have h2 := Real.rpow_pos_of_pos htz 0.23
  positivity

theorem nuclear_eps_nonpos (p : Projectile ℝ) (t : Target ℝ) (hZ : 0 < p.Z) (hA : 0 < p.A)
    (tZ : 1 ≤ t.Z) (tA : 0 < t.A) (hT : p.T ≤ 0) : reduced_energy_loss_unit p t ≤ 0 := by
  have htz : (0 : ℝ) < t.Z := by exact_mod_cast (by omega : 0 < t.Z)
  unfold reduced_energy_loss_unit
  simp only [pow_real, ofInt_real]
  have h1 := Real.rpow_pos_of_pos hZ 0.23
  have h2 := Real.rpow_pos_of_pos htz 0.23
  have h3 : ∀ a b : ℝ, a * t.A * b * p.T * p.A = p.T * (a * t.A * b * p.A) := fun _ _ => by ring
  rw [h3]
  apply div_nonpos_of_nonpos_of_nonneg
  · exact mul_nonpos_of_nonpos_of_nonneg hT (by positivity)
  · positivity

theorem nuclear_target_zero (debug : Bool) (p : Projectile ℝ) (t : Target ℝ)
    (h : reduced_energy_loss_unit p t ≤ 0) : dedx_n_target debug p t = .ok 0 := by
  unfold reduced_energy_loss_unit at h
  unfold dedx_n_target
  dsimp only at h ⊢
  rw [if_pos (by rw [le_real]; norm_num at h ⊢; exact h)]
  norm_num [pure, Except.pure]

theorem cassert_true (debug : Bool) (b : Bool) (h : b = true) : cassert debug b = .ok () := by
  unfold cassert
  simp [h]

theorem nuclear_target_pos (debug : Bool) (p : Projectile ℝ) (t : Target ℝ) (hZ : 0 < p.Z)
    (hA : 0 < p.A) (tZ : 1 ≤ t.Z) (tA : 0 < t.A) (hT : 0 < p.T) :
    ∃ v, dedx_n_target debug p t = .ok v ∧ 0 < v := by
  have hε := nuclear_eps_pos p t hZ hA tZ tA hT
  have htz : (0 : ℝ) < t.Z := by exact_mod_cast (by omega : 0 < t.Z)
  unfold reduced_energy_loss_unit at hε
  unfold dedx_n_target
  dsimp only at hε ⊢
  generalize 32.53 * t.A * 1000.0 * p.T * p.A / (p.Z * ofInt t.Z * (p.A + t.A) *
    (Scalar.pow p.Z 0.23 + Scalar.pow (ofInt t.Z) 0.23)) = ε at hε ⊢
  rw [if_neg (by rw [le_real]; norm_num; exact hε), cassert_true _ _ (by rw [lt_real]; norm_num; exact hA),
    bind_ok, cassert_true _ _ (by rw [lt_real]; norm_num; exact hε), bind_ok]
  refine ⟨_, rfl, ?_⟩
  simp only [pow_real, ofInt_real, log1p_real, log_real]
  have h1 := Real.rpow_pos_of_pos hZ 0.23
  have h2 := Real.rpow_pos_of_pos htz 0.23
  have hsn : 0 < (if Scalar.le ε 30.0 = true then Real.log (1 + 1.1383 * ε) /
      (2.0 * (ε + 0.01321 * ε ^ (0.21226 : ℝ) + 0.19593 * ε ^ (0.5 : ℝ)))
      else Real.log ε / (2.0 * ε)) := by
    have h3 := Real.rpow_pos_of_pos hε 0.21226
    have h4 := Real.rpow_pos_of_pos hε 0.5
    split
    · have : 0 < Real.log (1 + 1.1383 * ε) := Real.log_pos (by linarith)
      positivity
    · rename_i h
      simp only [Bool.not_eq_true, le_real_false] at h
      have : 0 < Real.log ε := Real.log_pos (by norm_num at h; linarith)
      positivity
  generalize (if Scalar.le ε 30.0 = true then Real.log (1 + 1.1383 * ε) /
      (2.0 * (ε + 0.01321 * ε ^ (0.21226 : ℝ) + 0.19593 * ε ^ (0.5 : ℝ)))
      else Real.log ε / (2.0 * ε)) = sn at hsn ⊢
  have : (0 : ℝ) < Avogadro := by norm_num [Avogadro]
  positivity

/-! ## Low-energy stopping -/

theorem sezi_pos {p : Projectile ℝ} {n : Int} (hp : p.Ion n) {m : Material ℝ} (hm : m.Sound)
    (c : Config ℝ) (hT : 0 < p.T) : ∃ v, sezi_dedx_e p m c = .ok v ∧ 0 < v := by
  have hcast : castInt p.Z = .ok n := by
    rw [hp.Z]
    exact castInt_real n (by linarith [hp.pos]) hp.int
  obtain ⟨g, hg⟩ := exists_values m.atoms
    (fun t => srim_dedx_e n t.Z p.T (c.low_energy == 1)) (fun v => 0 < v)
    fun t ht => srim_pos n t.Z hp.pos (hm.Z t ht) p.T hT _
  have hf := foldlM_ok (fun (sum : ℝ) (t : Target ℝ) => do
    let pZ ← castInt p.Z
    return sum + m.wfrac t * (← srim_dedx_e pZ t.Z p.T (c.low_energy == 1)) / t.A)
    (fun sum t => sum + m.wfrac t * g t / t.A) m.atoms
    (by
      intro t ht a
      simp only [hcast, bind_ok, (hg t ht).1]
      rfl) 0.0
  unfold sezi_dedx_e
  dsimp only
  rw [hf, bind_ok]
  refine ⟨_, rfl, ?_⟩
  rw [foldl_add_map]
  have hs := sum_pos_of_forall m.atoms (fun t => m.wfrac t * g t / t.A) (fun t ht => by
    have := m.wfrac_pos hm t ht
    have := (hg t ht).2
    have := hm.A t ht
    positivity) hm.nonempty
  have : (0 : ℝ) < Avogadro := by norm_num [Avogadro]
  norm_num
  positivity

/-! ## The electronic part -/

/-- The electronic part of catima.cpp:37-47. -/
noncomputable def electronic (env : Env ℝ) (p : Projectile ℝ) (m : Material ℝ) (c : Config ℝ) :
    M ℝ :=
  if Scalar.le p.T 10.0 then sezi_dedx_e p m c
  else if (Scalar.gt p.T 10.0) && (Scalar.lt p.T 30.0) then do
    let factor := 0.05 * (p.T - 10.0)
    let lo ← sezi_dedx_e p m c
    let hi ← bethek_dedx_e env p m c
    pure ((1.0 - factor) * lo + factor * hi)
  else bethek_dedx_e env p m c

theorem dedx_eq (env : Env ℝ) (p : Projectile ℝ) (m : Material ℝ) (c : Config ℝ) (h0 : 0 < p.T) :
    dedx env p m c = (do
      let n ← dedx_n env.debug p m
      let e ← electronic env p m c
      return n + e) := by
  unfold dedx
  rw [if_neg (by rw [le_real]; norm_num; exact h0)]
  cases dedx_n env.debug p m with
  | error e => rfl
  | ok n =>
    have e : (0.0 : ℝ) + n = n := by norm_num
    unfold electronic
    simp only [bind_ok, e]
    split
    · rfl
    split
    · simp only [bind_assoc]
    · rfl

end Catima
