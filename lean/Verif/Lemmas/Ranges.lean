import Verif.Props.Quadrature
import Verif.Props.LindhardX
import Verif.Props.Spline

/-!
# Helper lemmas: the cumulative tables
-/

namespace Catima

theorem integrator_supported : integrator ∈ GLData.supported := by
  simp [GLData.supported, integrator]

theorem integrator_scaled : ∀ s ∈ integrator.scaled, s.1 ≤ 97 * 10 ^ 38 := by decide +kernel

/-- The nodes of the library's integrator keep a distance from the ends of the interval. -/
theorem integrator_nodes (e : ℝ × ℝ) (he : e ∈ integrator.full) : -0.97 ≤ e.1 ∧ e.1 ≤ 0.97 ∧ 0 < e.2 := by
  have hs := GLData.supported_shape _ integrator_supported
  have key : ∀ e ∈ integrator.nodes (α := ℝ), 0 ≤ e.1 ∧ e.1 ≤ 0.97 := by
    rw [integrator.nodes_scaled hs]
    intro e he
    obtain ⟨s, hs, rfl⟩ := List.mem_map.mp he
    have h := integrator_scaled s hs
    have h' : (s.1 : ℝ) ≤ 97 * 10 ^ 38 := by exact_mod_cast h
    refine ⟨by positivity, ?_⟩
    rw [div_le_iff₀ (by positivity)]
    norm_num at h' ⊢
    linarith
  refine ⟨?_, ?_, (integrator.full_bounds hs e he).2.2⟩
  · rcases integrator.full_mem e he with h | h
    · linarith [(key e h).1]
    · linarith [(key _ h).2]
  · rcases integrator.full_mem e he with h | h
    · linarith [(key e h).2]
    · linarith [(key _ h).1]

/-- Points well inside an interval. -/
def Inner (a b x : ℝ) : Prop := a + (b - a) / 100 ≤ x ∧ x ≤ b - (b - a) / 100

theorem node_inner (a b : ℝ) (hab : a ≤ b) (e : ℝ × ℝ) (he : e ∈ integrator.full) :
    Inner a b ((b - a) / 2 * e.1 + (b + a) / 2) := by
  obtain ⟨h1, h2, -⟩ := integrator_nodes e he
  norm_num at h1 h2
  unfold Inner
  constructor <;> nlinarith

theorem integrator_full_ne : integrator.full ≠ [] := by
  have hs := GLData.supported_shape _ integrator_supported
  intro h
  have hm := integrator.moment_even hs _ _ (GLData.supported_moment _ integrator_supported) 0
    (by have := (integrator.shape hs).1.big; omega)
  rw [h] at hm
  norm_num [wsum] at hm

/-- Integration of a function that is defined (and satisfies `P`) at inner points. -/
theorem integrator_value (f : ℝ → M ℝ) (a b : ℝ) (hab : a ≤ b) (P : ℝ → Prop)
    (h : ∀ x, Inner a b x → ∃ v, f x = .ok v ∧ P v) :
    ∃ g : ℝ → ℝ, (∀ x, Inner a b x → f x = .ok (g x) ∧ P (g x)) ∧ integrator.integrate f a b =
      .ok ((b - a) / 2 * wsum integrator.full fun x => g ((b - a) / 2 * x + (b + a) / 2)) := by
  choose! g hg using h
  have hs := GLData.supported_shape _ integrator_supported
  exact ⟨g, hg, integrator.integrate_eq (integrator.shape hs).1 f g a b fun e he =>
    (hg _ (node_inner a b hab e he)).1⟩

theorem integrator_defined (f : ℝ → M ℝ) (a b : ℝ) (hab : a ≤ b)
    (h : ∀ x, Inner a b x → ∃ v, f x = .ok v) : ∃ I, integrator.integrate f a b = .ok I := by
  obtain ⟨g, -, hI⟩ := integrator_value f a b hab (fun _ => True)
    fun x hx => (h x hx).imp fun v hv => ⟨hv, trivial⟩
  exact ⟨_, hI⟩

theorem integrator_nonneg (f : ℝ → M ℝ) (a b : ℝ) (hab : a ≤ b)
    (h : ∀ x, Inner a b x → ∃ v, f x = .ok v ∧ 0 ≤ v) :
    ∃ I, integrator.integrate f a b = .ok I ∧ 0 ≤ I := by
  obtain ⟨g, hg, hI⟩ := integrator_value f a b hab _ h
  refine ⟨_, hI, mul_nonneg (by linarith) (wsum_nonneg _ _ ?_ ?_)⟩
  · intro e he; exact (integrator_nodes e he).2.2.le
  · intro e he; exact (hg _ (node_inner a b hab e he)).2

theorem integrator_pos (f : ℝ → M ℝ) (a b : ℝ) (hab : a < b)
    (h : ∀ x, Inner a b x → ∃ v, f x = .ok v ∧ 0 < v) :
    ∃ I, integrator.integrate f a b = .ok I ∧ 0 < I := by
  obtain ⟨g, hg, hI⟩ := integrator_value f a b hab.le _ h
  refine ⟨_, hI, mul_pos (by linarith) ?_⟩
  exact sum_pos_of_forall _ _ (fun e he => mul_pos (integrator_nodes e he).2.2
    (hg _ (node_inner a b hab.le e he)).2) integrator_full_ne

theorem sum_neg_of_forall {β : Type} (l : List β) (f : β → ℝ) (h : ∀ t ∈ l, f t < 0) (hne : l ≠ []) :
    (l.map f).sum < 0 := by
  have e : ∀ l : List β, (l.map fun t => -(f t)).sum = -(l.map f).sum := by
    intro l
    induction l with
    | nil => simp
    | cons a l ih => simp only [List.map_cons, List.sum_cons, ih]; ring
  have := sum_pos_of_forall l (fun t => -(f t)) (fun t ht => neg_pos.mpr (h t ht)) hne
  rw [e] at this
  linarith

theorem integrator_neg (f : ℝ → M ℝ) (a b : ℝ) (hab : a < b)
    (h : ∀ x, Inner a b x → ∃ v, f x = .ok v ∧ v < 0) :
    ∃ I, integrator.integrate f a b = .ok I ∧ I < 0 := by
  obtain ⟨g, hg, hI⟩ := integrator_value f a b hab.le _ h
  refine ⟨_, hI, mul_neg_of_pos_of_neg (by linarith) ?_⟩
  exact sum_neg_of_forall _ _ (fun e he => mul_neg_of_pos_of_neg (integrator_nodes e he).2.2
    (hg _ (node_inner a b hab.le e he)).2) integrator_full_ne

/-! ## `cumulative` -/

/-- What the accumulated table looks like when the integrals are `r 0, r 1, ...`. -/
theorem cumulative_ok (n : Nat) (A : ℝ) (tab : EnergyTable ℝ) (f : ℝ → M ℝ) (r : Nat → ℝ)
    (h : ∀ k < n, integrator.integrate f (tab.val k) (tab.val (k + 1)) = .ok (r k)) :
    ∃ l, cumulative n A tab f = .ok l ∧ l.length = n + 1 ∧ l[0]? = some 0 ∧
      (∀ k < n, ∃ a b, l[k]? = some a ∧ l[k + 1]? = some b ∧ b = A * r k + a) := by
  induction n with
  | zero =>
    refine ⟨[0.0], rfl, rfl, ?_, by simp⟩
    norm_num
  | succ n ih =>
    obtain ⟨l, hl, hlen, h0, hs⟩ := ih fun k hk => h k (by omega)
    have hne : l ≠ [] := by
      intro hh; rw [hh] at hlen; simp at hlen
    refine ⟨l ++ [A * r n + l.getLastD 0.0], ?_, by simp [hlen], ?_, ?_⟩
    · unfold cumulative at hl ⊢
      rw [List.range_succ, List.foldlM_append, hl]
      simp only [List.foldlM_cons, List.foldlM_nil, bind_ok, h n (by omega)]
      rfl
    · rw [List.getElem?_append_left (by omega)]; exact h0
    · intro k hk
      rcases Nat.lt_or_ge k n with hk' | hk'
      · obtain ⟨a, b, ha, hb, hab⟩ := hs k hk'
        exact ⟨a, b, by rw [List.getElem?_append_left (by omega)]; exact ha,
          by rw [List.getElem?_append_left (by omega)]; exact hb, hab⟩
      · have : k = n := by omega
        subst this
        refine ⟨l.getLastD 0.0, _, ?_, ?_, rfl⟩
        · rw [List.getElem?_append_left (by omega), List.getLastD_eq_getLast?, List.getLast?_eq_getElem?,
            hlen, Nat.add_sub_cancel, List.getElem?_eq_getElem (by omega)]
          rfl
        · rw [← hlen, List.getElem?_append_right (le_refl _)]
          simp

theorem cumulative_inv (n : Nat) (tab : EnergyTable ℝ) (f : ℝ → M ℝ)
    (h : ∀ k < n, ∃ I, integrator.integrate f (tab.val k) (tab.val (k + 1)) = .ok I) :
    ∃ r : Nat → ℝ, ∀ k < n, integrator.integrate f (tab.val k) (tab.val (k + 1)) = .ok (r k) := by
  choose! r hr using h
  exact ⟨r, hr⟩

/-- A list whose neighbours are ordered is ordered. -/
theorem pairwise_of_neighbours {R : ℝ → ℝ → Prop} [IsTrans ℝ R] (l : List ℝ)
    (h : ∀ k, k + 1 < l.length → ∃ a b, l[k]? = some a ∧ l[k + 1]? = some b ∧ R a b) :
    l.Pairwise R := by
  rw [← List.isChain_iff_pairwise, List.isChain_iff_getElem]
  intro i hi
  obtain ⟨a, b, ha, hb, hab⟩ := h i hi
  rw [List.getElem?_eq_getElem (by omega)] at ha hb
  cases ha; cases hb
  exact hab

/-! ## The integrands on the grid -/

theorem energy_gap (i : Nat) : 3e-5 ≤ (energy_table : EnergyTable ℝ).val (i + 1) -
    (energy_table : EnergyTable ℝ).val i := by
  have hb := energy_table_bounds
  have e : (energy_table : EnergyTable ℝ).val (i + 1) =
      Real.exp (LN10 * (energy_table : EnergyTable ℝ).step) * (energy_table : EnergyTable ℝ).val i := by
    rw [EnergyTable.val_eq, EnergyTable.val_eq, ← Real.exp_add]; congr 1; push_cast; ring
  have h1 := Real.add_one_le_exp (LN10 * (energy_table : EnergyTable ℝ).step)
  have h2 : (9e-4 : ℝ) ≤ (energy_table : EnergyTable ℝ).val i := by
    have := (abs_le.mp energy_table_range.2.1).1
    have h3 := (EnergyTable.val_le_iff (energy_table : EnergyTable ℝ) hb.1 hb.2.1 0 i).mpr (by omega)
    norm_num at this ⊢
    linarith
  have hs : (energy_table : EnergyTable ℝ).step = 10 / 599 := by
    rw [EnergyTable.step_eq]; norm_num [energy_table, logEmin, logEmax, max_datapoints]
  rw [hs] at h1 e
  have h3 : (0.038 : ℝ) ≤ LN10 * (10 / 599) := by norm_num [LN10]
  rw [e]
  norm_num at h2 h3 ⊢
  nlinarith

/-- Where the integrands are evaluated. -/
theorem inner_grid (k : Nat) (hk : k < 599) (x : ℝ)
    (hx : Inner ((energy_table : EnergyTable ℝ).val k) ((energy_table : EnergyTable ℝ).val (k + 1)) x) :
    (energy_table : EnergyTable ℝ).val k ≤ x ∧ x ≤ (energy_table : EnergyTable ℝ).val (k + 1) ∧
    (energy_table : EnergyTable ℝ).val 0 ≤ x ∧ x ≤ (energy_table : EnergyTable ℝ).val 599 ∧ 0 < x ∧
    LindhardReadable x := by
  have hb := energy_table_bounds
  have hg := energy_gap k
  have h0 := (EnergyTable.val_le_iff (energy_table : EnergyTable ℝ) hb.1 hb.2.1 0 k).mpr (by omega)
  have h9 := (EnergyTable.val_le_iff (energy_table : EnergyTable ℝ) hb.1 hb.2.1 (k + 1) 599).mpr (by omega)
  have hp := EnergyTable.val_pos (energy_table : EnergyTable ℝ) 0
  unfold Inner at hx
  norm_num at hg
  refine ⟨by linarith, by linarith, by linarith, by linarith, by linarith, Or.inl ?_⟩
  rw [ls_top]
  norm_num
  linarith

theorem withT_ion {p : Projectile ℝ} {n : Int} (hp : p.Ion n) (x : ℝ) : (p.withT x).Ion n :=
  ⟨hp.Z, hp.pos, hp.int, hp.A⟩

namespace Computable
variable {p : Projectile ℝ} {n : Int} {m : Material ℝ} {c : Config ℝ}

theorem withT (h : Computable p n m c) (x : ℝ) : Computable (p.withT x) n m c :=
  ⟨withT_ion h.ion x, h.small, h.sound, h.known, h.charge⟩

theorem posZ (h : Computable p n m c) : 0 < p.Z := by
  rw [h.ion.Z]; exact_mod_cast (by linarith [h.ion.pos] : 0 < n)

theorem dedx (h : Computable p n m c) (env : Env ℝ) (x : ℝ) (h0 : 0 < x) (hr : LindhardReadable x) :
    ∃ v, Catima.dedx env (p.withT x) m c = .ok v :=
  (stopping_defined env (p.withT x) n (withT_ion h.ion x) h.small m h.sound (Or.inr h.known) c
    h.charge h0 hr).2

theorem zeff (h : Computable p n m c) (debug : Bool) (x : ℝ) (t : Target ℝ) :
    ∃ z, z_effective debug (p.withT x) t c = .ok z := by
  rcases h.charge with hc | ⟨hc, -⟩
  · exact ⟨_, (z_effective_basic debug (p.withT x) t c).2 hc⟩
  · exact ⟨_, (z_effective_basic debug (p.withT x) t c).1 hc⟩

theorem variance (h : Computable p n m c) (env : Env ℝ) (x : ℝ) (hr : LindhardReadable x) :
    ∃ v, domega2dx env (p.withT x) m c = .ok v := by
  obtain ⟨X, hX⟩ := lindhard_X_defined env.calcIndex (withT_ion h.ion x) h.small hr
  obtain ⟨g, hg⟩ := exists_values m.atoms (fun t => dedx_variance env (p.withT x) t c) (fun _ => True)
    fun t _ => by
      obtain ⟨z, hz⟩ := h.zeff env.debug x t
      unfold dedx_variance
      rw [hz, hX]
      dsimp only
      simp only [bind_ok]
      split <;> exact ⟨_, rfl, trivial⟩
  exact ⟨_, componentSum_ok m _ g fun t ht => (hg t ht).1⟩

end Computable

theorem angular_power_nonneg (p : Projectile ℝ) (m : Material ℝ) (hm : m.Sound)
    (hZ : ∀ t ∈ m.atoms, t.Z ≤ 1000) (Es2 : ℝ) (h : 0 ≤ Es2) : 0 ≤ angular_scattering_power p m Es2 := by
  unfold angular_scattering_power
  split
  · norm_num
  · have hX := radiation_length_material_pos m hm hZ
    have sq : ∀ y : ℝ, 0 ≤ ipow y 2 := fun y => mul_self_nonneg y
    exact div_nonneg (mul_nonneg h (sq _)) (mul_nonneg hX.le (sq _))

theorem Es2_nonneg (c : Config ℝ) : 0 ≤ Es2_of c := by
  unfold Es2_of
  dsimp only
  split
  · norm_num [Es_squared, PI, fine_structure_inverted, fine_structure, electron_mass]
  · split <;> norm_num [Es_squared, PI, fine_structure_inverted, fine_structure, electron_mass]

end Catima
