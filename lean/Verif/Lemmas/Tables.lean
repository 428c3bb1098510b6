import Verif.Lemmas.ApiRel
import Verif.Lemmas.Cache

/-!
# What the computed tables depend on
-/

set_option linter.unusedSectionVars false

namespace Catima
variable {α : Type} [Scalar α]

/-- The two queries agree on everything the tables depend on, except perhaps the scattering
factor. -/
structure Agree (p p' : Projectile α) (t t' : Material α) (c c' : Config α) : Prop where
  A : p.A = p'.A
  Z : p.Z = p'.Z
  Q : p.Q = p'.Q
  atoms : t.atoms = t'.atoms
  ip : t.i_potential = t'.i_potential
  mm : t.molar_mass = t'.molar_mass
  z_effective : c.z_effective = c'.z_effective
  corrections : c.corrections = c'.corrections
  calculation : c.calculation = c'.calculation
  low_energy : c.low_energy = c'.low_energy
  scattering : c.scattering = c'.scattering

theorem atoms_eq_of_zip (h : BeqEq α) : ∀ as bs : List (Target α), as.length = bs.length →
    ((as.zip bs).all fun x => Material.atomEq x.1 x.2) = true → as = bs
  | [], [], _, _ => rfl
  | [], _ :: _, h, _ => by simp at h
  | _ :: _, [], h, _ => by simp at h
  | a :: as, b :: bs, hl, hz => by
    simp only [List.zip_cons_cons, List.all_cons, Bool.and_eq_true, Material.atomEq,
      beq_iff_eq] at hz
    obtain ⟨⟨⟨h1, h2⟩, h3⟩, h4⟩ := hz
    have := atoms_eq_of_zip h as bs (by simpa using hl) h4
    rw [this]
    have h1 := h _ _ h1
    have h2 := h _ _ h2
    cases a; cases b
    simp only at h1 h2 h3
    rw [h1, h2, h3]

theorem agree_of_eq (h : BeqEq α) {k k' : Key α} (he : k.eq k' = true) :
    Agree k.p k'.p k.t k'.t k.c k'.c ∧
      (Scalar.fabs (k.c.scattering_factor - k'.c.scattering_factor) >? 1.0e-3) = false := by
  simp only [Key.eq, Projectile.eq, Material.eq, Config.eq, Bool.and_eq_true, beq_iff_eq,
    Bool.not_eq_true'] at he
  obtain ⟨⟨⟨⟨h1, h2⟩, h3⟩, ⟨⟨⟨⟨h4, h5⟩, h6⟩, h7⟩, h8⟩⟩, ⟨⟨⟨⟨⟨h9, h10⟩, h11⟩, h12⟩, h13⟩, h14⟩⟩ := he
  exact ⟨⟨h _ _ h1, h _ _ h2, h _ _ h3, atoms_eq_of_zip h _ _ h5 h7, h _ _ h6, h _ _ h8, h10, h11,
    h12, h13, h9⟩, h14⟩

theorem dedx_congr {env : Env α} {b : Bool} {p p' : Projectile α} {t t' : Material α}
    {c c' : Config α} (h : Agree p p' t t' c c') (x : α) :
    dedx env (p.withT x) t c = dedx (env.withStore b) (p'.withT x) t' c' := by
  cases p; cases p'; cases t; cases t'; cases c; cases c'
  obtain ⟨h1, h2, h3, h4, h5, h6, h7, h8, h9, h10, h11⟩ := h
  simp only at *
  subst h1 h2 h3 h4 h5 h6 h7 h8 h9 h10 h11
  rfl

theorem domega2dx_congr {env : Env α} {b : Bool} {p p' : Projectile α} {t t' : Material α}
    {c c' : Config α} (h : Agree p p' t t' c c') (x : α) :
    domega2dx env (p.withT x) t c = domega2dx (env.withStore b) (p'.withT x) t' c' := by
  cases p; cases p'; cases t; cases t'; cases c; cases c'
  obtain ⟨h1, h2, h3, h4, h5, h6, h7, h8, h9, h10, h11⟩ := h
  simp only at *
  subst h1 h2 h3 h4 h5 h6 h7 h8 h9 h10 h11
  rfl

theorem da2dx_congr {p p' : Projectile α} {t t' : Material α}
    {c c' : Config α} (h : Agree p p' t t' c c') (hf : c.scattering_factor = c'.scattering_factor)
    (x : α) : da2dx (p.withT x) t c = da2dx (p'.withT x) t' c' := by
  cases p; cases p'; cases t; cases t'; cases c; cases c'
  obtain ⟨h1, h2, h3, h4, h5, h6, h7, h8, h9, h10, h11⟩ := h
  simp only at *
  subst h1 h2 h3 h4 h5 h6 h7 h8 h9 h10 h11 hf
  rfl

theorem integrate_sh {f g : α → M α} (h : ∀ x, Sh (f x) (g x)) (d : GLData) (a b : α) :
    Sh (d.integrate f a b) (d.integrate g a b) := by
  unfold GLData.integrate
  have tail : ∀ r r' : α, Sh
      (do
        let res ← ((d.nodes (α := α)).drop (d.order % 2)).foldlM
          (GLData.step f (0.5 * (b - a)) (0.5 * (b + a))) r
        return 0.5 * (b - a) * res)
      (do
        let res ← ((d.nodes (α := α)).drop (d.order % 2)).foldlM
          (GLData.step g (0.5 * (b - a)) (0.5 * (b + a))) r'
        return 0.5 * (b - a) * res) := by
    intro r r'
    refine (foldlM_rel (R := fun _ _ => True) _ _ _ ?_ trivial).bind fun _ _ _ => .pure trivial
    intro _ _ s _
    unfold GLData.step
    exact (h _).bind fun _ _ _ => (h _).bind fun _ _ _ => .pure trivial
  dsimp only
  split
  · split
    · exact .error _
    · refine ((h _).bind fun _ _ _ => ?_)
      exact tail _ _
  · exact tail _ _

/-- Tables of functions that fault alike have equal length. -/
theorem cumulative_sh {f g : α → M α} (h : ∀ x, Sh (f x) (g x)) (n : Nat) (A A' : α)
    (tab : EnergyTable α) :
    ERel (fun l l' => l.length = l'.length) (cumulative n A tab f) (cumulative n A' tab g) := by
  unfold cumulative
  refine foldlM_rel (R := fun (l l' : List α) => l.length = l'.length) _ _ _ ?_ rfl
  intro l l' k hl
  refine (integrate_sh h _ _ _).bind fun _ _ _ => .pure ?_
  simp [hl]

theorem cumulative_length {f : α → M α} {n : Nat} {A : α} {tab : EnergyTable α} {l : List α}
    (h : cumulative n A tab f = .ok l) : l.length = n + 1 := by
  unfold cumulative at h
  have : ∀ (ks : List Nat) (a l : List α), ks.foldlM (fun acc k => do
      let r ← integrator.integrate f (tab.val k) (tab.val (k + 1))
      return acc ++ [A * r + acc.getLastD 0.0]) a = (.ok l : M (List α)) →
      l.length = a.length + ks.length := by
    intro ks
    induction ks with
    | nil => intro a l h; cases h; simp
    | cons k ks ih =>
      intro a l h
      rw [List.foldlM_cons] at h
      simp only [bind, Except.bind] at h
      split at h
      · cases h
      · rename_i v hv
        split at hv
        · cases hv
        · cases hv
          rw [ih _ _ h]
          simp
          omega
  simpa [Nat.add_comm] using this _ _ _ h

theorem cumulative_len {f : α → M α} {A : α} {tab : EnergyTable α} {l : List α}
    (h : cumulative (max_datapoints - 1) A tab f = .ok l) : l.length = max_datapoints := by
  rw [cumulative_length h]
  decide

set_option maxRecDepth 8000 in
/-- The tables of two agreeing queries. -/
theorem tables_rel {env : Env α} {b : Bool} {p p' : Projectile α} {t t' : Material α}
    {c c' : Config α} (h : Agree p p' t t' c c') :
    ERel (fun d d' => (d.range = d'.range ∧ d.range_straggling = d'.range_straggling ∧
        d.angular_variance.length = d'.angular_variance.length ∧
        (c.scattering_factor = c'.scattering_factor → d.angular_variance = d'.angular_variance)) ∧
        (d.range.length = max_datapoints ∧ d.range_straggling.length = max_datapoints ∧
          d.angular_variance.length = max_datapoints))
      (calculate_DataPoint env p t c) (calculate_DataPoint (env.withStore b) p' t' c') := by
  have hd : fdedx env p t c = fdedx (env.withStore b) p' t' c' := by
    funext x
    unfold fdedx
    rw [dedx_congr (b := b) h]
  have ho : fomega env p t c = fomega (env.withStore b) p' t' c' := by
    funext x
    unfold fomega
    rw [dedx_congr (b := b) h, domega2dx_congr (b := b) h]
  have hsh : ∀ x, Sh (ftheta env p t c x) (ftheta (env.withStore b) p' t' c' x) := by
    intro x
    unfold ftheta da2de
    rw [dedx_congr (b := b) h]
    exact (ERel.refl _).bind fun _ _ _ => .pure trivial
  have heq : c.scattering_factor = c'.scattering_factor →
      ftheta env p t c = ftheta (env.withStore b) p' t' c' := by
    intro hf
    funext x
    unfold ftheta da2de
    rw [dedx_congr (b := b) h, da2dx_congr h hf]
  unfold calculate_DataPoint
  rw [hd, ho, h.A]
  dsimp only
  have e1 : ERel (fun l l' => l = l' ∧ l.length = max_datapoints)
      (cumulative (max_datapoints - 1) p'.A energy_table (fdedx (env.withStore b) p' t' c'))
      (cumulative (max_datapoints - 1) p'.A energy_table (fdedx (env.withStore b) p' t' c')) := by
    cases hc : cumulative (max_datapoints - 1) p'.A energy_table (fdedx (env.withStore b) p' t' c') with
    | error e => exact .error e
    | ok l => exact ⟨rfl, cumulative_len hc⟩
  have e2 : ERel (fun l l' => l = l' ∧ l.length = max_datapoints)
      (cumulative (max_datapoints - 1) p'.A energy_table (fomega (env.withStore b) p' t' c'))
      (cumulative (max_datapoints - 1) p'.A energy_table (fomega (env.withStore b) p' t' c')) := by
    cases hc : cumulative (max_datapoints - 1) p'.A energy_table (fomega (env.withStore b) p' t' c') with
    | error e => exact .error e
    | ok l => exact ⟨rfl, cumulative_len hc⟩
  have e3 : ERel (fun l l' => (l.length = l'.length ∧
        (c.scattering_factor = c'.scattering_factor → l = l')) ∧ l.length = max_datapoints)
      (cumulative (max_datapoints - 1) p'.A energy_table (ftheta env p t c))
      (cumulative (max_datapoints - 1) p'.A energy_table (ftheta (env.withStore b) p' t' c')) := by
    have := cumulative_sh (f := ftheta env p t c) (g := ftheta (env.withStore b) p' t' c') hsh
      (max_datapoints - 1) p'.A p'.A energy_table
    cases hc : cumulative (max_datapoints - 1) p'.A energy_table (ftheta env p t c) <;>
      cases hc' : cumulative (max_datapoints - 1) p'.A energy_table
        (ftheta (env.withStore b) p' t' c') <;> rw [hc, hc'] at this
    · rename_i e e'
      have he : e = e' := this
      rw [he]
      exact .error _
    · exact this.elim
    · exact this.elim
    · refine ⟨⟨this, fun hf => ?_⟩, cumulative_len hc⟩
      rw [heq hf, hc'] at hc
      cases hc
      rfl
  refine e1.bind fun r r' hr => ?_
  refine e3.bind fun a a' ha => ?_
  refine e2.bind fun s s' hs => ?_
  exact .pure ⟨⟨hr.1, hs.1, ha.1.1, ha.1.2⟩, hr.2, hs.2, ha.2⟩

end Catima
