import Verif.Spec.Cache
import Verif.Lemmas.Basic

/-!
# Lemmas about the cache
-/

namespace Catima
set_option linter.unusedSectionVars false
variable {α : Type} [Scalar α]

theorem hit_eq (p : Projectile α) (t : Material α) (c : Config α) (e : DataPoint α) :
    Storage.hit p t c e = e.key.eq ⟨p, t, c⟩ := rfl

theorem dpeq_eq (p : Projectile α) (t : Material α) (c : Config α) (e : DataPoint α) :
    e.eq ⟨p, t, c, [], [], [], none⟩ = e.key.eq ⟨p, t, c⟩ := by
  simp only [DataPoint.eq, Key.eq, DataPoint.key]
  rw [Bool.and_comm (e.m.eq t)]

theorem has_iff_any (s : Storage α) (k : Key α) :
    (s.slots.any fun e => e.eq ⟨k.p, k.t, k.c, [], [], [], none⟩) = true ↔ s.has k := by
  simp only [List.any_eq_true, Storage.has, dpeq_eq]

theorem addWith_hit (f : Compute α) (s : Storage α) (k : Key α) (h : s.has k) :
    s.addWith f k.p k.t k.c = .ok s := by
  rw [Storage.addWith, if_pos ((has_iff_any s k).mpr h)]

/-- The write position used by the next miss. -/
def Storage.pos (s : Storage α) : Nat := if s.index = s.slots.length then 0 else s.index

theorem addWith_miss (f : Compute α) (s : Storage α) (k : Key α) (h : ¬ s.has k) :
    s.addWith f k.p k.t k.c = (do
      let d ← f k.p k.t k.c
      if s.pos < s.slots.length then return ⟨s.slots.set s.pos d, s.pos + 1⟩
      else throw .outOfBounds) := by
  rw [Storage.addWith, if_neg (by rw [has_iff_any]; exact h)]
  rfl

theorem find_none_iff (s : Storage α) (k : Key α) :
    s.slots.find? (Storage.hit k.p k.t k.c) = none ↔ ¬ s.has k := by
  simp only [List.find?_eq_none, Storage.has, hit_eq]
  push Not
  rfl

theorem getWith_hit (f : Compute α) (s : Storage α) (k : Key α) (h : s.has k) :
    ∃ e ∈ s.slots, e.key.eq k = true ∧ s.getWith f k.p k.t k.c = .ok (e, s) := by
  cases hf : s.slots.find? (Storage.hit k.p k.t k.c) with
  | none => exact absurd h ((find_none_iff s k).mp hf)
  | some e =>
    refine ⟨e, List.mem_of_find?_eq_some hf, ?_, ?_⟩
    · have := List.find?_some hf
      rwa [hit_eq] at this
    · rw [Storage.getWith, hf]

/-- Cache shape. -/
def Shape (s : Storage α) : Prop := s.slots.length = max_storage_data ∧ s.index ≤ max_storage_data

theorem shape_pos {s : Storage α} (h : Shape s) : s.pos < s.slots.length := by
  obtain ⟨h1, h2⟩ := h
  unfold Storage.pos
  rw [h1]
  by_cases h : s.index = max_storage_data
  · rw [if_pos h]; decide
  · rw [if_neg h]; omega

theorem addWith_miss_ok {f : Compute α} {s : Storage α} {k : Key α} (hs : Shape s) (h : ¬ s.has k)
    {d : DataPoint α} (hd : f k.p k.t k.c = .ok d) :
    s.addWith f k.p k.t k.c = .ok ⟨s.slots.set s.pos d, s.pos + 1⟩ := by
  rw [addWith_miss f s k h, hd]
  simp only [bind, Except.bind, if_pos (shape_pos hs)]
  rfl

theorem addWith_miss_error {f : Compute α} {s : Storage α} {k : Key α} (h : ¬ s.has k)
    {e : Fault} (hd : f k.p k.t k.c = .error e) : s.addWith f k.p k.t k.c = .error e := by
  rw [addWith_miss f s k h, hd]
  rfl

theorem getWith_miss_ok {f : Compute α} {s : Storage α} {k : Key α} (hs : Shape s) (h : ¬ s.has k)
    {d : DataPoint α} (hd : f k.p k.t k.c = .ok d) :
    s.getWith f k.p k.t k.c = .ok (d, ⟨s.slots.set s.pos d, s.pos + 1⟩) := by
  rw [Storage.getWith, (find_none_iff s k).mpr h]
  simp only [addWith_miss_ok hs h hd, bind, Except.bind]
  have hp := shape_pos hs
  rw [if_neg (by simp)]
  have : ((s.pos + 1 : Nat) - 1 : Nat) = s.pos := by omega
  rw [this, rd_nat _ _ (by simpa using hp)]
  simp [pure, Except.pure]

theorem getWith_miss_error {f : Compute α} {s : Storage α} {k : Key α} (h : ¬ s.has k)
    {e : Fault} (hd : f k.p k.t k.c = .error e) : s.getWith f k.p k.t k.c = .error e := by
  rw [Storage.getWith, (find_none_iff s k).mpr h]
  simp only [addWith_miss_error h hd, bind, Except.bind]

theorem shape_set {s : Storage α} (hs : Shape s) (d : DataPoint α) :
    Shape (⟨s.slots.set s.pos d, s.pos + 1⟩ : Storage α) := by
  have := shape_pos hs
  refine ⟨by simpa using hs.1, ?_⟩
  rw [hs.1] at this
  show s.pos + 1 ≤ _
  omega

theorem shape_init : Shape (Storage.init : Storage α) := by
  simp [Shape, Storage.init]

/-- Case split of a successful `Get`. -/
theorem getWith_cases {f : Compute α} {s s' : Storage α} {k : Key α} {e : DataPoint α} (hs : Shape s)
    (h : s.getWith f k.p k.t k.c = .ok (e, s')) :
    (s.has k ∧ e ∈ s.slots ∧ e.key.eq k = true ∧ s' = s) ∨
    (¬ s.has k ∧ f k.p k.t k.c = .ok e ∧ s' = ⟨s.slots.set s.pos e, s.pos + 1⟩) := by
  by_cases hk : s.has k
  · obtain ⟨e', h1, h2, h3⟩ := getWith_hit f s k hk
    rw [h3] at h
    cases h
    exact .inl ⟨hk, h1, h2, rfl⟩
  · cases hd : f k.p k.t k.c with
    | error x => rw [getWith_miss_error hk hd] at h; cases h
    | ok d =>
      rw [getWith_miss_ok hs hk hd] at h
      cases h
      exact .inr ⟨hk, rfl, rfl⟩

/-- Case split of a successful `Add`. -/
theorem addWith_cases {f : Compute α} {s s' : Storage α} {k : Key α} (hs : Shape s)
    (h : s.addWith f k.p k.t k.c = .ok s') :
    (s.has k ∧ s' = s) ∨
    (¬ s.has k ∧ ∃ d, f k.p k.t k.c = .ok d ∧ s' = ⟨s.slots.set s.pos d, s.pos + 1⟩) := by
  by_cases hk : s.has k
  · rw [addWith_hit f s k hk] at h
    cases h
    exact .inl ⟨hk, rfl⟩
  · cases hd : f k.p k.t k.c with
    | error x => rw [addWith_miss_error hk hd] at h; cases h
    | ok d =>
      rw [addWith_miss_ok hs hk hd] at h
      cases h
      exact .inr ⟨hk, d, rfl, rfl⟩

/-- Effect of one operation: none, one new entry, or a reset. -/
theorem op_cases {f : Compute α} {s s' : Storage α} (hs : Shape s) (op : CacheOp α)
    (h : op.run f s = .ok s') :
    s' = s ∨ s' = Storage.init ∨ ∃ k d, ¬ s.has k ∧ f k.p k.t k.c = .ok d ∧
      s' = ⟨s.slots.set s.pos d, s.pos + 1⟩ := by
  cases op with
  | get k =>
    simp only [CacheOp.run] at h
    cases hg : s.getWith f k.p k.t k.c with
    | error e => rw [hg] at h; cases h
    | ok r =>
      obtain ⟨e, s1⟩ := r
      rw [hg] at h
      cases h
      rcases getWith_cases hs hg with ⟨_, _, _, rfl⟩ | ⟨hk, hd, rfl⟩
      · exact .inl rfl
      · exact .inr (.inr ⟨k, e, hk, hd, rfl⟩)
  | add k =>
    rcases addWith_cases hs h with ⟨_, rfl⟩ | ⟨hk, d, hd, rfl⟩
    · exact .inl rfl
    · exact .inr (.inr ⟨k, d, hk, hd, rfl⟩)
  | reset => cases h; exact .inr (.inl rfl)

theorem op_shape {f : Compute α} {s s' : Storage α} (hs : Shape s) (op : CacheOp α)
    (h : op.run f s = .ok s') : Shape s' := by
  rcases op_cases hs op h with rfl | rfl | ⟨k, d, _, _, rfl⟩
  · exact hs
  · exact shape_init
  · exact shape_set hs d

theorem reachable_shape {f : Compute α} {s : Storage α} (h : Reachable f s) : Shape s := by
  induction h with
  | init => exact shape_init
  | step _ op ho ih => exact op_shape ih op ho

theorem mem_init {e : DataPoint α} (he : e ∈ (Storage.init : Storage α).slots) : e = .default := by
  simp only [Storage.init, List.mem_replicate] at he
  exact he.2

/-- A predicate on entries that holds for default entries and for everything the fill function
produces holds for every entry of every reachable cache. -/
theorem reachable_entries {f : Compute α} {P : DataPoint α → Prop} (h0 : P .default)
    (h1 : ∀ p t c d, f p t c = .ok d → P d) {s : Storage α} (h : Reachable f s) :
    ∀ e ∈ s.slots, P e := by
  induction h with
  | init => intro e he; rw [mem_init he]; exact h0
  | step hr op ho ih =>
    rcases op_cases (reachable_shape hr) op ho with rfl | rfl | ⟨k, d, _, hd, rfl⟩
    · exact ih
    · intro e he; rw [mem_init he]; exact h0
    · intro e he
      rcases List.mem_or_eq_of_mem_set he with he | rfl
      · exact ih e he
      · exact h1 _ _ _ _ hd

/-! ## Symmetry and reflexivity of `==` -/

theorem projectile_eq_symm (hs : EqSymm α) (a b : Projectile α) : a.eq b = b.eq a := by
  simp only [Projectile.eq, hs.1 b.A, hs.1 b.Z, hs.1 b.Q]

theorem atomEq_symm (hs : EqSymm α) (a b : Target α) : Material.atomEq a b = Material.atomEq b a := by
  simp only [Material.atomEq, hs.1 b.stn, hs.1 b.A, BEq.comm (a := b.Z)]

theorem zip_all_symm (hs : EqSymm α) (as bs : List (Target α)) :
    ((as.zip bs).all fun x => Material.atomEq x.1 x.2) =
      ((bs.zip as).all fun x => Material.atomEq x.1 x.2) := by
  induction as generalizing bs with
  | nil => simp
  | cons a as ih =>
    cases bs with
    | nil => simp
    | cons b bs =>
      rw [List.zip_cons_cons, List.zip_cons_cons, List.all_cons, List.all_cons, ih bs]
      simp only [atomEq_symm hs a b]

theorem material_eq_symm (hs : EqSymm α) (a b : Material α) : a.eq b = b.eq a := by
  simp only [Material.eq, hs.1 b.i_potential, hs.1 b.molar_mass, hs.2 b.rho, Scalar.gt,
    BEq.comm (a := b.atoms.length), zip_all_symm hs b.atoms]

theorem config_eq_symm (hs : EqSymm α) (a b : Config α) : a.eq b = b.eq a := by
  simp only [Config.eq, hs.2 b.scattering_factor, Scalar.gt, BEq.comm (a := b.scattering),
    BEq.comm (a := b.z_effective), BEq.comm (a := b.corrections), BEq.comm (a := b.calculation),
    BEq.comm (a := b.low_energy)]

theorem key_eq_symm (hs : EqSymm α) (a b : Key α) : a.eq b = b.eq a := by
  simp only [Key.eq, projectile_eq_symm hs b.p, material_eq_symm hs b.t, config_eq_symm hs b.c]

theorem eqSymm_real : EqSymm ℝ :=
  ⟨fun a b => by rw [Bool.eq_iff_iff]; simp only [beq_real]; exact eq_comm, fun a b => by
    simp only [fabs_real]; exact abs_sub_comm a b⟩

theorem beqEq_real : BeqEq ℝ := fun a b h => by simpa using h

end Catima
