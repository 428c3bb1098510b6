import Verif.Lemmas.Basic
import Verif.Spec.Quadrature
import Mathlib.Data.Rat.Cast.Lemmas
import Mathlib.Tactic.Linarith
import Mathlib.Tactic.Ring
import Mathlib.Tactic.FieldSimp
import Mathlib.Algebra.Order.BigOperators.Group.List

/-!
# Helper lemmas: the quadrature rules as weighted sums
-/

namespace Catima

/-- The value of a decimal literal. -/
theorem Dec.toScalar_real (d : Dec) : (d.toScalar : ℝ) = (d.m : ℝ) / 10 ^ d.e := by
  have h : ∀ n e : Nat, (OfScientific.ofScientific n true e : ℝ) = (n : ℝ) / 10 ^ e := by
    intro n e
    rw [← Rat.cast_ofScientific]
    have : (OfScientific.ofScientific n true e : ℚ) = (n : ℚ) / 10 ^ e := by
      change Rat.ofScientific n true e = _
      rw [Rat.ofScientific_true_def, Rat.mkRat_eq_div]
      push_cast; rfl
    rw [this]; push_cast; rfl
  unfold Dec.toScalar
  split
  · rename_i hm
    rw [h]
    have : ((d.m.natAbs : ℤ) : ℝ) = ((-d.m : ℤ) : ℝ) := by
      congr 1; omega
    rw [Int.cast_natCast] at this
    rw [this]; push_cast; ring
  · rename_i hm
    rw [h]
    have : ((d.m.natAbs : ℤ) : ℝ) = ((d.m : ℤ) : ℝ) := by
      congr 1; omega
    rw [Int.cast_natCast] at this
    rw [this]

/-- Nodes and weights, with the mirror images. -/
def mirror (l : List (ℝ × ℝ)) : List (ℝ × ℝ) := l.flatMap fun e => [(e.1, e.2), (-e.1, e.2)]

/-- The weighted sum over nodes and weights. -/
def wsum (l : List (ℝ × ℝ)) (g : ℝ → ℝ) : ℝ := (l.map fun e => e.2 * g e.1).sum

@[simp] theorem wsum_nil (g : ℝ → ℝ) : wsum [] g = 0 := rfl
@[simp] theorem wsum_cons (e : ℝ × ℝ) (l : List (ℝ × ℝ)) (g : ℝ → ℝ) :
    wsum (e :: l) g = e.2 * g e.1 + wsum l g := by simp [wsum]

theorem wsum_mirror (l : List (ℝ × ℝ)) (g : ℝ → ℝ) :
    wsum (mirror l) g = wsum l fun x => g x + g (-x) := by
  induction l with
  | nil => rfl
  | cons e l ih =>
    have : mirror (e :: l) = (e.1, e.2) :: (-e.1, e.2) :: mirror l := rfl
    rw [this, wsum_cons, wsum_cons, wsum_cons, ih]; ring

theorem wsum_add (l : List (ℝ × ℝ)) (g h : ℝ → ℝ) :
    wsum l (fun x => g x + h x) = wsum l g + wsum l h := by
  induction l with
  | nil => simp
  | cons e l ih => rw [wsum_cons, wsum_cons, wsum_cons, ih]; ring

theorem wsum_smul (l : List (ℝ × ℝ)) (c : ℝ) (g : ℝ → ℝ) :
    wsum l (fun x => c * g x) = c * wsum l g := by
  induction l with
  | nil => simp
  | cons e l ih => rw [wsum_cons, wsum_cons, ih]; ring

theorem wsum_nonneg (l : List (ℝ × ℝ)) (g : ℝ → ℝ) (hw : ∀ e ∈ l, 0 ≤ e.2)
    (hg : ∀ e ∈ l, 0 ≤ g e.1) : 0 ≤ wsum l g := by
  apply List.sum_nonneg
  intro x hx
  obtain ⟨e, he, rfl⟩ := List.mem_map.mp hx
  exact mul_nonneg (hw e he) (hg e he)

theorem wsum_congr (l : List (ℝ × ℝ)) (g h : ℝ → ℝ) (hg : ∀ e ∈ l, g e.1 = h e.1) :
    wsum l g = wsum l h := by
  unfold wsum
  congr 1
  apply List.map_congr_left
  intro e he; rw [hg e he]

theorem wsum_sum {ι : Type} (l : List (ℝ × ℝ)) (s : Finset ι) (g : ι → ℝ → ℝ) :
    wsum l (fun x => ∑ k ∈ s, g k x) = ∑ k ∈ s, wsum l (g k) := by
  induction l with
  | nil => simp
  | cons e l ih =>
    rw [wsum_cons, ih, Finset.mul_sum, ← Finset.sum_add_distrib]
    apply Finset.sum_congr rfl
    intro k _; rw [wsum_cons]

/-! ## Gauss-Legendre -/

namespace GLData

/-- All abscissas in `[-1,1]` with their weights, in the order of evaluation. -/
noncomputable def full (d : GLData) : List (ℝ × ℝ) :=
  (if d.order % 2 = 1 then (d.nodes (α := ℝ)).take 1 else []) ++
    mirror ((d.nodes (α := ℝ)).drop (d.order % 2))

/-- What the tables are checked for. -/
structure Wf (d : GLData) : Prop where
  len : d.x.length = d.order / 2 + d.order % 2
  lenw : d.w.length = d.order / 2 + d.order % 2
  big : 2 ≤ d.order

theorem nodes_length (d : GLData) (h : d.Wf) :
    (d.nodes (α := ℝ)).length = d.order / 2 + d.order % 2 := by
  simp [nodes, h.len, h.lenw]

theorem foldlM_step (f : ℝ → M ℝ) (g : ℝ → ℝ) (p q : ℝ) (l : List (ℝ × ℝ)) (r : ℝ)
    (h : ∀ e ∈ mirror l, f (p * e.1 + q) = .ok (g (p * e.1 + q))) :
    l.foldlM (step f p q) r = .ok (r + wsum (mirror l) fun x => g (p * x + q)) := by
  induction l generalizing r with
  | nil => simp [mirror, wsum]; rfl
  | cons e l ih =>
    have hm : mirror (e :: l) = (e.1, e.2) :: (-e.1, e.2) :: mirror l := rfl
    have h1 : f (p * e.1 + q) = .ok (g (p * e.1 + q)) := h (e.1, e.2) (by simp [hm])
    have h2 := h (-e.1, e.2) (by simp [hm])
    simp only [] at h2
    have e2 : p * -e.1 = -p * e.1 := by ring
    rw [e2] at h2
    rw [List.foldlM_cons]
    have hs : step f p q r e = .ok (r + e.2 * (g (p * e.1 + q) + g (-p * e.1 + q))) := by
      unfold step
      rw [h1, h2]; rfl
    rw [hs]
    change List.foldlM (step f p q) _ l = _
    rw [ih _ (fun e' he => h e' (by simp [hm, he])), hm]
    simp only [wsum_cons, e2]
    congr 1; ring

/-- `integrate` is the weighted sum over `full`. -/
theorem integrate_eq (d : GLData) (hd : d.Wf) (f : ℝ → M ℝ) (g : ℝ → ℝ) (a b : ℝ)
    (h : ∀ e ∈ d.full, f ((b - a) / 2 * e.1 + (b + a) / 2)
      = .ok (g ((b - a) / 2 * e.1 + (b + a) / 2))) :
    d.integrate f a b =
      .ok ((b - a) / 2 * wsum d.full fun x => g ((b - a) / 2 * x + (b + a) / 2)) := by
  have hp : (0.5 : ℝ) * (b - a) = (b - a) / 2 := by norm_num; ring
  have hq : (0.5 : ℝ) * (b + a) = (b + a) / 2 := by norm_num; ring
  unfold integrate
  simp only [hp, hq]
  by_cases ho : d.order % 2 = 1
  · have hl := d.nodes_length hd
    match hn : d.nodes (α := ℝ) with
    | [] => rw [hn] at hl; simp at hl; omega
    | (x0, w0) :: t =>
      have hfull : d.full = (x0, w0) :: mirror t := by
        simp [full, ho, hn]
      rw [hfull] at h ⊢
      have h0 := h (x0, w0) (by simp)
      simp only [ho, if_true, h0]
      change (do
        let res ← List.foldlM (step f ((b - a) / 2) ((b + a) / 2))
          ((0.0 : ℝ) + w0 * g ((b - a) / 2 * x0 + (b + a) / 2)) t
        pure ((b - a) / 2 * res) : M ℝ) = _
      rw [foldlM_step f g _ _ t _ (fun e he => h e (by simp [he]))]
      change Except.ok _ = _
      rw [wsum_cons]
      norm_num
  · have hz : d.order % 2 = 0 := by omega
    have hfull : d.full = mirror (d.nodes (α := ℝ)) := by simp [full, hz]
    rw [hfull] at h ⊢
    simp only [hz, List.drop_zero]
    change (do
        let res ← List.foldlM (step f ((b - a) / 2) ((b + a) / 2)) (0.0 : ℝ) (d.nodes (α := ℝ))
        pure ((b - a) / 2 * res) : M ℝ) = _
    rw [foldlM_step f g _ _ _ _ h]
    change Except.ok _ = _
    norm_num

/-! ### The tables as natural numbers -/

/-- The table in units of `10^-40`. -/
def scaled (d : GLData) : List (Nat × Nat) :=
  (d.x.zip d.w).map fun e => (e.1.m.toNat * 10 ^ (40 - e.1.e), e.2.m.toNat * 10 ^ (40 - e.2.e))

/-- Moment `k` (even) of the rule in units of `10^(-40(k+1))`. -/
def moment (l : List (Nat × Nat)) (k : Nat) : Nat :=
  (l.map fun e => (if e.1 = 0 then 1 else 2) * (e.2 * e.1 ^ k)).sum

/-- The shape of a table: lengths, signs, magnitudes, order. -/
def shapeCheck (d : GLData) : Bool :=
  d.x.length == d.order / 2 + d.order % 2 && d.w.length == d.order / 2 + d.order % 2 &&
  decide (2 ≤ d.order) &&
  ((d.x.zip d.w).all fun e => decide (0 ≤ e.1.m) && decide (e.1.e ≤ 40) && decide (0 < e.2.m)
    && decide (e.2.e ≤ 40)) &&
  (d.scaled.all fun e => decide (e.1 < 10 ^ 40)) &&
  decide (d.scaled.Pairwise fun e e' => e.1 < e'.1) &&
  (if d.order % 2 = 1 then (d.scaled.take 1).all fun e => e.1 == 0
    else d.scaled.all fun e => e.1 != 0)

/-- The even moments below `2 * n` agree with `2 / (k+1)` to `10^-t`. -/
def momentCheck (d : GLData) (n t : Nat) : Bool :=
  let l := d.scaled
  (List.range n).all fun j =>
    let k := 2 * j
    let s := (k + 1) * moment l k
    let u := 2 * 10 ^ (40 * (k + 1))
    decide (10 ^ t * (s - u) ≤ (k + 1) * 10 ^ (40 * (k + 1))) &&
    decide (10 ^ t * (u - s) ≤ (k + 1) * 10 ^ (40 * (k + 1)))

theorem supported_shape : ∀ d ∈ supported, d.shapeCheck = true := by
  decide +kernel

theorem supported_moment : ∀ d ∈ supported, d.momentCheck d.order 21 = true := by
  decide +kernel

/-- `shapeCheck`, read off. -/
theorem shape (d : GLData) (hd : d.shapeCheck = true) : d.Wf ∧
    (∀ e ∈ d.x.zip d.w, 0 ≤ e.1.m ∧ e.1.e ≤ 40 ∧ 0 < e.2.m ∧ e.2.e ≤ 40) ∧
    (∀ e ∈ d.scaled, e.1 < 10 ^ 40) ∧ (d.scaled.Pairwise fun e e' => e.1 < e'.1) ∧
    (d.order % 2 = 1 → ∀ e ∈ d.scaled.take 1, e.1 = 0) ∧
    (d.order % 2 = 0 → ∀ e ∈ d.scaled, e.1 ≠ 0) := by
  have h := hd
  unfold shapeCheck at h
  simp only [Bool.and_eq_true, beq_iff_eq, decide_eq_true_eq, List.all_eq_true] at h
  obtain ⟨⟨⟨⟨⟨⟨h1, h2⟩, h3⟩, h4⟩, h5⟩, h6⟩, h7⟩ := h
  refine ⟨⟨h1, h2, h3⟩, fun e he => ?_, h5, h6, fun ho e he => ?_, fun ho e he => ?_⟩
  · have := h4 e he
    exact ⟨this.1.1.1, this.1.1.2, this.1.2, this.2⟩
  · rw [if_pos ho] at h7
    simpa using List.all_eq_true.mp h7 e he
  · rw [if_neg (by omega)] at h7
    simpa using List.all_eq_true.mp h7 e he

theorem dec_scaled (x : Dec) (h : 0 ≤ x.m) (he : x.e ≤ 40) :
    (x.toScalar : ℝ) = ((x.m.toNat * 10 ^ (40 - x.e) : Nat) : ℝ) / 10 ^ 40 := by
  rw [x.toScalar_real]
  have h1 : ((x.m.toNat : ℤ) : ℝ) = (x.m : ℝ) := by congr 1; omega
  rw [Int.cast_natCast] at h1
  have h2 : (10 : ℝ) ^ 40 = 10 ^ (40 - x.e) * 10 ^ x.e := by
    rw [← pow_add]; congr 1; omega
  push_cast
  rw [h1, h2]
  field_simp

theorem nodes_scaled (d : GLData) (hd : d.shapeCheck = true) : d.nodes (α := ℝ) =
    d.scaled.map fun e => ((e.1 : ℝ) / 10 ^ 40, (e.2 : ℝ) / 10 ^ 40) := by
  obtain ⟨_, h, _⟩ := d.shape hd
  unfold nodes scaled
  rw [List.map_map]
  apply List.map_congr_left
  intro e he
  obtain ⟨h1, h2, h3, h4⟩ := h e he
  simp only [Function.comp]
  rw [dec_scaled e.1 h1 h2, dec_scaled e.2 h3.le h4]

/-- Nodes lie in `[0,1)` and weights are positive. -/
theorem nodes_bounds (d : GLData) (hd : d.shapeCheck = true) :
    ∀ e ∈ d.nodes (α := ℝ), 0 ≤ e.1 ∧ e.1 < 1 ∧ 0 < e.2 := by
  obtain ⟨_, h, hb, _⟩ := d.shape hd
  rw [d.nodes_scaled hd]
  intro e he
  obtain ⟨s, hs, rfl⟩ := List.mem_map.mp he
  refine ⟨by positivity, ?_, ?_⟩
  · rw [div_lt_one (by positivity)]
    have := hb s hs
    exact_mod_cast this
  · obtain ⟨t, ht, rfl⟩ := List.mem_map.mp hs
    have h3 := (h t ht).2.2.1
    have : 0 < t.2.m.toNat := by omega
    positivity

theorem full_mem (d : GLData) (e : ℝ × ℝ) (he : e ∈ d.full) :
    e ∈ d.nodes (α := ℝ) ∨ (-e.1, e.2) ∈ d.nodes (α := ℝ) := by
  rcases List.mem_append.mp he with h | h
  · split at h
    · exact .inl (List.mem_of_mem_take h)
    · cases h
  · obtain ⟨t, ht, h'⟩ := List.mem_flatMap.mp h
    have ht := List.mem_of_mem_drop ht
    rcases List.mem_cons.mp h' with rfl | h'
    · exact .inl ht
    · rcases List.mem_cons.mp h' with rfl | h'
      · right; simpa using ht
      · cases h'

theorem full_bounds (d : GLData) (hd : d.shapeCheck = true) :
    ∀ e ∈ d.full, -1 < e.1 ∧ e.1 < 1 ∧ 0 < e.2 := by
  intro e he
  rcases d.full_mem e he with h | h
  · obtain ⟨h1, h2, h3⟩ := d.nodes_bounds hd e h
    exact ⟨by linarith, h2, h3⟩
  · obtain ⟨h1, h2, h3⟩ := d.nodes_bounds hd _ h
    exact ⟨by linarith, by linarith, h3⟩

/-- The sum over all nodes as a sum over the table. -/
theorem wsum_full (d : GLData) (hd : d.shapeCheck = true) (g : ℝ → ℝ) :
    wsum d.full g = (d.scaled.map fun e => (if e.1 = 0 then (1 : ℝ) / 2 else 1) *
      ((e.2 : ℝ) / 10 ^ 40 * (g ((e.1 : ℝ) / 10 ^ 40) + g (-((e.1 : ℝ) / 10 ^ 40))))).sum := by
  obtain ⟨hw, _, _, hp, ho, he⟩ := d.shape hd
  have key : ∀ l : List (Nat × Nat), (∀ e ∈ l, e.1 ≠ 0) →
      wsum (mirror (l.map fun e => ((e.1 : ℝ) / 10 ^ 40, (e.2 : ℝ) / 10 ^ 40))) g =
      (l.map fun e => (if e.1 = 0 then (1 : ℝ) / 2 else 1) *
      ((e.2 : ℝ) / 10 ^ 40 * (g ((e.1 : ℝ) / 10 ^ 40) + g (-((e.1 : ℝ) / 10 ^ 40))))).sum := by
    intro l hl
    rw [wsum_mirror, wsum, List.map_map]
    congr 1
    apply List.map_congr_left
    intro e he
    rw [if_neg (hl e he)]
    simp only [Function.comp]; ring
  unfold full
  rw [d.nodes_scaled hd]
  by_cases h1 : d.order % 2 = 1
  · rw [h1, if_pos rfl]
    have ho := ho h1
    match hs : d.scaled with
    | [] =>
      have := d.nodes_length hw
      rw [d.nodes_scaled hd, hs] at this
      simp at this; omega
    | e :: t =>
      rw [hs] at ho hp
      have h0 : e.1 = 0 := ho e (by simp)
      have hpos : ∀ e' ∈ t, e'.1 ≠ 0 := by
        intro e' he'
        have := (List.pairwise_cons.mp hp).1 e' he'
        omega
      simp only [List.map_cons, List.take_succ_cons, List.take_zero, List.drop_succ_cons,
        List.drop_zero, List.singleton_append, wsum_cons, List.sum_cons]
      rw [key t hpos, h0]
      simp only [if_true]
      simp; ring
  · have h0 : d.order % 2 = 0 := by omega
    rw [if_neg h1, h0, List.drop_zero, List.nil_append, key _ (he h0)]

/-- The rule is symmetric. -/
theorem wsum_full_neg (d : GLData) (hd : d.shapeCheck = true) (g : ℝ → ℝ) :
    wsum d.full (fun x => g (-x)) = wsum d.full g := by
  rw [d.wsum_full hd, d.wsum_full hd]
  congr 1
  apply List.map_congr_left
  intro e _
  rw [neg_neg, add_comm (g (-_))]

/-- Odd moments vanish. -/
theorem moment_odd (d : GLData) (hd : d.shapeCheck = true) (k : Nat) (hk : k % 2 = 1) :
    wsum d.full (fun x => x ^ k) = 0 := by
  have h := d.wsum_full_neg hd (fun x => x ^ k)
  have e : (fun x : ℝ => (-x) ^ k) = fun x => (-1) * x ^ k := by
    funext x
    rw [Odd.neg_pow (Nat.odd_iff.mpr hk)]; ring
  rw [e, wsum_smul] at h
  linarith

theorem moment_bound (S K T t : Nat) (hK : 0 < K) (hT : 0 < T)
    (c1 : 10 ^ t * (K * S - 2 * T) ≤ K * T) (c2 : 10 ^ t * (2 * T - K * S) ≤ K * T) :
    |(S : ℝ) / T - 2 / K| ≤ (10 ^ t)⁻¹ := by
  have c1' : (10 : ℝ) ^ t * (K * S - 2 * T) ≤ K * T := by
    rw [Nat.mul_sub, Nat.sub_le_iff_le_add] at c1
    have : ((10 ^ t * (K * S) : Nat) : ℝ) ≤ ((K * T + 10 ^ t * (2 * T) : Nat) : ℝ) := by
      exact_mod_cast c1
    push_cast at this
    linarith
  have c2' : (10 : ℝ) ^ t * (2 * T - K * S) ≤ K * T := by
    rw [Nat.mul_sub, Nat.sub_le_iff_le_add] at c2
    have : ((10 ^ t * (2 * T) : Nat) : ℝ) ≤ ((K * T + 10 ^ t * (K * S) : Nat) : ℝ) := by
      exact_mod_cast c2
    push_cast at this
    linarith
  have hk : (0 : ℝ) < K := by exact_mod_cast hK
  have ht : (0 : ℝ) < T := by exact_mod_cast hT
  have e2 : (S : ℝ) / T - 2 / K = (K * S - 2 * T) / (T * K) := by field_simp
  rw [e2, abs_div, abs_of_pos (mul_pos ht hk), div_le_iff₀ (mul_pos ht hk), abs_le]
  have h0 : (0 : ℝ) < 10 ^ t := by positivity
  rw [le_inv_mul_iff₀ h0, ← mul_neg, mul_comm _⁻¹, ← div_eq_mul_inv, div_le_iff₀ h0]
  constructor <;> linarith

/-- Even moments are those of the interval, up to `10^-t`. -/
theorem moment_even (d : GLData) (hd : d.shapeCheck = true) (n t : Nat) (hc : d.momentCheck n t = true)
    (j : Nat) (hj : j < n) :
    |wsum d.full (fun x => x ^ (2 * j)) - 2 / (2 * j + 1)| ≤ (10 ^ t)⁻¹ := by
  unfold momentCheck at hc
  simp only [List.all_eq_true, List.mem_range, Bool.and_eq_true, decide_eq_true_eq] at hc
  obtain ⟨c1, c2⟩ := hc j hj
  have hS : wsum d.full (fun x => x ^ (2 * j)) =
      (moment d.scaled (2 * j) : ℝ) / 10 ^ (40 * (2 * j + 1)) := by
    rw [d.wsum_full hd, moment]
    generalize d.scaled = l
    induction l with
    | nil => simp
    | cons e l ih =>
      simp only [List.map_cons, List.sum_cons]
      rw [ih, Nat.cast_add, add_div]
      congr 1
      have e1 : (10 : ℝ) ^ (40 * (2 * j + 1)) = (10 ^ 40) ^ (2 * j) * 10 ^ 40 := by
        rw [← pow_mul, ← pow_add]; congr 1
      rw [e1, Even.neg_pow (by simp), div_pow]
      push_cast
      split <;> field_simp <;> ring
  rw [hS]
  have := moment_bound (moment d.scaled (2 * j)) (2 * j + 1) (10 ^ (40 * (2 * j + 1)))
    t (by omega) (by positivity) c1 c2
  push_cast at this
  exact this

end GLData

end Catima
