import Verif.Lemmas.Kronrod

/-!
# C31-C34: the integrators

`α = ℝ`.  The integrand may fault; `total g` is an integrand that does not.
-/

namespace Catima

/-! ## C31 -/

/-- `integrate` reads the integrand only at the nodes. -/
theorem gl_integrate_congr (d : GLData) (f f' : ℝ → M ℝ) (a b : ℝ)
    (h : ∀ e ∈ d.full, f ((b - a) / 2 * e.1 + (b + a) / 2) = f' ((b - a) / 2 * e.1 + (b + a) / 2)) :
    d.integrate f a b = d.integrate f' a b := by
  have hp : (0.5 : ℝ) * (b - a) = (b - a) / 2 := by norm_num; ring
  have hq : (0.5 : ℝ) * (b + a) = (b + a) / 2 := by norm_num; ring
  have key : ∀ (l : List (ℝ × ℝ)) (r : ℝ), (∀ e ∈ mirror l,
      f ((b - a) / 2 * e.1 + (b + a) / 2) = f' ((b - a) / 2 * e.1 + (b + a) / 2)) →
      l.foldlM (GLData.step f ((b - a) / 2) ((b + a) / 2)) r =
      l.foldlM (GLData.step f' ((b - a) / 2) ((b + a) / 2)) r := by
    intro l
    induction l with
    | nil => intro r _; rfl
    | cons e l ih =>
      intro r hl
      have hm : mirror (e :: l) = (e.1, e.2) :: (-e.1, e.2) :: mirror l := rfl
      have h1 := hl (e.1, e.2) (by simp [hm])
      have h2 := hl (-e.1, e.2) (by simp [hm])
      have e2 : (b - a) / 2 * -e.1 = -((b - a) / 2) * e.1 := by ring
      simp only [e2] at h1 h2
      rw [List.foldlM_cons, List.foldlM_cons]
      have hs : GLData.step f ((b - a) / 2) ((b + a) / 2) r e =
          GLData.step f' ((b - a) / 2) ((b + a) / 2) r e := by
        unfold GLData.step; rw [h1, h2]
      rw [hs]
      congr 1
      funext r'
      exact ih r' fun e' he => hl e' (by simp [hm, he])
  unfold GLData.integrate
  simp only [hp, hq]
  unfold GLData.full at h
  by_cases ho : d.order % 2 = 1
  · simp only [ho, if_true] at h ⊢
    match hn : d.nodes (α := ℝ) with
    | [] => rfl
    | (x0, w0) :: t =>
      rw [hn] at h
      have h0 := h (x0, w0) (by simp)
      simp only at h0 ⊢
      rw [h0]
      congr 1
      funext r
      simp only [List.drop_succ_cons, List.drop_zero]
      change (List.foldlM (GLData.step f _ _) (0.0 + w0 * r) t >>= _ : M ℝ) =
        (List.foldlM (GLData.step f' _ _) (0.0 + w0 * r) t >>= _ : M ℝ)
      rw [key t _ fun e he => h e (by simp [he])]
  · have hz : d.order % 2 = 0 := by omega
    simp only [hz] at h ⊢
    rw [if_neg (by decide), if_neg (by decide)]
    change (List.foldlM (GLData.step f _ _) (0.0 : ℝ) (List.drop 0 _) >>= _ : M ℝ) =
      (List.foldlM (GLData.step f' _ _) (0.0 : ℝ) (List.drop 0 _) >>= _ : M ℝ)
    rw [key _ _ fun e he => h e (by simpa using he)]

theorem node_mem (a b x : ℝ) (h1 : -1 < x) (h2 : x < 1) :
    (b - a) / 2 * x + (b + a) / 2 ∈ Set.uIcc a b := by
  rw [Set.mem_uIcc]
  rcases le_total a b with h | h
  · left; constructor <;> nlinarith
  · right; constructor <;> nlinarith

/-- C31: `integrate` evaluates the integrand only inside `[a,b]`: integrands that agree there (in
value or in fault) give the same outcome. -/
theorem gl_inside (d : GLData) (hd : d ∈ GLData.supported) (f f' : ℝ → M ℝ) (a b : ℝ)
    (h : ∀ x ∈ Set.uIcc a b, f x = f' x) : d.integrate f a b = d.integrate f' a b :=
  gl_integrate_congr d f f' a b fun e he =>
    have hb := d.full_bounds (GLData.supported_shape d hd) e he
    h _ (node_mem a b e.1 hb.1 hb.2.1)

/-- C31: if the integrand does not fault on `[a,b]`, neither does `integrate`. -/
theorem gl_defined (d : GLData) (hd : d ∈ GLData.supported) (f : ℝ → M ℝ) (a b : ℝ)
    (h : ∀ x ∈ Set.uIcc a b, ∃ v, f x = .ok v) : ∃ v, d.integrate f a b = .ok v := by
  choose! g hg using h
  exact ⟨_, d.integrate_eq (d.shape (GLData.supported_shape d hd)).1 f g a b fun e he =>
    have hb := d.full_bounds (GLData.supported_shape d hd) e he
    hg _ (node_mem a b e.1 hb.1 hb.2.1)⟩

/-- The value of `integrate` on a total integrand. -/
theorem gl_value (d : GLData) (hd : d ∈ GLData.supported) (g : ℝ → ℝ) (a b : ℝ) :
    d.integrate (total g) a b =
      .ok ((b - a) / 2 * wsum d.full fun x => g ((b - a) / 2 * x + (b + a) / 2)) :=
  d.integrate_eq (d.shape (GLData.supported_shape d hd)).1 _ g a b fun _ _ => rfl

/-- C31: linear in the integrand. -/
theorem gl_linear (d : GLData) (hd : d ∈ GLData.supported) (g h : ℝ → ℝ) (c a b : ℝ) :
    ∃ Ig Ih, d.integrate (total g) a b = .ok Ig ∧ d.integrate (total h) a b = .ok Ih ∧
      d.integrate (total fun x => c * g x + h x) a b = .ok (c * Ig + Ih) := by
  refine ⟨_, _, gl_value d hd g a b, gl_value d hd h a b, ?_⟩
  rw [gl_value d hd, wsum_add, wsum_smul]
  congr 1; ring

/-- C31: swapping the bounds changes the sign. -/
theorem gl_antisymm (d : GLData) (hd : d ∈ GLData.supported) (g : ℝ → ℝ) (a b : ℝ) :
    ∃ I, d.integrate (total g) a b = .ok I ∧ d.integrate (total g) b a = .ok (-I) := by
  refine ⟨_, gl_value d hd g a b, ?_⟩
  rw [gl_value d hd]
  have h := d.wsum_full_neg (GLData.supported_shape d hd) (fun x => g ((b - a) / 2 * x + (b + a) / 2))
  rw [← h]
  have e : (fun x : ℝ => g ((b - a) / 2 * -x + (b + a) / 2)) =
      fun x => g ((a - b) / 2 * x + (a + b) / 2) := by
    funext x; congr 1; ring
  rw [e]
  congr 1; ring

/-- C31: monotone in the integrand. -/
theorem gl_mono (d : GLData) (hd : d ∈ GLData.supported) (g h : ℝ → ℝ) (a b : ℝ) (hab : a ≤ b)
    (hgh : ∀ x ∈ Set.Icc a b, g x ≤ h x) :
    ∃ Ig Ih, d.integrate (total g) a b = .ok Ig ∧ d.integrate (total h) a b = .ok Ih ∧ Ig ≤ Ih := by
  refine ⟨_, _, gl_value d hd g a b, gl_value d hd h a b, ?_⟩
  apply mul_le_mul_of_nonneg_left _ (by linarith)
  have h0 : 0 ≤ wsum d.full (fun x => h ((b - a) / 2 * x + (b + a) / 2) +
      (-1) * g ((b - a) / 2 * x + (b + a) / 2)) := by
    apply wsum_nonneg
    · intro e he; exact (d.full_bounds (GLData.supported_shape d hd) e he).2.2.le
    · intro e he
      have hb := d.full_bounds (GLData.supported_shape d hd) e he
      have hm := node_mem a b e.1 hb.1 hb.2.1
      rw [Set.uIcc_of_le hab] at hm
      have := hgh _ hm
      linarith
  rw [wsum_add, wsum_smul] at h0
  linarith

/-- C31: non-negative integrands have non-negative integrals, for `a ≤ b`. -/
theorem gl_nonneg (d : GLData) (hd : d ∈ GLData.supported) (f : ℝ → M ℝ) (a b : ℝ) (hab : a ≤ b)
    (h : ∀ x ∈ Set.Icc a b, ∃ v, f x = .ok v ∧ 0 ≤ v) :
    ∃ I, d.integrate f a b = .ok I ∧ 0 ≤ I := by
  choose! g hg using h
  have hm : ∀ e ∈ d.full, (b - a) / 2 * e.1 + (b + a) / 2 ∈ Set.Icc a b := by
    intro e he
    have hb := d.full_bounds (GLData.supported_shape d hd) e he
    rw [← Set.uIcc_of_le hab]
    exact node_mem a b e.1 hb.1 hb.2.1
  refine ⟨_, d.integrate_eq (d.shape (GLData.supported_shape d hd)).1 f g a b fun e he => (hg _ (hm e he)).1, ?_⟩
  apply mul_nonneg (by linarith)
  apply wsum_nonneg
  · intro e he; exact (d.full_bounds (GLData.supported_shape d hd) e he).2.2.le
  · intro e he; exact (hg _ (hm e he)).2

/-- C31: a constant is integrated to `c (b-a)`, with relative error below `10^-15`. -/
theorem gl_const (d : GLData) (hd : d ∈ GLData.supported) (c a b : ℝ) :
    ∃ I, d.integrate (total fun _ => c) a b = .ok I ∧
      |I - c * (b - a)| ≤ 1e-15 * |c * (b - a)| := by
  refine ⟨_, gl_value d hd _ a b, ?_⟩
  have hm := d.moment_even (GLData.supported_shape d hd) _ _ (GLData.supported_moment d hd) 0
    (by have := (d.shape (GLData.supported_shape d hd)).1.big; omega)
  have e : (fun _ : ℝ => c) = fun _ => c * (fun _ : ℝ => (1 : ℝ)) 0 := by funext; simp
  have e1 : wsum d.full (fun _ => c) = c * wsum d.full (fun _ => 1) := by
    rw [← wsum_smul]; simp
  simp only [pow_zero, Nat.cast_zero, mul_zero, zero_add, div_one] at hm
  have e2 : (b - a) / 2 * wsum d.full (fun _ => c) - c * (b - a) =
      c * (b - a) * ((wsum d.full (fun _ => 1) - 2) / 2) := by
    rw [e1]; ring
  rw [e2, abs_mul, mul_comm]
  apply mul_le_mul_of_nonneg_right _ (abs_nonneg _)
  rw [abs_div]
  norm_num at hm ⊢
  linarith

example : GL_data8 ∈ GLData.supported ∧ GL_data5 ∈ GLData.supported := by
  simp [GLData.supported]

/-- A non-trivial instance: the integrand `x ↦ x^2`, which faults for negative arguments,
between 1 and 3. -/
example : ∃ v, integrator.integrate (fun x : ℝ => if x < 0 then .error .badCast else .ok (x * x)) 1 3
    = .ok v ∧ 0 ≤ v := by
  apply gl_nonneg _ (by simp [GLData.supported, integrator]) _ _ _ (by norm_num)
  intro x hx
  exact ⟨x * x, if_neg (by linarith [hx.1]), mul_self_nonneg x⟩

/-! ## C32 -/

/-- C32: for every polynomial of degree at most `2n-1` the result differs from the integral by at
most `10^-21 |b-a|/2` times the sum of the absolute values of the coefficients of the polynomial
in the variable that runs from -1 to 1 over the interval. -/
theorem gl_polynomial (d : GLData) (hd : d ∈ GLData.supported) (P : Polynomial ℝ)
    (hP : P.natDegree ≤ 2 * d.order - 1) (a b : ℝ) :
    ∃ I, d.integrate (total fun x => P.eval x) a b = .ok I ∧
      |I - ∫ x in a..b, P.eval x| ≤ 1e-21 * (|b - a| / 2) *
        ∑ k ∈ Finset.range (2 * d.order),
          |(P.comp (Polynomial.C ((b - a) / 2) * Polynomial.X
            + Polynomial.C ((b + a) / 2))).coeff k| := by
  have hbig := (d.shape (GLData.supported_shape d hd)).1.big
  refine ⟨_, gl_value d hd _ a b, ?_⟩
  have h := d.poly_error (GLData.supported_shape d hd) d.order 21 (GLData.supported_moment d hd) P
    (by omega) a b
  have e : ((10 : ℝ) ^ 21)⁻¹ = 1e-21 := by norm_num
  rw [e] at h
  exact h

/-- C32 is not vacuous: `x^15` with the library's rule of order 8. -/
example : (Polynomial.X ^ 15 : Polynomial ℝ).natDegree ≤ 2 * integrator.order - 1 := by
  rw [Polynomial.natDegree_X_pow]; decide

/-! ## C33 -/

/-- The loop of `get_points` after `m` turns. -/
noncomputable def fillPts (xs : List Dec) (p q : ℝ) (num order m : Nat) : List (Option ℝ) :=
  (List.range m).foldl (fun (pts : List (Option ℝ)) i =>
      match xs[i]? with
      | none => pts
      | some x => (pts.set (num - i - 1) (some (-p * x.toScalar + q))).set (num + i)
          (some (p * x.toScalar + q)))
      (List.replicate order none)

theorem gl_get_points_eq (d : GLData) (a b : ℝ) : d.get_points a b =
    fillPts d.x ((b - a) / 2) ((b + a) / 2) (d.order / 2) d.order (d.order / 2) := by
  have hp : (0.5 : ℝ) * (b - a) = (b - a) / 2 := by norm_num; ring
  have hq : (0.5 : ℝ) * (b + a) = (b + a) / 2 := by norm_num; ring
  rw [← hp, ← hq]; rfl

theorem gk_get_points_eq (d : GKData) (a b : ℝ) : d.get_points a b =
    fillPts d.x ((b - a) / 2) ((b + a) / 2) (d.order / 2) d.order (d.order / 2) := by
  have hp : (0.5 : ℝ) * (b - a) = (b - a) / 2 := by norm_num; ring
  have hq : (0.5 : ℝ) * (b + a) = (b + a) / 2 := by norm_num; ring
  rw [← hp, ← hq]; rfl

theorem fill_points (xs : List Dec) (p q : ℝ) (num order m : Nat) (hm : m ≤ num)
    (hx : num ≤ xs.length) :
    (fillPts xs p q num order m).length = order ∧
    ∀ j, j < order → (fillPts xs p q num order m)[j]? = some (
      if num - m ≤ j ∧ j < num then some (-p * (xs.getD (num - 1 - j) ⟨0, 0⟩).toScalar + q)
      else if num ≤ j ∧ j < num + m then some (p * (xs.getD (j - num) ⟨0, 0⟩).toScalar + q)
      else none) := by
  induction m with
  | zero =>
    simp only [fillPts, List.range_zero, List.foldl_nil, List.length_replicate, true_and]
    intro j hj
    rw [if_neg (by omega), if_neg (by omega)]
    simp [hj]
  | succ m ih =>
    obtain ⟨h1, h2⟩ := ih (by omega)
    have hml : m < xs.length := by omega
    have e : xs[m]? = some xs[m] := by simp [hml]
    have hstep : fillPts xs p q num order (m + 1) = ((fillPts xs p q num order m).set (num - m - 1)
        (some (-p * xs[m].toScalar + q))).set (num + m) (some (p * xs[m].toScalar + q)) := by
      simp only [fillPts, List.range_succ, List.foldl_append, List.foldl_cons, List.foldl_nil, e]
    rw [hstep]
    refine ⟨by rw [List.length_set, List.length_set]; exact h1, fun j hj => ?_⟩
    rw [List.getElem?_set, List.getElem?_set]
    simp only [List.length_set, h1]
    by_cases c1 : num + m = j
    · subst c1
      rw [if_pos rfl, if_pos (by omega), if_neg (by omega), if_pos (by omega)]
      simp [hml]
    · rw [if_neg c1]
      by_cases c2 : num - m - 1 = j
      · rw [if_pos c2, if_pos (by omega), if_pos (by omega)]
        have e2 : num - 1 - j = m := by omega
        simp [e2, hml]
      · rw [if_neg c2, h2 j hj]
        congr 1
        by_cases c3 : num - m ≤ j ∧ j < num
        · rw [if_pos c3, if_pos (by omega)]
        · rw [if_neg c3, if_neg (show ¬ (num - (m + 1) ≤ j ∧ j < num) by omega)]
          by_cases c4 : num ≤ j ∧ j < num + m
          · rw [if_pos c4, if_pos (by omega)]
          · rw [if_neg c4, if_neg (by omega)]

/-- The points and weights of an even rule from left to right. -/
theorem gl_even_points (d : GLData) (hd : d ∈ GLData.supported) (he : d.order % 2 = 0) (a b : ℝ) :
    d.get_points a b = (((d.nodes (α := ℝ)).reverse.map fun e => (b - a) / 2 * -e.1 + (b + a) / 2) ++
      ((d.nodes (α := ℝ)).map fun e => (b - a) / 2 * e.1 + (b + a) / 2)).map some := by
  obtain ⟨hw, _⟩ := d.shape (GLData.supported_shape d hd)
  have hl := d.nodes_length hw
  have hx := hw.len
  have hwl := hw.lenw
  obtain ⟨h1, h2⟩ := fill_points d.x ((b - a) / 2) ((b + a) / 2) (d.order / 2) d.order (d.order / 2)
    (le_refl _) (by omega)
  rw [gl_get_points_eq]
  apply List.ext_getElem?
  intro j
  have hnode : ∀ i (hi : i < d.order / 2), (d.nodes (α := ℝ))[i]? =
      some ((d.x[i]'(by omega)).toScalar, (d.w[i]'(by omega)).toScalar) := by
    intro i hi
    unfold GLData.nodes
    rw [List.getElem?_map, List.getElem?_eq_getElem (by simp; omega)]
    simp
  by_cases hj : j < d.order
  · rw [h2 j hj, List.getElem?_map]
    by_cases c : j < d.order / 2
    · rw [if_pos (by omega), List.getElem?_append_left (by simp [hl]; omega), List.getElem?_map,
        List.getElem?_reverse (by omega), hl]
      have e : d.order / 2 + d.order % 2 - 1 - j = d.order / 2 - 1 - j := by omega
      rw [e, hnode _ (by omega)]
      have hlt : d.order / 2 - 1 - j < d.x.length := by omega
      simp [hlt]
    · rw [if_neg (by omega), if_pos (by omega), List.getElem?_append_right (by simp [hl]; omega),
        List.getElem?_map, List.length_map, List.length_reverse, hl]
      have e : j - (d.order / 2 + d.order % 2) = j - d.order / 2 := by omega
      rw [e, hnode _ (by omega)]
      have hlt : j - d.order / 2 < d.x.length := by omega
      simp [hlt]
  · rw [List.getElem?_eq_none (by rw [h1]; omega), List.getElem?_eq_none (by simp [hl]; omega)]

theorem nodes_sorted (d : GLData) (hd : d ∈ GLData.supported) :
    (d.nodes (α := ℝ)).Pairwise fun e e' => e.1 < e'.1 := by
  rw [d.nodes_scaled (GLData.supported_shape d hd), List.pairwise_map]
  refine (d.shape (GLData.supported_shape d hd)).2.2.2.1.imp ?_
  intro e e' h
  have : (e.1 : ℝ) < e'.1 := by exact_mod_cast h
  simp only
  gcongr

theorem even_nodes_pos (d : GLData) (hd : d ∈ GLData.supported) (he : d.order % 2 = 0) :
    ∀ e ∈ d.nodes (α := ℝ), 0 < e.1 := by
  rw [d.nodes_scaled (GLData.supported_shape d hd)]
  intro e h
  obtain ⟨s, hs, rfl⟩ := List.mem_map.mp h
  have h0 : 0 < s.1 := Nat.pos_of_ne_zero ((d.shape (GLData.supported_shape d hd)).2.2.2.2.2 he s hs)
  have : (0 : ℝ) < s.1 := by exact_mod_cast h0
  positivity

/-- If `integrate` returns a value, the integrand was defined at every node. -/
theorem gl_needs_all (d : GLData) (f : ℝ → M ℝ) (a b v : ℝ) (he : d.order % 2 = 0)
    (h : d.integrate f a b = .ok v) :
    ∀ e ∈ d.full, ∃ y, f ((b - a) / 2 * e.1 + (b + a) / 2) = .ok y := by
  have hp : (0.5 : ℝ) * (b - a) = (b - a) / 2 := by norm_num; ring
  have hq : (0.5 : ℝ) * (b + a) = (b + a) / 2 := by norm_num; ring
  unfold GLData.integrate at h
  simp only [hp, hq, he] at h
  rw [if_neg (by decide)] at h
  have key : ∀ (l : List (ℝ × ℝ)) (r : ℝ) (s : ℝ),
      l.foldlM (GLData.step f ((b - a) / 2) ((b + a) / 2)) r = .ok s →
      ∀ e ∈ mirror l, ∃ y, f ((b - a) / 2 * e.1 + (b + a) / 2) = .ok y := by
    intro l
    induction l with
    | nil => intro r s _ e he; cases he
    | cons e l ih =>
      intro r s hs e' he'
      rw [List.foldlM_cons] at hs
      unfold GLData.step at hs
      have hm : mirror (e :: l) = (e.1, e.2) :: (-e.1, e.2) :: mirror l := rfl
      rw [hm] at he'
      have e2 : (b - a) / 2 * -e.1 = -((b - a) / 2) * e.1 := by ring
      cases h1 : f ((b - a) / 2 * e.1 + (b + a) / 2) with
      | error x => rw [h1] at hs; cases hs
      | ok v1 =>
        cases h2 : f (-((b - a) / 2) * e.1 + (b + a) / 2) with
        | error x => rw [h1, h2] at hs; cases hs
        | ok v2 =>
          rw [h1, h2] at hs
          rcases List.mem_cons.mp he' with rfl | he'
          · exact ⟨v1, h1⟩
          · rcases List.mem_cons.mp he' with rfl | he'
            · exact ⟨v2, by rw [e2]; exact h2⟩
            · exact ih _ _ hs e' he'
  have hfull : d.full = mirror (d.nodes (α := ℝ)) := by simp [GLData.full, he]
  rw [hfull]
  change (List.foldlM (GLData.step f _ _) (0.0 : ℝ) (List.drop 0 _) >>= _ : M ℝ) = _ at h
  rw [List.drop_zero] at h
  cases hs : List.foldlM (GLData.step f ((b - a) / 2) ((b + a) / 2)) (0.0 : ℝ)
      (d.nodes (α := ℝ)) with
  | error x => rw [hs] at h; cases h
  | ok s => exact key _ _ _ hs

theorem zip_sum_eq (l l' : List ℝ) (g : ℝ → ℝ) :
    (List.zipWith (fun x w => w * g x) l l').sum = wsum (l.zip l') g := by
  unfold wsum
  congr 1
  simp [List.zip, List.map_zipWith]

theorem wsum_append (l l' : List (ℝ × ℝ)) (g : ℝ → ℝ) : wsum (l ++ l') g = wsum l g + wsum l' g := by
  simp [wsum]

theorem wsum_reverse (l : List (ℝ × ℝ)) (g : ℝ → ℝ) : wsum l.reverse g = wsum l g := by
  simp [wsum, List.sum_reverse]

theorem wsum_map (l : List (ℝ × ℝ)) (k : ℝ → ℝ) (g : ℝ → ℝ) :
    wsum (l.map fun e => (k e.1, e.2)) g = wsum l fun x => g (k x) := by
  simp [wsum, List.map_map, Function.comp_def]

/-- C33, even orders: `get_points` returns `n` initialised abscissas, increasing for `a < b`;
`integrate` is a positively weighted sum of the values of the integrand at exactly these points
and is defined exactly when the integrand is defined at all of them. -/
theorem gl_get_points_partial (d : GLData) (hd : d ∈ GLData.supported) (he : d.order % 2 = 0)
    (a b : ℝ) :
    ∃ pts ws : List ℝ, d.get_points a b = pts.map some ∧ pts.length = d.order ∧
      ws.length = d.order ∧ (∀ w ∈ ws, 0 < w) ∧ (a < b → pts.Pairwise (· < ·)) ∧
      (∀ (f : ℝ → M ℝ) (g : ℝ → ℝ), (∀ x ∈ pts, f x = .ok (g x)) →
        d.integrate f a b = .ok ((b - a) / 2 * (List.zipWith (fun x w => w * g x) pts ws).sum)) ∧
      (∀ (f : ℝ → M ℝ) (v : ℝ), d.integrate f a b = .ok v → ∀ x ∈ pts, ∃ y, f x = .ok y) := by
  obtain ⟨hw, _⟩ := d.shape (GLData.supported_shape d hd)
  have hl := d.nodes_length hw
  have hb := d.nodes_bounds (GLData.supported_shape d hd)
  set N := d.nodes (α := ℝ) with hN
  have hfull : d.full = mirror N := by simp [GLData.full, he, hN]
  have hpts := gl_even_points d hd he a b
  rw [← hN] at hpts
  have hmem : ∀ x, x ∈ (N.reverse.map fun e => (b - a) / 2 * -e.1 + (b + a) / 2) ++
      (N.map fun e => (b - a) / 2 * e.1 + (b + a) / 2) ↔
      ∃ e ∈ mirror N, x = (b - a) / 2 * e.1 + (b + a) / 2 := by
    intro x
    simp only [List.mem_append, List.mem_map, List.mem_reverse]
    constructor
    · rintro (⟨e, h1, h2⟩ | ⟨e, h1, h2⟩)
      · exact ⟨(-e.1, e.2), List.mem_flatMap.mpr ⟨e, h1, by simp⟩, h2.symm⟩
      · exact ⟨e, List.mem_flatMap.mpr ⟨e, h1, by simp⟩, h2.symm⟩
    · rintro ⟨e, h1, rfl⟩
      obtain ⟨t, ht, h'⟩ := List.mem_flatMap.mp h1
      rcases List.mem_cons.mp h' with rfl | h'
      · exact .inr ⟨_, ht, rfl⟩
      · rcases List.mem_cons.mp h' with rfl | h'
        · exact .inl ⟨_, ht, rfl⟩
        · cases h'
  refine ⟨_, (N.reverse.map fun e => e.2) ++ N.map fun e => e.2,
    hpts, by simp [hl]; omega, by simp [hl]; omega, ?_, ?_, ?_, ?_⟩
  · intro w h
    simp only [List.mem_append, List.mem_map, List.mem_reverse] at h
    rcases h with ⟨e, h1, rfl⟩ | ⟨e, h1, rfl⟩ <;> exact (hb e h1).2.2
  · intro hab
    have hs := nodes_sorted d hd
    have hp0 := even_nodes_pos d hd he
    rw [List.pairwise_append]
    refine ⟨?_, ?_, ?_⟩
    · rw [List.pairwise_map, List.pairwise_reverse]
      refine hs.imp ?_
      intro e e' h; nlinarith
    · rw [List.pairwise_map]
      refine hs.imp ?_
      intro e e' h; nlinarith
    · intro x hx y hy
      obtain ⟨e, h1, rfl⟩ := List.mem_map.mp hx
      obtain ⟨e', h2, rfl⟩ := List.mem_map.mp hy
      have p1 := hp0 e (by simpa using h1)
      have p2 := hp0 e' h2
      nlinarith
  · intro f g hfg
    rw [d.integrate_eq hw f g a b, hfull]
    · congr 2
      rw [zip_sum_eq, List.zip_append (by simp), wsum_append]
      have z1 : ((N.reverse.map fun e => (b - a) / 2 * -e.1 + (b + a) / 2).zip
          (N.reverse.map fun e => e.2)) =
          N.reverse.map fun e => ((b - a) / 2 * -e.1 + (b + a) / 2, e.2) := by
        rw [List.zip_map']
      have z2 : ((N.map fun e => (b - a) / 2 * e.1 + (b + a) / 2).zip (N.map fun e => e.2)) =
          N.map fun e => ((b - a) / 2 * e.1 + (b + a) / 2, e.2) := by
        rw [List.zip_map']
      rw [z1, z2, wsum_map _ (fun x => (b - a) / 2 * -x + (b + a) / 2),
        wsum_map _ (fun x => (b - a) / 2 * x + (b + a) / 2), wsum_reverse, wsum_mirror, wsum_add]
      exact add_comm _ _
    · intro e h
      rw [hfull] at h
      exact hfg _ ((hmem _).mpr ⟨e, h, rfl⟩)
  · intro f v hv x hx
    obtain ⟨e, h1, rfl⟩ := (hmem x).mp hx
    exact gl_needs_all d f a b v he hv e (by rw [hfull]; exact h1)

example : GL_data8.order % 2 = 0 := rfl

/-- C33 refuted for odd orders: the last entry of the array is never assigned. -/
theorem gl_get_points_odd (d : GLData) (hd : d ∈ GLData.supported) (ho : d.order % 2 = 1)
    (a b : ℝ) : (d.get_points a b).length = d.order ∧
      (d.get_points a b)[d.order - 1]? = some none := by
  obtain ⟨hw, _⟩ := d.shape (GLData.supported_shape d hd)
  have hx := hw.len
  obtain ⟨h1, h2⟩ := fill_points d.x ((b - a) / 2) ((b + a) / 2) (d.order / 2) d.order (d.order / 2)
    (le_refl _) (by omega)
  rw [gl_get_points_eq]
  refine ⟨h1, ?_⟩
  rw [h2 (d.order - 1) (by omega), if_neg (by omega), if_neg (by omega)]

example : GL_data5 ∈ GLData.supported ∧ GL_data5.order % 2 = 1 := by simp [GLData.supported, GL_data5]

/-- C33 refuted for every Gauss-Kronrod rule: the last entry of the array is never assigned, and
the centre point is returned twice. -/
theorem gk_get_points_wrong (d : GKData) (hd : d ∈ GKData.supported) (a b : ℝ) :
    (d.get_points a b).length = d.order ∧ (d.get_points a b)[d.order - 1]? = some none ∧
    (d.get_points a b)[d.order / 2 - 1]? = (d.get_points a b)[d.order / 2]? := by
  have hs : d.order % 2 = 1 ∧ 2 ≤ d.order / 2 ∧ d.order / 2 ≤ d.x.length ∧
      (d.x.getD 0 ⟨0, 0⟩).m = 0 := by
    have : ∀ d ∈ GKData.supported, d.order % 2 = 1 ∧ 2 ≤ d.order / 2 ∧
      d.order / 2 ≤ d.x.length ∧ (d.x.getD 0 ⟨0, 0⟩).m = 0 := by decide +kernel
    exact this d hd
  obtain ⟨ho, hbig, hx, h0⟩ := hs
  obtain ⟨h1, h2⟩ := fill_points d.x ((b - a) / 2) ((b + a) / 2) (d.order / 2) d.order (d.order / 2)
    (le_refl _) (by omega)
  rw [gk_get_points_eq]
  refine ⟨h1, ?_, ?_⟩
  · rw [h2 (d.order - 1) (by omega), if_neg (by omega), if_neg (by omega)]
  · rw [h2 _ (by omega), h2 _ (by omega), if_pos (by omega), if_neg (by omega), if_pos (by omega)]
    have e1 : d.order / 2 - 1 - (d.order / 2 - 1) = 0 := by omega
    have e2 : d.order / 2 - d.order / 2 = 0 := by omega
    rw [e1, e2, Dec.toScalar_real, h0]
    simp

/-! ## C34 -/

/-- C34: the adaptive integration evaluates the integrand only inside `[a,b]`. -/
theorem gk_inside (d : GKData) (hd : d ∈ GKData.supported) (f f' : ℝ → M ℝ) (a b eps rprec : ℝ)
    (h : ∀ x ∈ Set.uIcc a b, f x = f' x) :
    d.integrate_adaptive f a b eps rprec = d.integrate_adaptive f' a b eps rprec :=
  d.adaptive_congr hd f f' 49 a b eps rprec h

/-- C34: for an integrand defined on `[a,b]` the adaptive integration ends with a value: the sum of
the rule over finitely many cells that run from `a` to `b`, arise by at most 49 bisections, and
each met the error test (with the tolerance multiplied by 0.707 per bisection), are negligible, or
are at the depth limit. -/
theorem gk_adaptive (d : GKData) (hd : d ∈ GKData.supported) (f : ℝ → M ℝ) (a b eps rprec : ℝ)
    (h : ∀ x ∈ Set.uIcc a b, ∃ v, f x = .ok v) :
    ∃ (R E : ℝ) (cells : List Cell), d.integrate_nonadaptive f a b = .ok (R, E) ∧
      d.integrate_adaptive f a b eps rprec = .ok (cells.map Cell.value).sum ∧
      Covers a b cells ∧
      ∀ c ∈ cells, d.integrate_nonadaptive f c.left c.right = .ok (c.value, c.err) ∧
        c.right - c.left = (b - a) / 2 ^ c.depth ∧ c.depth ≤ 49 ∧
        c.Final 49 (0.707 ^ c.depth * max (rprec * |R|) eps) := by
  obtain ⟨R, E, cells, h1, h2, h3, _, h4⟩ := d.adaptive_cells hd f 49 a b eps rprec h
  exact ⟨R, E, cells, h1, h2, h3, h4⟩

/-- Cells with positive widths lie between the ends. -/
theorem covers_inside (a b : ℝ) (l : List Cell) (h : Covers a b l)
    (hw : ∀ c ∈ l, c.left ≤ c.right) :
    a ≤ b ∧ ∀ c ∈ l, a ≤ c.left ∧ c.right ≤ b := by
  induction l generalizing a with
  | nil => cases h; simp
  | cons c l ih =>
    obtain ⟨h1, h2⟩ := ih c.right h.2 fun c' hc' => hw c' (by simp [hc'])
    have h0 := hw c (by simp)
    have hl := h.1
    refine ⟨by linarith, fun c' hc' => ?_⟩
    rcases List.mem_cons.mp hc' with rfl | hc'
    · exact ⟨hl.ge, h1⟩
    · obtain ⟨u, v⟩ := h2 c' hc'
      exact ⟨by linarith, v⟩

/-- C34: non-negative integrands have non-negative integrals, for `a ≤ b`. -/
theorem gk_nonneg (d : GKData) (hd : d ∈ GKData.supported) (f : ℝ → M ℝ) (a b eps rprec : ℝ)
    (hab : a ≤ b) (h : ∀ x ∈ Set.Icc a b, ∃ v, f x = .ok v ∧ 0 ≤ v) :
    ∃ I, d.integrate_adaptive f a b eps rprec = .ok I ∧ 0 ≤ I := by
  obtain ⟨R, E, cells, _, h2, h3, h4⟩ := gk_adaptive d hd f a b eps rprec (by
    rw [Set.uIcc_of_le hab]
    intro x hx
    obtain ⟨v, hv, _⟩ := h x hx
    exact ⟨v, hv⟩)
  refine ⟨_, h2, List.sum_nonneg ?_⟩
  have hw : ∀ c ∈ cells, c.left ≤ c.right := by
    intro c hc
    have := (h4 c hc).2.1
    have : 0 ≤ (b - a) / 2 ^ c.depth := div_nonneg (by linarith) (by positivity)
    linarith
  obtain ⟨_, hin⟩ := covers_inside a b cells h3 hw
  intro v hv
  obtain ⟨c, hc, rfl⟩ := List.mem_map.mp hv
  obtain ⟨u1, u2⟩ := hin c hc
  have hlr := hw c hc
  have hna := (h4 c hc).1
  choose! g hg using h
  have hm : ∀ e ∈ d.kronrod.full,
      (c.right - c.left) / 2 * e.1 + (c.right + c.left) / 2 ∈ Set.Icc a b := by
    intro e he
    have hb := d.kronrod.full_bounds (d.ok hd).kr e he
    have := node_mem c.left c.right e.1 hb.1 hb.2.1
    rw [Set.uIcc_of_le hlr] at this
    exact ⟨u1.trans this.1, this.2.trans u2⟩
  have := d.nonadaptive_eq hd f g c.left c.right fun e he => (hg _ (hm e he)).1
  rw [hna] at this
  rw [(Prod.mk.inj (Except.ok.inj this)).1]
  apply mul_nonneg (by linarith)
  apply wsum_nonneg
  · intro e he; exact (d.kronrod.full_bounds (d.ok hd).kr e he).2.2.le
  · intro e he; exact (hg _ (hm e he)).2

/-- One part of a partitioned integration: its cells start where the last ones ended. -/
theorem gk_part (d : GKData) (hd : d ∈ GKData.supported) (f : ℝ → M ℝ) (a m m' eps rprec r : ℝ)
    (cells : List Cell) (hr : r = (cells.map Cell.value).sum) (hc : Covers a m cells)
    (hn : ∀ c ∈ cells, d.integrate_nonadaptive f c.left c.right = .ok (c.value, c.err))
    (h : ∀ x ∈ Set.uIcc m m', ∃ v, f x = .ok v) :
    ∃ (cells' : List Cell) (v : ℝ), d.integrate_adaptive f m m' eps rprec = .ok v ∧
      r + v = ((cells ++ cells').map Cell.value).sum ∧ Covers a m' (cells ++ cells') ∧
      (∀ c ∈ cells ++ cells', d.integrate_nonadaptive f c.left c.right = .ok (c.value, c.err)) ∧
      ∀ c ∈ cells', c.right - c.left = (m' - m) / 2 ^ c.depth ∧ c.depth ≤ 49 := by
  obtain ⟨R, E, cells', h1, h2, h3, h4⟩ := gk_adaptive d hd f m m' eps rprec h
  refine ⟨cells', _, h2, by rw [hr, List.map_append, List.sum_append], GKData.covers_append a m m' _ _ hc h3, ?_, ?_⟩
  · intro c hm
    rcases List.mem_append.mp hm with hm | hm
    · exact hn c hm
    · exact (h4 c hm).1
  · intro c hm
    exact ⟨(h4 c hm).2.1, (h4 c hm).2.2.1⟩

/-- C34: with `N` parts the integration still covers `[a,b]` once: it is the sum of the rule over
cells that run from `a` to `b`, each an `N`-th of the interval bisected at most 49 times. -/
theorem gk_parts (d : GKData) (hd : d ∈ GKData.supported) (f : ℝ → M ℝ) (a b eps rprec : ℝ) (N : Nat)
    (hN : 0 < N) (h : ∀ x ∈ Set.uIcc a b, ∃ v, f x = .ok v) :
    ∃ cells : List Cell, d.integrate f a b eps rprec N = .ok (cells.map Cell.value).sum ∧
      Covers a b cells ∧
      ∀ c ∈ cells, d.integrate_nonadaptive f c.left c.right = .ok (c.value, c.err) ∧
        c.right - c.left = (b - a) / N / 2 ^ c.depth ∧ c.depth ≤ 49 := by
  have hN' : (0 : ℝ) < N := by exact_mod_cast hN
  have key : ∀ n : Nat, n ≤ N → ∃ cells : List Cell,
      (List.range n).foldlM (m := M) (fun result (i : Nat) => do
        let m := a + (Scalar.ofInt i * ((b - a) / Scalar.ofInt N))
        return result + (← d.integrate_adaptive f m (m + (b - a) / Scalar.ofInt N) (eps / Scalar.ofInt N) rprec)) (0.0 : ℝ) =
        .ok (cells.map Cell.value).sum ∧ Covers a (a + n * ((b - a) / N)) cells ∧
      ∀ c ∈ cells, d.integrate_nonadaptive f c.left c.right = .ok (c.value, c.err) ∧
        c.right - c.left = (b - a) / N / 2 ^ c.depth ∧ c.depth ≤ 49 := by
    intro n
    induction n with
    | zero =>
      intro _
      refine ⟨[], ?_, by simp [Covers], by simp⟩
      simp only [List.range_zero, List.foldlM_nil, List.map_nil, List.sum_nil]
      norm_num; rfl
    | succ n ih =>
      intro hn
      obtain ⟨cells, h1, h2, h3⟩ := ih (by omega)
      have hp : ∀ x : ℝ, 0 ≤ x → x ≤ N → a + x * ((b - a) / N) ∈ Set.uIcc a b := by
        intro x x0 x1
        have e : a + x * ((b - a) / N) = (1 - x / N) * a + x / N * b := by field_simp; ring
        have q0 : 0 ≤ x / N := div_nonneg x0 hN'.le
        have q1 : x / N ≤ 1 := by rw [div_le_one hN']; exact x1
        rw [e]
        rcases le_total a b with hab | hab
        · rw [Set.uIcc_of_le hab]; constructor <;> nlinarith
        · rw [Set.uIcc_of_ge hab]; constructor <;> nlinarith
      have hn' : (n : ℝ) + 1 ≤ N := by exact_mod_cast hn
      have n0 : (0 : ℝ) ≤ n := Nat.cast_nonneg n
      have em : a + (n : ℝ) * ((b - a) / N) + (b - a) / N = a + ((n : ℝ) + 1) * ((b - a) / N) := by ring
      obtain ⟨cells', v, g1, g2, g3, g4, g5⟩ := gk_part d hd f a (a + n * ((b - a) / N))
        (a + (n : ℝ) * ((b - a) / N) + (b - a) / N) (eps / N) rprec _ cells rfl h2 (fun c hc => (h3 c hc).1) (by
          intro x hx
          apply h
          rw [em] at hx
          exact Set.uIcc_subset_uIcc (hp n n0 (by linarith)) (hp (n + 1) (by linarith) hn') hx)
      refine ⟨cells ++ cells', ?_, ?_, ?_⟩
      · rw [List.range_succ, List.foldlM_append, h1, bind_ok]
        simp only [List.foldlM_cons, List.foldlM_nil, ofInt_real, Int.cast_natCast]
        rw [g1, bind_ok, ← g2]
        rfl
      · rw [em] at g3
        push_cast
        exact g3
      · intro c hc
        refine ⟨g4 c hc, ?_⟩
        rcases List.mem_append.mp hc with hm | hm
        · exact (h3 c hm).2
        · obtain ⟨w1, w2⟩ := g5 c hm
          refine ⟨?_, w2⟩
          rw [w1]; ring
  obtain ⟨cells, h1, h2, h3⟩ := key N (le_refl _)
  refine ⟨cells, h1, ?_, h3⟩
  rwa [show a + (N : ℝ) * ((b - a) / N) = b by field_simp; ring] at h2

/-- The intervals run from `a` to `b`, each starting where the last one ended. -/
def Adjoin : ℝ → ℝ → List (ℝ × ℝ) → Prop
  | a, b, [] => a = b
  | a, b, i :: is => i.1 = a ∧ Adjoin i.2 b is

/-- C34: over adjoining intervals from `a` to `b` the integration covers `[a,b]` once. -/
theorem gk_intervals (d : GKData) (hd : d ∈ GKData.supported) (f : ℝ → M ℝ) (a b eps rprec : ℝ)
    (ivs : List (ℝ × ℝ)) (hi : Adjoin a b ivs) (h : ∀ i ∈ ivs, ∀ x ∈ Set.uIcc i.1 i.2, ∃ v, f x = .ok v) :
    ∃ cells : List Cell, d.integrate_intervals f ivs eps rprec = .ok (cells.map Cell.value).sum ∧
      Covers a b cells ∧
      ∀ c ∈ cells, d.integrate_nonadaptive f c.left c.right = .ok (c.value, c.err) := by
  unfold GKData.integrate_intervals
  generalize eps / Scalar.ofInt (α := ℝ) (ivs.length : Int) = e
  have key : ∀ (is : List (ℝ × ℝ)) (m r : ℝ) (cells : List Cell), r = (cells.map Cell.value).sum →
      Covers a m cells → (∀ c ∈ cells, d.integrate_nonadaptive f c.left c.right = .ok (c.value, c.err)) →
      Adjoin m b is → (∀ i ∈ is, ∀ x ∈ Set.uIcc i.1 i.2, ∃ v, f x = .ok v) →
      ∃ cells : List Cell, is.foldlM (m := M) (fun result i => do
          return result + (← d.integrate_adaptive f i.1 i.2 e rprec)) r = .ok (cells.map Cell.value).sum ∧
        Covers a b cells ∧ ∀ c ∈ cells, d.integrate_nonadaptive f c.left c.right = .ok (c.value, c.err) := by
    intro is
    induction is with
    | nil =>
      intro m r cells hr hc hn hm _
      have : m = b := hm
      subst this
      exact ⟨cells, by rw [List.foldlM_nil, hr]; rfl, hc, hn⟩
    | cons i is ih =>
      intro m r cells hr hc hn hm hf
      obtain ⟨hm1, hm2⟩ := hm
      obtain ⟨cells', v, g1, g2, g3, g4, _⟩ := gk_part d hd f a m i.2 e rprec r cells hr hc hn (by
        rw [← hm1]; exact hf i (by simp))
      rw [List.foldlM_cons, hm1, g1, bind_ok]
      exact ih i.2 (r + v) (cells ++ cells') g2 g3 g4 hm2 fun i' hi' => hf i' (by simp [hi'])
  exact key ivs a 0.0 [] (by norm_num) rfl (by simp) hi h

/-- Hypotheses met: a square root, split into seven parts and into two unequal intervals. -/
example : (∀ x ∈ Set.uIcc (0 : ℝ) 2, ∃ v, (fun x : ℝ => if x < 0 then .error .badCast else .ok √x : ℝ → M ℝ) x = .ok v) ∧
    (0 < 7) ∧ Adjoin 0 2 [(0, 0.5), (0.5, 2)] :=
  ⟨fun x hx => by
    rw [Set.uIcc_of_le (by norm_num)] at hx
    exact ⟨√x, if_neg (not_lt.mpr hx.1)⟩, by norm_num, rfl, rfl, rfl⟩

/-- With reversed bounds the adaptive integration never refines: it returns the rule on the whole
interval, whatever the tolerance. -/
theorem gk_reversed (d : GKData) (f : ℝ → M ℝ) (a b eps rprec : ℝ) (hab : b ≤ a) :
    d.integrate_adaptive f a b eps rprec = (d.integrate_nonadaptive f a b).map Prod.fst := by
  rw [GKData.integrate_adaptive]
  cases h : d.integrate_nonadaptive f a b with
  | error e => rfl
  | ok r =>
    obtain ⟨R, E⟩ := r
    have hlim : (10.0 : ℝ) * dblEps = 10 * 2⁻¹ ^ 52 := by norm_num [dblEps]
    simp only [bind_ok, hlim]
    rw [if_pos]
    · rfl
    · have h0 : (0 : ℝ) < 10 * 2⁻¹ ^ 52 := by positivity
      rw [Bool.or_eq_true, lt_real, lt_real]
      right; linarith

example : integrator_adaptive ∈ GKData.supported := by
  simp [GKData.supported, integrator_adaptive]

/-! ## C84: the Gauss-Kronrod pairs -/

/-- C84: the value of `integrate_nonadaptive` is the integral for polynomials of degree at most
`3n+1`, where `n` is the order of the embedded Gauss rule, up to the rounding of the table. -/
theorem gk_polynomial (d : GKData) (hd : d ∈ GKData.supported) (P : Polynomial ℝ)
    (hP : P.natDegree ≤ 3 * ((d.order - 1) / 2) + 1) (a b : ℝ) :
    ∃ R E, d.integrate_nonadaptive (total fun x => P.eval x) a b = .ok (R, E) ∧
      |R - ∫ x in a..b, P.eval x| ≤ 1e-17 * (|b - a| / 2) *
        ∑ k ∈ Finset.range (3 * ((d.order - 1) / 2) + 2),
          |(P.comp (Polynomial.C ((b - a) / 2) * Polynomial.X
            + Polynomial.C ((b + a) / 2))).coeff k| := by
  have hok := d.ok hd
  refine ⟨_, _, d.nonadaptive_eq hd _ (fun x => P.eval x) a b fun _ _ => rfl, ?_⟩
  have hc : ∀ k, 3 * ((d.order - 1) / 2) + 2 ≤ k → (P.comp (Polynomial.C ((b - a) / 2) *
      Polynomial.X + Polynomial.C ((b + a) / 2))).coeff k = 0 := by
    intro k hk
    apply Polynomial.coeff_eq_zero_of_natDegree_lt
    have h1 : (Polynomial.C ((b - a) / 2) * Polynomial.X + Polynomial.C ((b + a) / 2)).natDegree ≤ 1 :=
      Polynomial.natDegree_linear_le
    have h2 := (Polynomial.natDegree_comp_le (p := P) (q := Polynomial.C ((b - a) / 2) *
      Polynomial.X + Polynomial.C ((b + a) / 2))).trans (Nat.mul_le_mul_left P.natDegree h1)
    omega
  have h := d.kronrod.poly_error hok.kr _ 17 hok.krm P (by omega) a b
  have e : ((10 : ℝ) ^ 17)⁻¹ = 1e-17 := by norm_num
  rw [e] at h
  refine h.trans ?_
  apply mul_le_mul_of_nonneg_left _ (by positivity)
  apply le_of_eq
  symm
  apply Finset.sum_subset
  · intro k hk
    rw [Finset.mem_range] at hk ⊢
    omega
  · intro k _ hk
    rw [hc k (by simpa using hk), abs_zero]

/-- C84: for `a ≤ b` the error estimate is the distance between the value and the value of a
second quadrature `G` (or the machine precision, if that is larger); `G` is the integral for
polynomials of degree at most `2n-1`, up to the rounding of the table. -/
theorem gk_error_estimate (d : GKData) (hd : d ∈ GKData.supported) (a b : ℝ) (hab : a ≤ b) :
    ∃ G : (ℝ → ℝ) → ℝ,
      (∀ g, ∃ R, d.integrate_nonadaptive (total g) a b =
        .ok (R, max |G g - R| ((b - a) / 2 * 2⁻¹ ^ 52))) ∧
      (∀ P : Polynomial ℝ, P.natDegree ≤ 2 * ((d.order - 1) / 2) - 1 →
        |G (fun x => P.eval x) - ∫ x in a..b, P.eval x| ≤ 1e-17 * (|b - a| / 2) *
        ∑ k ∈ Finset.range (2 * ((d.order - 1) / 2)),
          |(P.comp (Polynomial.C ((b - a) / 2) * Polynomial.X
            + Polynomial.C ((b + a) / 2))).coeff k|) := by
  have hok := d.ok hd
  refine ⟨fun g => (b - a) / 2 * wsum d.gauss.full fun x => g ((b - a) / 2 * x + (b + a) / 2),
    fun g => ⟨(b - a) / 2 * wsum d.kronrod.full fun x => g ((b - a) / 2 * x + (b + a) / 2), ?_⟩,
    fun P hP => ?_⟩
  · rw [d.nonadaptive_eq hd _ g a b fun _ _ => rfl]
    have h0 : 0 ≤ (b - a) / 2 := by linarith
    rw [← mul_sub, abs_mul, abs_of_nonneg h0, ← mul_max_of_nonneg _ _ h0]
  · have hbig := hok.big
    have h := d.gauss.poly_error hok.ga _ 17 hok.gam P (by omega) a b
    have e : ((10 : ℝ) ^ 17)⁻¹ = 1e-17 := by norm_num
    rw [e] at h
    exact h

/-- C84 is not vacuous: `x^31` with the library's rule. -/
example : (Polynomial.X ^ 31 : Polynomial ℝ).natDegree ≤ 3 * ((integrator_adaptive.order - 1) / 2) + 1 := by
  rw [Polynomial.natDegree_X_pow]; decide

end Catima
