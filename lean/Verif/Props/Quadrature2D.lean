import Verif.Model.Integrators2D
import Verif.Props.Quadrature

/-!
# C91: integration over rectangles
-/

namespace Catima
open GKData (ent)

/-- A loop that adds defined terms. -/
theorem foldlM_add {β : Type} (l : List β) (F : ℝ → β → M ℝ) (u : β → ℝ) (r : ℝ)
    (h : ∀ x ∈ l, ∀ r, F r x = .ok (r + u x)) : l.foldlM F r = .ok (r + (l.map u).sum) := by
  induction l generalizing r with
  | nil => simp; rfl
  | cons x l ih =>
    rw [List.foldlM_cons, h x (by simp), bind_ok, ih _ fun y hy => h y (by simp [hy])]
    simp [add_assoc]

/-- The value of the double loop. -/
theorem integrate2DA_value (d d2 : GLData) (hd : d ∈ GLData.supported) (hd2 : d2 ∈ GLData.supported)
    (g : ℝ → ℝ → ℝ) (a b c e : ℝ) :
    integrate2DA d d2 (fun x y => .ok (g x y)) a b c e = .ok ((b - a) / 2 * ((e - c) / 2) *
      ((List.range (d.order / 2)).map fun i => ((List.range (d2.order / 2)).map fun j =>
        ent d.w i * ent d2.w j *
          (g ((b - a) / 2 * ent d.x i + (b + a) / 2) ((e - c) / 2 * ent d2.x j + (e + c) / 2) +
            g ((b - a) / 2 * ent d.x i + (b + a) / 2) (-((e - c) / 2 * ent d2.x j) + (e + c) / 2) +
          (g (-((b - a) / 2 * ent d.x i) + (b + a) / 2) ((e - c) / 2 * ent d2.x j + (e + c) / 2) +
            g (-((b - a) / 2 * ent d.x i) + (b + a) / 2)
              (-((e - c) / 2 * ent d2.x j) + (e + c) / 2)))).sum).sum) := by
  have w1 := (d.shape (GLData.supported_shape d hd)).1
  have w2 := (d2.shape (GLData.supported_shape d2 hd2)).1
  have h2 : (2.0 : ℝ) = 2 := by norm_num
  unfold integrate2DA
  simp only [h2]
  rw [foldlM_add _ _ (fun i => ((List.range (d2.order / 2)).map fun j =>
        ent d.w i * ent d2.w j *
          (g ((b - a) / 2 * ent d.x i + (b + a) / 2) ((e - c) / 2 * ent d2.x j + (e + c) / 2) +
            g ((b - a) / 2 * ent d.x i + (b + a) / 2) (-((e - c) / 2 * ent d2.x j) + (e + c) / 2) +
          (g (-((b - a) / 2 * ent d.x i) + (b + a) / 2) ((e - c) / 2 * ent d2.x j + (e + c) / 2) +
            g (-((b - a) / 2 * ent d.x i) + (b + a) / 2)
              (-((e - c) / 2 * ent d2.x j) + (e + c) / 2)))).sum)]
  · rw [bind_ok]
    show Except.ok _ = Except.ok _
    norm_num
  · intro i hi r
    rw [List.mem_range] at hi
    have l1 := w1.len
    have l2 := w1.lenw
    rw [GKData.rdDec_ent d.x i (by omega), bind_ok]
    apply foldlM_add
    intro j hj r
    rw [List.mem_range] at hj
    have l3 := w2.len
    have l4 := w2.lenw
    rw [GKData.rdDec_ent d2.x j (by omega), bind_ok, GKData.rdDec_ent d.w i (by omega),
      GKData.rdDec_ent d2.w j (by omega)]
    rfl

/-- A rule of even order, written with the indices of its table. -/
theorem wsum_even (d : GLData) (hd : d ∈ GLData.supported) (he : d.order % 2 = 0) (u : ℝ → ℝ) :
    wsum d.full u =
      ((List.range (d.order / 2)).map fun i => ent d.w i * (u (ent d.x i) + u (-ent d.x i))).sum := by
  have w := (d.shape (GLData.supported_shape d hd)).1
  have hn : d.nodes (α := ℝ) = (List.range (d.order / 2)).map fun i => (ent d.x i, ent d.w i) :=
    GKData.nodes_ent d.x d.w _ (by rw [w.len]; omega) (by rw [w.lenw]; omega)
  unfold GLData.full
  rw [if_neg (by omega), he, List.drop_zero, List.nil_append, hn]
  generalize List.range (d.order / 2) = l
  induction l with
  | nil => simp [mirror]
  | cons i l ih =>
    rw [List.map_cons, List.map_cons, List.sum_cons, ← ih]
    show wsum ((ent d.x i, ent d.w i) :: (-ent d.x i, ent d.w i) :: mirror _) u = _
    rw [wsum_cons, wsum_cons]
    ring

/-- C91, what holds: with rules of even order, the integral over a rectangle is the integral over
`x` of the integral over `y`, both taken with the rules for one variable. -/
theorem integrate2D_iterated_partial (d d2 : GLData) (hd : d ∈ GLData.supported)
    (hd2 : d2 ∈ GLData.supported) (he : d.order % 2 = 0) (he2 : d2.order % 2 = 0)
    (g : ℝ → ℝ → ℝ) (a b c e : ℝ) :
    integrate2DA d d2 (fun x y => .ok (g x y)) a b c e =
      d.integrate (fun x => d2.integrate (total (g x)) c e) a b := by
  rw [integrate2DA_value d d2 hd hd2]
  rw [d.integrate_eq (d.shape (GLData.supported_shape d hd)).1 _
    (fun x => (e - c) / 2 * wsum d2.full fun y => g x ((e - c) / 2 * y + (e + c) / 2)) a b
    fun x _ => gl_value d2 hd2 _ c e]
  rw [wsum_even d hd he]
  simp only [wsum_even d2 hd2 he2]
  congr 1
  rw [mul_assoc]
  congr 1
  rw [← List.sum_map_mul_left]
  congr 1
  apply List.map_congr_left
  intro i _
  rw [← List.sum_map_mul_left, ← mul_add, ← List.sum_map_add, ← List.sum_map_mul_left,
    ← List.sum_map_mul_left]
  congr 1
  apply List.map_congr_left
  intro j _
  have h1 : (b - a) / 2 * -ent d.x i = -((b - a) / 2 * ent d.x i) := by ring
  have h2 : (e - c) / 2 * -ent d2.x j = -((e - c) / 2 * ent d2.x j) := by ring
  rw [h1, h2]
  ring

/-- C91 is violated: rules of odd order leave out the outermost points and count the centre
twice, so that with each of them the area of a square of side 2 is wrong by more than 5 percent. -/
theorem integrate2D_odd_wrong (d : GLData) (hd : d ∈ GLData.supported) (ho : d.order % 2 = 1) :
    ∃ I, integrate2D d (fun _ _ => .ok (1 : ℝ)) (-1) 1 (-1) 1 = .ok I ∧ |I - 4| > 0.2 := by
  refine ⟨_, integrate2DA_value d d hd hd (fun _ _ => 1) (-1) 1 (-1) 1, ?_⟩
  simp only [GLData.supported, List.mem_cons, List.not_mem_nil, or_false] at hd
  rcases hd with rfl | rfl | rfl | rfl | rfl | rfl | rfl | rfl | rfl | rfl | rfl | rfl | rfl | rfl
  all_goals first
    | (exfalso; revert ho; decide)
    | (simp [GL_data3, GL_data5, GL_data7, ent, List.range_succ, Dec.toScalar_real]
       norm_num [abs_of_nonneg, abs_of_nonpos])

/-- Both cases occur among the rules of the library. -/
example : (GL_data8 ∈ GLData.supported ∧ GL_data8.order % 2 = 0) ∧
    GL_data5 ∈ GLData.supported ∧ GL_data5.order % 2 = 1 := by
  refine ⟨⟨by simp [GLData.supported], rfl⟩, by simp [GLData.supported], rfl⟩

/-- The integral of `x² y` over `[0,1] × [0,2]` with two different rules. -/
example : integrate2DA GL_data8 GL_data4 (fun x y : ℝ => .ok (x ^ 2 * y)) 0 1 0 2 =
    GL_data8.integrate (fun x => GL_data4.integrate (total fun y => x ^ 2 * y) 0 2) 0 1 :=
  integrate2D_iterated_partial _ _ (by simp [GLData.supported]) (by simp [GLData.supported]) rfl rfl
    (fun x y => x ^ 2 * y) 0 1 0 2

end Catima
