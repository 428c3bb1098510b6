import Verif.Lemmas.QuadraturePoly
import Verif.Lemmas.Grid

/-!
# Helper lemmas: the Gauss-Kronrod rules
-/

namespace Catima
namespace GKData

/-- The Kronrod rule as a symmetric rule. -/
def kronrod (d : GKData) : GLData := ⟨d.order, d.x, d.w⟩

/-- The embedded Gauss rule. -/
def gauss (d : GKData) : GLData :=
  let n := (d.order - 1) / 2
  ⟨n, (List.range (n / 2 + n % 2)).map fun i => d.x.getD (2 * i + (1 - n % 2)) ⟨0, 0⟩,
    d.wg.take (n / 2 + n % 2)⟩

/-- What the tables are checked for. -/
def check (d : GKData) : Bool :=
  let n := d.order / 2 + 1
  let gi := if d.oddgauss then 2 else 1
  let ki := if d.oddgauss then 1 else 2
  d.kronrod.shapeCheck && d.gauss.shapeCheck && decide (d.order % 2 = 1) && decide (3 ≤ d.order) &&
  d.kronrod.momentCheck ((3 * ((d.order - 1) / 2) + 1) / 2 + 1) 17 &&
  d.gauss.momentCheck ((d.order - 1) / 2) 17 &&
  decide ((stride gi n ++ stride ki n).Perm (List.range' 1 (n - 1))) &&
  (stride gi n).all (fun i => decide (i < n) && decide (i / 2 < d.wg.length)) &&
  (stride ki n).all (fun i => decide (i < n)) &&
  decide (0 < d.wg.length) && d.oddgauss == decide ((d.order - 1) / 2 % 2 = 1) &&
  (stride gi n).map (fun i => (d.x.getD i ⟨0, 0⟩, d.wg.getD (i / 2) ⟨0, 0⟩)) ==
    (d.gauss.x.zip d.gauss.w).drop ((d.order - 1) / 2 % 2) &&
  (!d.oddgauss || (d.gauss.x.zip d.gauss.w).take 1 == [(d.x.getD 0 ⟨0, 0⟩, d.wg.getD 0 ⟨0, 0⟩)]) &&
  decide ((d.x.getD 0 ⟨0, 0⟩).m = 0)

theorem supported_check : ∀ d ∈ supported, d.check = true := by
  decide +kernel

/-- A table entry as a real. -/
noncomputable def ent (l : List Dec) (i : Nat) : ℝ := (l.getD i ⟨0, 0⟩).toScalar

theorem rdDec_ent (l : List Dec) (i : Nat) (h : i < l.length) :
    rdDec l (i : Int) = (.ok (ent l i) : M ℝ) := by
  unfold rdDec ent
  rw [rd_nat _ _ h]
  simp [Except.map, h]

theorem foldl_pair {β : Type} (u v : β → ℝ) (l : List β) (r s : ℝ) :
    l.foldl (fun (acc : ℝ × ℝ) i => (acc.1 + u i, acc.2 + v i)) (r, s) =
      (r + (l.map u).sum, s + (l.map v).sum) := by
  induction l generalizing r s with
  | nil => simp
  | cons x l ih => rw [List.foldl_cons, ih]; simp [add_assoc]

theorem foldl_sum {β : Type} (u : β → ℝ) (l : List β) (r : ℝ) :
    l.foldl (fun acc i => acc + u i) r = r + (l.map u).sum := by
  induction l generalizing r with
  | nil => simp
  | cons x l ih => rw [List.foldl_cons, ih]; simp [add_assoc]

theorem sum_map_range' (n : Nat) (u : Nat → ℝ) :
    ((List.range' 1 n).map u).sum = ∑ i ∈ Finset.range n, u (i + 1) := by
  induction n with
  | zero => simp
  | succ n ih =>
    rw [List.range'_1_concat, List.map_append, List.sum_append, ih, Finset.sum_range_succ, add_comm 1 n]
    simp

theorem nodes_ent (x w : List Dec) (n : Nat) (hx : x.length = n) (hw : w.length = n) :
    ((x.zip w).map fun e => ((e.1.toScalar : ℝ), (e.2.toScalar : ℝ))) =
      (List.range n).map fun i => (ent x i, ent w i) := by
  apply List.ext_getElem (by simp [hx, hw])
  intro i h1 h2
  have : i < n := by simpa using h2
  simp [ent, hx, hw, this]

/-- `check`, read off. -/
structure Ok (d : GKData) : Prop where
  kr : d.kronrod.shapeCheck = true
  ga : d.gauss.shapeCheck = true
  odd : d.order % 2 = 1
  big : 3 ≤ d.order
  krm : d.kronrod.momentCheck ((3 * ((d.order - 1) / 2) + 1) / 2 + 1) 17 = true
  gam : d.gauss.momentCheck ((d.order - 1) / 2) 17 = true
  perm : (stride (if d.oddgauss then 2 else 1) (d.order / 2 + 1) ++
    stride (if d.oddgauss then 1 else 2) (d.order / 2 + 1)).Perm (List.range' 1 (d.order / 2))
  gi : ∀ i ∈ stride (if d.oddgauss then 2 else 1) (d.order / 2 + 1),
    i < d.order / 2 + 1 ∧ i / 2 < d.wg.length
  ki : ∀ i ∈ stride (if d.oddgauss then 1 else 2) (d.order / 2 + 1), i < d.order / 2 + 1
  wg0 : 0 < d.wg.length
  og : d.oddgauss = decide ((d.order - 1) / 2 % 2 = 1)
  gaz : (stride (if d.oddgauss then 2 else 1) (d.order / 2 + 1)).map
    (fun i => (d.x.getD i ⟨0, 0⟩, d.wg.getD (i / 2) ⟨0, 0⟩)) =
    (d.gauss.x.zip d.gauss.w).drop ((d.order - 1) / 2 % 2)
  gat : d.oddgauss = true →
    (d.gauss.x.zip d.gauss.w).take 1 = [(d.x.getD 0 ⟨0, 0⟩, d.wg.getD 0 ⟨0, 0⟩)]
  x0 : (d.x.getD 0 ⟨0, 0⟩).m = 0

theorem ok (d : GKData) (hd : d ∈ supported) : d.Ok := by
  have h := supported_check d hd
  unfold check at h
  simp only [Bool.and_eq_true, beq_iff_eq, decide_eq_true_eq, List.all_eq_true,
    Nat.add_one_sub_one] at h
  obtain ⟨⟨⟨⟨⟨⟨⟨⟨⟨⟨⟨⟨⟨h1, h2⟩, h3⟩, h4⟩, h5⟩, h6⟩, h7⟩, h8⟩, h9⟩, h10⟩, h11⟩, h12⟩, h13⟩, h14⟩ := h
  refine ⟨h1, h2, h3, h4, h5, h6, h7, h8, h9, h10, h11, h12, fun ho => ?_, h14⟩
  simpa [ho] using h13

theorem kronrod_full (d : GKData) (h : d.Ok) : d.kronrod.full = (ent d.x 0, ent d.w 0) ::
    mirror ((List.range' 1 (d.order / 2)).map fun i => (ent d.x i, ent d.w i)) := by
  obtain ⟨hw, _⟩ := d.kronrod.shape h.kr
  have h1 := hw.len
  have h2 := hw.lenw
  have e : d.kronrod.nodes (α := ℝ) =
      (List.range (d.order / 2 + 1)).map fun i => (ent d.x i, ent d.w i) := by
    have ho := h.odd
    refine nodes_ent d.x d.w _ ?_ ?_
    · rw [show d.x.length = _ from h1]; simp [kronrod, ho]
    · rw [show d.w.length = _ from h2]; simp [kronrod, ho]
  unfold GLData.full
  have ho : d.kronrod.order % 2 = 1 := h.odd
  rw [ho, if_pos rfl, e, List.range_eq_range', List.range'_succ]
  simp

theorem gauss_full (d : GKData) (h : d.Ok) : d.gauss.full =
    (if d.oddgauss then [(ent d.x 0, ent d.wg 0)] else []) ++
    mirror ((stride (if d.oddgauss then 2 else 1) (d.order / 2 + 1)).map
      fun i => (ent d.x i, ent d.wg (i / 2))) := by
  unfold GLData.full
  have ho : d.gauss.order = (d.order - 1) / 2 := rfl
  congr 1
  · rw [ho]
    have hog := h.og
    by_cases c : (d.order - 1) / 2 % 2 = 1
    · rw [if_pos c]
      rw [decide_eq_true c] at hog
      rw [if_pos hog, GLData.nodes, ← List.map_take, h.gat hog]
      rfl
    · rw [if_neg c]
      rw [decide_eq_false c] at hog
      simp [hog]
  · congr 1
    rw [GLData.nodes, ← List.map_drop, ho, ← h.gaz, List.map_map]
    rfl

/-- The two numbers `integrate_nonadaptive` returns: the Kronrod sum, and the larger of the
difference to the Gauss sum and the machine precision. -/
theorem nonadaptive_eq (d : GKData) (hd : d ∈ supported) (f : ℝ → M ℝ) (g : ℝ → ℝ) (a b : ℝ)
    (hf : ∀ e ∈ d.kronrod.full, f ((b - a) / 2 * e.1 + (b + a) / 2)
      = .ok (g ((b - a) / 2 * e.1 + (b + a) / 2))) :
    d.integrate_nonadaptive f a b = .ok
      ((b - a) / 2 * (wsum d.kronrod.full fun x => g ((b - a) / 2 * x + (b + a) / 2)),
       (b - a) / 2 * max |(wsum d.gauss.full fun x => g ((b - a) / 2 * x + (b + a) / 2)) -
        wsum d.kronrod.full fun x => g ((b - a) / 2 * x + (b + a) / 2)| (2⁻¹ ^ 52)) := by
  have h := d.ok hd
  have hp : (0.5 : ℝ) * (b - a) = (b - a) / 2 := by norm_num; ring
  have hq : (0.5 : ℝ) * (b + a) = (b + a) / 2 := by norm_num; ring
  rw [kronrod_full d h] at hf ⊢
  obtain ⟨hw, _⟩ := d.kronrod.shape h.kr
  have hx : d.x.length = d.order / 2 + 1 := by
    have := hw.len; simpa [kronrod, h.odd] using this
  have hwl : d.w.length = d.order / 2 + 1 := by
    have := hw.lenw; simpa [kronrod, h.odd] using this
  set p := (b - a) / 2 with hpd
  set q := (b + a) / 2 with hqd
  have hfi : ∀ i, i < d.order / 2 + 1 → f (p * ent d.x i + q) = .ok (g (p * ent d.x i + q)) ∧
      f (-p * ent d.x i + q) = .ok (g (-p * ent d.x i + q)) := by
    intro i hi
    rcases Nat.eq_zero_or_pos i with rfl | hi0
    · have h0 := hf (ent d.x 0, ent d.w 0) (by simp)
      refine ⟨h0, ?_⟩
      have hz : ent d.x 0 = 0 := by
        rw [ent, Dec.toScalar_real, h.x0]; simp
      rw [hz] at h0 ⊢
      simpa using h0
    · have hm : i ∈ List.range' 1 (d.order / 2) := by
        rw [List.mem_range'_1]; omega
      constructor
      · exact hf (ent d.x i, ent d.w i) (List.mem_cons_of_mem _ (List.mem_flatMap.mpr
          ⟨_, List.mem_map.mpr ⟨i, hm, rfl⟩, by simp⟩))
      · have := hf (-ent d.x i, ent d.w i) (List.mem_cons_of_mem _ (List.mem_flatMap.mpr
          ⟨_, List.mem_map.mpr ⟨i, hm, rfl⟩, by simp⟩))
        have e : p * -ent d.x i = -p * ent d.x i := by ring
        simp only [e] at this
        exact this
  have hmm : ∀ l : List Nat, ∀ k : Nat → Nat, ∀ v : List Dec,
      (l.map fun i => ent v (k i) * (g (p * ent d.x i + q) + g (-p * ent d.x i + q))).sum =
      wsum (mirror (l.map fun i => (ent d.x i, ent v (k i)))) fun x => g (p * x + q) := by
    intro l k v
    rw [wsum_mirror, wsum, List.map_map]
    congr 1
    apply List.map_congr_left
    intro i _
    simp only [Function.comp]
    congr 3; ring
  unfold integrate_nonadaptive
  simp only [hp, hq]
  have r0 : ∀ l : List Dec, 0 < l.length → rdDec l 0 = (.ok (ent l 0) : M ℝ) :=
    fun l hl => rdDec_ent l 0 hl
  rw [r0 d.x (by omega), r0 d.w (by omega)]
  simp only [bind_ok, (hfi 0 (by omega)).1]
  set L1 := stride (if d.oddgauss then 2 else 1) (d.order / 2 + 1) with hL1
  set L2 := stride (if d.oddgauss then 1 else 2) (d.order / 2 + 1) with hL2
  have hfold1 : ∀ r s : ℝ, L1.foldlM (fun (acc : ℝ × ℝ) (i : Nat) => do
      let x ← rdDec d.x i
      let w ← rdDec d.w i
      let wg ← rdDec d.wg (i / 2 : Nat)
      let v1 ← f (p * x + q)
      let v2 ← f (-p * x + q)
      pure (acc.1 + w * v1 + w * v2, acc.2 + wg * v1 + wg * v2)) (r, s) = (.ok
      (r + (L1.map fun i => ent d.w i * (g (p * ent d.x i + q) + g (-p * ent d.x i + q))).sum,
       s + (L1.map fun i => ent d.wg (i / 2) * (g (p * ent d.x i + q) + g (-p * ent d.x i + q))).sum)
       : M (ℝ × ℝ)) := by
    intro r s
    rw [foldlM_ok _ (fun (acc : ℝ × ℝ) i =>
      (acc.1 + ent d.w i * (g (p * ent d.x i + q) + g (-p * ent d.x i + q)),
       acc.2 + ent d.wg (i / 2) * (g (p * ent d.x i + q) + g (-p * ent d.x i + q)))) L1 ?_ (r, s),
      foldl_pair]
    intro i hi r
    obtain ⟨h1, h2⟩ := h.gi i hi
    rw [rdDec_ent _ _ (by omega), rdDec_ent _ _ (by omega), rdDec_ent _ _ h2]
    simp only [bind_ok, (hfi i h1).1, (hfi i h1).2, pure_ok]
    congr 2 <;> ring
  have hfold2 : ∀ r : ℝ, L2.foldlM (fun acc (i : Nat) => do
      let x ← rdDec d.x i
      let w ← rdDec d.w i
      let v1 ← f (p * x + q)
      let v2 ← f (-p * x + q)
      pure (acc + w * (v1 + v2))) r = (.ok
      (r + (L2.map fun i => ent d.w i * (g (p * ent d.x i + q) + g (-p * ent d.x i + q))).sum)
       : M ℝ) := by
    intro r
    rw [foldlM_ok _ (fun (acc : ℝ) i =>
      acc + ent d.w i * (g (p * ent d.x i + q) + g (-p * ent d.x i + q))) L2 ?_ r, foldl_sum]
    intro i hi r
    have h1 := h.ki i hi
    rw [rdDec_ent _ _ (by omega), rdDec_ent _ _ (by omega)]
    simp only [bind_ok, (hfi i h1).1, (hfi i h1).2, pure_ok]
  have hK : ent d.w 0 * g (p * ent d.x 0 + q) +
      (L1.map fun i => ent d.w i * (g (p * ent d.x i + q) + g (-p * ent d.x i + q))).sum +
      (L2.map fun i => ent d.w i * (g (p * ent d.x i + q) + g (-p * ent d.x i + q))).sum =
      wsum ((ent d.x 0, ent d.w 0) ::
        mirror ((List.range' 1 (d.order / 2)).map fun i => (ent d.x i, ent d.w i)))
        fun x => g (p * x + q) := by
    rw [wsum_cons, ← hmm _ (fun i => i) d.w, ← (h.perm.map _).sum_eq, List.map_append,
      List.sum_append, add_assoc]
  have herr : ∀ u v : ℝ, smax (Scalar.fabs (u - v)) dblEps = max |u - v| (2⁻¹ ^ 52) := by
    intro u v
    have e : (dblEps : ℝ) = 2⁻¹ ^ 52 := by norm_num [dblEps]
    unfold smax
    rw [e, fabs_real]
    by_cases c : |u - v| < 2⁻¹ ^ 52
    · rw [if_pos (by simpa using c), max_eq_right c.le]
    · rw [if_neg (by simpa using c), max_eq_left (not_lt.mp c)]
  by_cases c : d.oddgauss = true
  · have hg0 : wsum d.gauss.full (fun x => g (p * x + q)) = ent d.wg 0 * g (p * ent d.x 0 + q) +
      (L1.map fun i => ent d.wg (i / 2) * (g (p * ent d.x i + q) + g (-p * ent d.x i + q))).sum := by
      rw [gauss_full d h, ← hL1, if_pos c, hmm L1 (fun i => i / 2) d.wg]
      simp only [List.cons_append, List.nil_append, wsum_cons]
    rw [if_pos c, r0 d.wg h.wg0]
    simp only [bind_ok, pure_bind, hfold1, hfold2, hK, hg0, herr]
    rfl
  · have hg0 : wsum d.gauss.full (fun x => g (p * x + q)) = (0.0 : ℝ) +
      (L1.map fun i => ent d.wg (i / 2) * (g (p * ent d.x i + q) + g (-p * ent d.x i + q))).sum := by
      rw [gauss_full d h, ← hL1, if_neg c, hmm L1 (fun i => i / 2) d.wg]
      norm_num
    rw [if_neg c]
    simp only [bind_ok, pure_bind, hfold1, hfold2, hK, hg0, herr]
    rfl

theorem foldlM_congr {β γ : Type} (f f' : γ → β → M γ) (l : List β) (r : γ)
    (h : ∀ x ∈ l, ∀ r, f r x = f' r x) : l.foldlM f r = l.foldlM f' r := by
  induction l generalizing r with
  | nil => rfl
  | cons x l ih =>
    rw [List.foldlM_cons, List.foldlM_cons, h x (by simp)]
    congr 1
    funext r'
    exact ih r' fun y hy => h y (by simp [hy])

theorem node_mem (a b x : ℝ) (h1 : -1 < x) (h2 : x < 1) :
    (b - a) / 2 * x + (b + a) / 2 ∈ Set.uIcc a b := by
  rw [Set.mem_uIcc]
  rcases le_total a b with h | h
  · left; constructor <;> nlinarith
  · right; constructor <;> nlinarith

/-- `integrate_nonadaptive` reads the integrand only inside the interval. -/
theorem nonadaptive_congr (d : GKData) (hd : d ∈ supported) (f f' : ℝ → M ℝ) (a b : ℝ)
    (hf : ∀ x ∈ Set.uIcc a b, f x = f' x) :
    d.integrate_nonadaptive f a b = d.integrate_nonadaptive f' a b := by
  have h := d.ok hd
  have hp : (0.5 : ℝ) * (b - a) = (b - a) / 2 := by norm_num; ring
  have hq : (0.5 : ℝ) * (b + a) = (b + a) / 2 := by norm_num; ring
  obtain ⟨hw, _⟩ := d.kronrod.shape h.kr
  have hx : d.x.length = d.order / 2 + 1 := by
    have := hw.len; simpa [kronrod, h.odd] using this
  have hwl : d.w.length = d.order / 2 + 1 := by
    have := hw.lenw; simpa [kronrod, h.odd] using this
  have hbd : ∀ i, i < d.order / 2 + 1 → 0 ≤ ent d.x i ∧ ent d.x i < 1 := by
    intro i hi
    have hm : (ent d.x i, ent d.w i) ∈ d.kronrod.nodes (α := ℝ) := by
      rw [show d.kronrod.nodes (α := ℝ) =
        (List.range (d.order / 2 + 1)).map fun i => (ent d.x i, ent d.w i) from
        nodes_ent d.x d.w _ hx hwl]
      exact List.mem_map.mpr ⟨i, by simpa using hi, rfl⟩
    have := d.kronrod.nodes_bounds h.kr _ hm
    exact ⟨this.1, this.2.1⟩
  have hfi : ∀ i, i < d.order / 2 + 1 →
      f ((b - a) / 2 * ent d.x i + (b + a) / 2) = f' ((b - a) / 2 * ent d.x i + (b + a) / 2) ∧
      f (-((b - a) / 2) * ent d.x i + (b + a) / 2) =
        f' (-((b - a) / 2) * ent d.x i + (b + a) / 2) := by
    intro i hi
    obtain ⟨b1, b2⟩ := hbd i hi
    refine ⟨hf _ (node_mem a b _ (by linarith) b2), ?_⟩
    have := node_mem a b (-ent d.x i) (by linarith) (by linarith)
    have e : (b - a) / 2 * -ent d.x i = -((b - a) / 2) * ent d.x i := by ring
    rw [e] at this
    exact hf _ this
  have r0 : ∀ l : List Dec, 0 < l.length → rdDec l 0 = (.ok (ent l 0) : M ℝ) :=
    fun l hl => rdDec_ent l 0 hl
  unfold integrate_nonadaptive
  simp only [hp, hq]
  rw [r0 d.x (by omega)]
  simp only [bind_ok, (hfi 0 (by omega)).1]
  have key1 : ∀ r : ℝ × ℝ,
      (stride (if d.oddgauss then 2 else 1) (d.order / 2 + 1)).foldlM
        (fun (acc : ℝ × ℝ) (i : Nat) => do
          let x ← rdDec d.x i
          let w ← rdDec d.w i
          let wg ← rdDec d.wg (i / 2 : Nat)
          let v1 ← f ((b - a) / 2 * x + (b + a) / 2)
          let v2 ← f (-((b - a) / 2) * x + (b + a) / 2)
          pure (acc.1 + w * v1 + w * v2, acc.2 + wg * v1 + wg * v2)) r =
      (stride (if d.oddgauss then 2 else 1) (d.order / 2 + 1)).foldlM
        (fun (acc : ℝ × ℝ) (i : Nat) => do
          let x ← rdDec d.x i
          let w ← rdDec d.w i
          let wg ← rdDec d.wg (i / 2 : Nat)
          let v1 ← f' ((b - a) / 2 * x + (b + a) / 2)
          let v2 ← f' (-((b - a) / 2) * x + (b + a) / 2)
          pure (acc.1 + w * v1 + w * v2, acc.2 + wg * v1 + wg * v2)) r := by
    intro r
    apply foldlM_congr
    intro i hi r
    have h1 := (h.gi i hi).1
    rw [rdDec_ent d.x i (by omega)]
    simp only [bind_ok, (hfi i h1).1, (hfi i h1).2]
  have key2 : ∀ r : ℝ,
      (stride (if d.oddgauss then 1 else 2) (d.order / 2 + 1)).foldlM
        (fun acc (i : Nat) => do
          let x ← rdDec d.x i
          let w ← rdDec d.w i
          let v1 ← f ((b - a) / 2 * x + (b + a) / 2)
          let v2 ← f (-((b - a) / 2) * x + (b + a) / 2)
          pure (acc + w * (v1 + v2))) r =
      (stride (if d.oddgauss then 1 else 2) (d.order / 2 + 1)).foldlM
        (fun acc (i : Nat) => do
          let x ← rdDec d.x i
          let w ← rdDec d.w i
          let v1 ← f' ((b - a) / 2 * x + (b + a) / 2)
          let v2 ← f' (-((b - a) / 2) * x + (b + a) / 2)
          pure (acc + w * (v1 + v2))) r := by
    intro r
    apply foldlM_congr
    intro i hi r
    have h1 := h.ki i hi
    rw [rdDec_ent d.x i (by omega)]
    simp only [bind_ok, (hfi i h1).1, (hfi i h1).2]
  simp only [key1, key2]

theorem mid_subset (a b : ℝ) : (0.5 : ℝ) * (a + b) ∈ Set.uIcc a b := by
  have e : (0.5 : ℝ) * (a + b) = (a + b) / 2 := by norm_num; ring
  rw [e, Set.mem_uIcc]
  rcases le_total a b with h | h
  · left; constructor <;> linarith
  · right; constructor <;> linarith

/-- `integrate_adaptive` reads the integrand only inside the interval. -/
theorem adaptive_congr (d : GKData) (hd : d ∈ supported) (f f' : ℝ → M ℝ) (level : Nat)
    (a b eps rprec : ℝ) (hf : ∀ x ∈ Set.uIcc a b, f x = f' x) :
    d.integrate_adaptive f a b eps rprec level = d.integrate_adaptive f' a b eps rprec level := by
  induction level generalizing a b eps rprec with
  | zero =>
    unfold integrate_adaptive
    rw [d.nonadaptive_congr hd f f' a b hf]
  | succ n ih =>
    have h1 := fun e r => ih a (0.5 * (a + b)) e r fun x hx =>
      hf x (Set.uIcc_subset_uIcc_left (mid_subset a b) hx)
    have h2 := fun e r => ih (0.5 * (a + b)) b e r fun x hx =>
      hf x (Set.uIcc_subset_uIcc_right (mid_subset a b) hx)
    unfold integrate_adaptive
    rw [d.nonadaptive_congr hd f f' a b hf]
    simp only [h1, h2]

theorem covers_append (a m b : ℝ) (l l' : List Cell) (h : Covers a m l) (h' : Covers m b l') :
    Covers a b (l ++ l') := by
  induction l generalizing a with
  | nil => cases h; exact h'
  | cons c l ih => exact ⟨h.1, ih _ h.2⟩

/-- The cells of an adaptive integration. -/
theorem adaptive_cells (d : GKData) (hd : d ∈ supported) (f : ℝ → M ℝ) (level : Nat)
    (a b eps rprec : ℝ) (hf : ∀ x ∈ Set.uIcc a b, ∃ v, f x = .ok v) :
    ∃ (R E : ℝ) (cells : List Cell), d.integrate_nonadaptive f a b = .ok (R, E) ∧
      d.integrate_adaptive f a b eps rprec level = .ok (cells.map Cell.value).sum ∧
      Covers a b cells ∧ cells ≠ [] ∧
      ∀ c ∈ cells, d.integrate_nonadaptive f c.left c.right = .ok (c.value, c.err) ∧
        c.right - c.left = (b - a) / 2 ^ c.depth ∧ c.depth ≤ level ∧
        c.Final level (0.707 ^ c.depth * max (rprec * |R|) eps) := by
  induction level generalizing a b eps rprec with
  | zero =>
    choose! g hg using hf
    have hna := d.nonadaptive_eq hd f g a b fun e he =>
      have hb := d.kronrod.full_bounds (d.ok hd).kr e he
      hg _ (node_mem a b e.1 hb.1 hb.2.1)
    set R := (b - a) / 2 * (wsum d.kronrod.full fun x => g ((b - a) / 2 * x + (b + a) / 2))
    set E := (b - a) / 2 * max |(wsum d.gauss.full fun x => g ((b - a) / 2 * x + (b + a) / 2)) -
        wsum d.kronrod.full fun x => g ((b - a) / 2 * x + (b + a) / 2)| (2⁻¹ ^ 52)
    refine ⟨R, E, [⟨a, b, 0, R, E⟩], hna, ?_, ⟨rfl, rfl⟩, by simp, ?_⟩
    · unfold integrate_adaptive
      rw [hna]
      simp only [bind_ok, pure_ok]
      simp
    · intro c hc
      cases List.mem_singleton.mp hc
      exact ⟨hna, by simp, le_refl _, .inl rfl⟩
  | succ n ih =>
    have hf' := hf
    choose! g hg using hf
    have hna := d.nonadaptive_eq hd f g a b fun e he =>
      have hb := d.kronrod.full_bounds (d.ok hd).kr e he
      hg _ (node_mem a b e.1 hb.1 hb.2.1)
    set R := (b - a) / 2 * (wsum d.kronrod.full fun x => g ((b - a) / 2 * x + (b + a) / 2))
    set E := (b - a) / 2 * max |(wsum d.gauss.full fun x => g ((b - a) / 2 * x + (b + a) / 2)) -
        wsum d.kronrod.full fun x => g ((b - a) / 2 * x + (b + a) / 2)| (2⁻¹ ^ 52)
    have hlim : (10.0 : ℝ) * dblEps = 10 * 2⁻¹ ^ 52 := by norm_num [dblEps]
    have hmax : ∀ u v : ℝ, smax u v = max u v := by
      intro u v
      unfold smax
      by_cases c : u < v
      · rw [if_pos (by simpa using c), max_eq_right c.le]
      · rw [if_neg (by simpa using c), max_eq_left (not_lt.mp c)]
    have single : Cell.Final ⟨a, b, 0, R, E⟩ (n + 1) (max (rprec * |R|) eps) →
        d.integrate_adaptive f a b eps rprec (n + 1) = .ok R →
        ∃ (R E : ℝ) (cells : List Cell), d.integrate_nonadaptive f a b = .ok (R, E) ∧
        d.integrate_adaptive f a b eps rprec (n + 1) = .ok (cells.map Cell.value).sum ∧
        Covers a b cells ∧ cells ≠ [] ∧
        ∀ c ∈ cells, d.integrate_nonadaptive f c.left c.right = .ok (c.value, c.err) ∧
          c.right - c.left = (b - a) / 2 ^ c.depth ∧ c.depth ≤ n + 1 ∧
          c.Final (n + 1) (0.707 ^ c.depth * max (rprec * |R|) eps) := by
      intro h1 h2
      refine ⟨R, E, [⟨a, b, 0, R, E⟩], hna, by simpa using h2, ⟨rfl, rfl⟩, by simp, ?_⟩
      intro c hc
      cases List.mem_singleton.mp hc
      refine ⟨hna, by simp, Nat.zero_le _, ?_⟩
      simpa using h1
    have heq : d.integrate_adaptive f a b eps rprec (n + 1) =
        if |R| < 10 * 2⁻¹ ^ 52 ∨ b - a < 10 * 2⁻¹ ^ 52 then .ok R
        else if max (rprec * |R|) eps < 10 * 2⁻¹ ^ 52 ∨ |R| < max (rprec * |R|) eps then .ok R
        else if max (rprec * |R|) eps < E then do
          let r1 ← d.integrate_adaptive f a (0.5 * (a + b)) (0.707 * max (rprec * |R|) eps) 0.0 n
          let r2 ← d.integrate_adaptive f (0.5 * (a + b)) b (0.707 * max (rprec * |R|) eps) 0.0 n
          return r1 + r2
        else .ok R := by
      rw [integrate_adaptive, hna]
      simp only [bind_ok, hlim, hmax, fabs_real, pure_ok, Bool.or_eq_true, lt_real]
    by_cases c1 : |R| < 10 * 2⁻¹ ^ 52 ∨ b - a < 10 * 2⁻¹ ^ 52
    · rw [if_pos c1] at heq
      refine single ?_ heq
      rcases c1 with c1 | c1
      · exact .inr (.inr (.inr (.inr (.inl c1))))
      · exact .inr (.inr (.inr (.inr (.inr c1))))
    rw [if_neg c1] at heq
    by_cases c2 : max (rprec * |R|) eps < 10 * 2⁻¹ ^ 52 ∨ |R| < max (rprec * |R|) eps
    · rw [if_pos c2] at heq
      refine single ?_ heq
      rcases c2 with c2 | c2
      · exact .inr (.inr (.inr (.inl c2)))
      · exact .inr (.inr (.inl c2))
    rw [if_neg c2] at heq
    by_cases c3 : max (rprec * |R|) eps < E
    swap
    · rw [if_neg c3] at heq
      exact single (.inr (.inl (not_lt.mp c3))) heq
    rw [if_pos c3] at heq
    push Not at c2
    set tol := max (rprec * |R|) eps with htol
    have htp : 0 < tol := lt_of_lt_of_le (by positivity) c2.1
    have hm : (0.5 : ℝ) * (a + b) = (a + b) / 2 := by norm_num; ring
    obtain ⟨R1, E1, l1, p1, q1, s1, n1, t1⟩ := ih a (0.5 * (a + b)) (0.707 * tol) 0.0 fun x hx =>
      hf' x (Set.uIcc_subset_uIcc_left (mid_subset a b) hx)
    obtain ⟨R2, E2, l2, p2, q2, s2, n2, t2⟩ := ih (0.5 * (a + b)) b (0.707 * tol) 0.0 fun x hx =>
      hf' x (Set.uIcc_subset_uIcc_right (mid_subset a b) hx)
    have htol' : ∀ r : ℝ, max (0.0 * |r|) (0.707 * tol) = 0.707 * tol := by
      intro r
      rw [max_eq_right]
      have : (0.0 : ℝ) * |r| = 0 := by norm_num
      rw [this]; positivity
    let up : Cell → Cell := fun c => { c with depth := c.depth + 1 }
    refine ⟨R, E, (l1 ++ l2).map up, hna, ?_, ?_, ?_, ?_⟩
    · rw [heq, q1, q2]
      simp only [bind_ok, pure_ok, List.map_map, List.map_append, List.sum_append]
      rfl
    · have hup : ∀ (l : List Cell) (u v : ℝ), Covers u v l → Covers u v (l.map up) := by
        intro l
        induction l with
        | nil => intro u v h; exact h
        | cons c l ih => intro u v h; exact ⟨h.1, ih _ _ h.2⟩
      exact hup _ _ _ (covers_append _ _ _ _ _ s1 s2)
    · simp [n1]
    · intro c hc
      obtain ⟨c', hc', rfl⟩ := List.mem_map.mp hc
      rcases List.mem_append.mp hc' with hc' | hc'
      · obtain ⟨u1, u2, u3, u4⟩ := t1 c' hc'
        rw [htol'] at u4
        refine ⟨u1, ?_, by show c'.depth + 1 ≤ n + 1; omega, ?_⟩
        · show c'.right - c'.left = _ / 2 ^ (c'.depth + 1)
          rw [u2, hm, pow_succ]; field_simp; ring
        · have e : (0.707 : ℝ) ^ (up c').depth * tol = 0.707 ^ c'.depth * (0.707 * tol) := by
            show (0.707 : ℝ) ^ (c'.depth + 1) * tol = _
            rw [pow_succ]; ring
          rw [e]
          rcases u4 with u | u
          · left; show c'.depth + 1 = n + 1; omega
          · exact .inr u
      · obtain ⟨u1, u2, u3, u4⟩ := t2 c' hc'
        rw [htol'] at u4
        refine ⟨u1, ?_, by show c'.depth + 1 ≤ n + 1; omega, ?_⟩
        · show c'.right - c'.left = _ / 2 ^ (c'.depth + 1)
          rw [u2, hm, pow_succ]; field_simp; ring
        · have e : (0.707 : ℝ) ^ (up c').depth * tol = 0.707 ^ c'.depth * (0.707 * tol) := by
            show (0.707 : ℝ) ^ (c'.depth + 1) * tol = _
            rw [pow_succ]; ring
          rw [e]
          rcases u4 with u | u
          · left; show c'.depth + 1 = n + 1; omega
          · exact .inr u

end GKData
end Catima
