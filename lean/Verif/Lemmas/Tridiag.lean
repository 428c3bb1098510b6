import Verif.Lemmas.Basic
import Verif.Model.Spline

/-!
# Helper lemmas: the tridiagonal solver over `ℝ`
-/

namespace Catima
namespace Tridiag

/-- The equations of `rows` for unknowns `zs`, with the unknown before the first row given. -/
def Sys : List (Row ℝ) → ℝ → List ℝ → Prop
  | [], _, [] => True
  | r :: rs, zp, z :: zs =>
    r.a * zp + r.d * z +
      (match rs, zs with | r' :: _, z' :: _ => r'.cprev * z' | _, _ => 0) = r.b ∧ Sys rs z zs
  | _, _, _ => False

theorem sys_length : ∀ (rs : List (Row ℝ)) (zp : ℝ) (zs : List ℝ), Sys rs zp zs →
    zs.length = rs.length
  | [], _, [], _ => rfl
  | _ :: rs, _, z :: zs, h => by
    simp only [List.length_cons, sys_length rs z zs h.2]
  | [], _, _ :: _, h => h.elim
  | _ :: _, _, [], h => h.elim

/-- Value of the previous unknown implied by the sweep state. -/
noncomputable def prev (rs : List (Row ℝ)) (bet xprev : ℝ) (zs : List ℝ) : ℝ :=
  match rs, zs with | r :: _, z :: _ => xprev - r.cprev / bet * z | _, _ => xprev

theorem mul_div_cancel_right_aux (a : ℝ) {b : ℝ} (h : b ≠ 0) : b * (a / b) = a := by field_simp

theorem sweep_sound : ∀ (rs : List (Row ℝ)) (bet xprev : ℝ) (zs : List ℝ),
    sweep rs bet xprev = some zs → Sys rs (prev rs bet xprev zs) zs
  | [], _, _, zs, h => by
    simp only [sweep, Option.some.injEq] at h
    subst h; trivial
  | r :: rs, bet, xprev, zs, h => by
    unfold sweep at h
    simp only at h
    split at h
    · cases h
    rename_i hb
    have hb' : r.d - r.a * (r.cprev / bet) ≠ 0 := by
      rw [beq_real] at hb
      intro h0; apply hb; rw [h0]; norm_num
    cases rs with
    | nil =>
      simp only [Option.some.injEq] at h
      subst h
      refine ⟨?_, trivial⟩
      simp only [prev]
      linear_combination mul_div_cancel_right_aux (r.b - r.a * xprev) hb'
    | cons r' rs' =>
      simp only at h
      cases hs : sweep (r' :: rs') (r.d - r.a * (r.cprev / bet))
          ((r.b - r.a * xprev) / (r.d - r.a * (r.cprev / bet))) with
      | none => rw [hs] at h; cases h
      | some l =>
        have ih := sweep_sound (r' :: rs') _ _ l hs
        rw [hs] at h
        cases l with
        | nil => exact ih.elim
        | cons y ys =>
          simp only [Option.some.injEq] at h
          subst h
          refine ⟨?_, ih⟩
          simp only [prev]
          linear_combination mul_div_cancel_right_aux (r.b - r.a * xprev) hb' -
            y * mul_div_cancel_right_aux r'.cprev hb'
  termination_by rs => rs.length

theorem sweep_complete : ∀ (rs : List (Row ℝ)) (bet xprev zp : ℝ) (zs ws : List ℝ),
    Sys rs zp zs → (∀ r z, rs.head? = some r → zs.head? = some z → zp + r.cprev / bet * z = xprev) →
    sweep rs bet xprev = some ws → ws = zs
  | [], _, _, _, zs, ws, hz, _, h => by
    simp only [sweep, Option.some.injEq] at h
    cases zs with
    | nil => exact h.symm
    | cons _ _ => exact hz.elim
  | r :: rs, bet, xprev, zp, zs, ws, hz, hp, h => by
    cases zs with
    | nil => exact hz.elim
    | cons z zs =>
    have hp' := hp r z rfl rfl
    unfold sweep at h
    simp only at h
    split at h
    · cases h
    rename_i hb
    have hb' : r.d - r.a * (r.cprev / bet) ≠ 0 := by
      rw [beq_real] at hb
      intro h0; apply hb; rw [h0]; norm_num
    cases rs with
    | nil =>
      simp only [Option.some.injEq] at h
      cases zs with
      | cons _ _ => exact hz.2.elim
      | nil =>
        subst h
        have h1 := hz.1
        simp only [add_zero] at h1
        congr 1
        rw [div_eq_iff hb', ← hp', ← h1]
        ring
    | cons r' rs' =>
      simp only at h
      cases zs with
      | nil => exact hz.2.elim
      | cons z' zs' =>
      have h1 := hz.1
      simp only at h1
      have hx : z + r'.cprev / (r.d - r.a * (r.cprev / bet)) * z' =
          (r.b - r.a * xprev) / (r.d - r.a * (r.cprev / bet)) := by
        rw [← hp', ← h1, eq_div_iff hb', add_mul, mul_assoc, mul_comm z', ← mul_assoc,
          div_mul_cancel₀ _ hb']
        ring
      cases hs : sweep (r' :: rs') (r.d - r.a * (r.cprev / bet))
          ((r.b - r.a * xprev) / (r.d - r.a * (r.cprev / bet))) with
      | none => rw [hs] at h; cases h
      | some l =>
        have ih := sweep_complete (r' :: rs') _ _ z (z' :: zs') l hz.2 (by
          intro r0 z0 hr0 hz0
          simp only [List.head?_cons, Option.some.injEq] at hr0 hz0
          subst hr0 hz0
          exact hx) hs
        rw [hs] at h
        subst ih
        simp only [Option.some.injEq] at h
        rw [← h]
        congr 1
        rw [← hx]; ring
  termination_by rs => rs.length

theorem sys_append : ∀ (rs : List (Row ℝ)) (zp : ℝ) (zs : List ℝ), zs.length = rs.length →
    (Sys rs zp zs ↔ ∀ (i : Nat) (h : i < rs.length),
      rs[i].a * (if i = 0 then zp else zs.getD (i - 1) 0) + rs[i].d * zs.getD i 0 +
        (if h' : i + 1 < rs.length then rs[i + 1].cprev * zs.getD (i + 1) 0 else 0) = rs[i].b)
  | [], _, [], _ => by simp [Sys]
  | [], _, _ :: _, h => by simp at h
  | _ :: _, _, [], h => by simp at h
  | r :: rs, zp, z :: zs, h => by
    have hl : zs.length = rs.length := by simpa using h
    have ih := sys_append rs z zs hl
    constructor
    · rintro ⟨h1, h2⟩ i hi
      rcases i with _ | i
      · simp only [List.getElem_cons_zero, if_true, List.getD_cons_zero]
        cases rs with
        | nil => simpa using h1
        | cons r' rs' =>
          cases zs with
          | nil => simp at hl
          | cons z' zs' => simpa using h1
      · have := ih.mp h2 i (by simpa using hi)
        simp only [List.getElem_cons_succ, List.getD_cons_succ, Nat.add_one_ne_zero, if_false,
          Nat.add_sub_cancel, List.length_cons, Nat.add_lt_add_iff_right]
        rcases i with _ | i
        · simpa using this
        · simpa using this
    · intro hall
      refine ⟨?_, ih.mpr fun i hi => ?_⟩
      · have := hall 0 (by simp)
        cases rs with
        | nil =>
          cases zs with
          | nil => simpa using this
          | cons _ _ => simp at hl
        | cons r' rs' =>
          cases zs with
          | nil => simp at hl
          | cons z' zs' => simpa using this
      · have := hall (i + 1) (by simpa using hi)
        simp only [List.getElem_cons_succ, List.getD_cons_succ, Nat.add_one_ne_zero, if_false,
          Nat.add_sub_cancel, List.length_cons, Nat.add_lt_add_iff_right] at this
        rcases i with _ | i
        · simpa using this
        · simpa using this

/-- The equations the solver works with: `a` below, `c` above the diagonal. -/
def Swapped (A : Tridiag ℝ) (N : Nat) (b x : Nat → ℝ) : Prop :=
  ∀ i < N, (if i = 0 then 0 else A.a i * x (i - 1)) + A.d i * x i +
    (if i + 1 < N then A.c i * x (i + 1) else 0) = b i

/-- The rows as a list. -/
noncomputable def rowsOf (A : Tridiag ℝ) (N : Nat) (b : Nat → ℝ) : List (Row ℝ) :=
  (List.range (N - 1)).map fun k => ⟨A.c k, A.a (k+1), A.d (k+1), b (k+1)⟩

theorem swapped_iff (A : Tridiag ℝ) (N : Nat) (hN : 1 ≤ N) (b : Nat → ℝ) (z : ℝ) (zs : List ℝ)
    (hl : zs.length = N - 1) :
    Swapped A N b (fun i => (z :: zs).getD i 0) ↔
      A.d 0 * z + (if 1 < N then A.c 0 * zs.getD 0 0 else 0) = b 0 ∧ Sys (rowsOf A N b) z zs := by
  rw [sys_append _ _ _ (by simp [rowsOf, hl])]
  unfold Swapped
  constructor
  · intro h
    constructor
    · have := h 0 (by omega)
      simpa using this
    · intro i hi
      have hi' : i < N - 1 := by simpa [rowsOf] using hi
      have := h (i + 1) (by omega)
      simp only [rowsOf, List.getElem_map, List.getElem_range, List.length_map, List.length_range]
      simp only [Nat.add_one_ne_zero, if_false, Nat.add_sub_cancel, List.getD_cons_succ] at this
      rw [← this]
      congr 1
      · congr 1
        rcases i with _ | i
        · simp
        · simp
      · by_cases hc : i + 1 < N - 1
        · rw [dif_pos hc, if_pos (by omega)]
        · rw [dif_neg hc, if_neg (by omega)]
  · rintro ⟨h0, h⟩ i hi
    rcases i with _ | i
    · simpa using h0
    · have := h i (by simp [rowsOf]; omega)
      simp only [rowsOf, List.getElem_map, List.getElem_range, List.length_map,
        List.length_range] at this
      simp only [Nat.add_one_ne_zero, if_false, Nat.add_sub_cancel, List.getD_cons_succ]
      rw [← this]
      congr 1
      · congr 1
        rcases i with _ | i
        · simp
        · simp
      · by_cases hc : i + 1 < N - 1
        · rw [dif_pos hc, if_pos (by omega)]
        · rw [dif_neg hc, if_neg (by omega)]

/-- The pivots of the elimination. -/
noncomputable def pivot (A : Tridiag ℝ) : Nat → ℝ
  | 0 => A.d 0
  | j + 1 => A.d (j + 1) - A.a (j + 1) * (A.c j / pivot A j)

theorem sweep_isSome_aux (A : Tridiag ℝ) (b : Nat → ℝ) : ∀ (m k : Nat) (x : ℝ),
    ((∃ l, sweep ((List.range' k m).map fun k => (⟨A.c k, A.a (k+1), A.d (k+1), b (k+1)⟩ : Row ℝ))
      (pivot A k) x = some l) ↔ ∀ j, k < j → j ≤ k + m → pivot A j ≠ 0) := by
  intro m
  induction m with
  | zero =>
    intro k x
    simp only [List.range'_zero, List.map_nil, sweep]
    constructor
    · rintro _ j h1 h2; omega
    · intro _; exact ⟨_, rfl⟩
  | succ m ih =>
    intro k x
    simp only [List.range'_succ, List.map_cons]
    unfold sweep
    simp only
    have hp : A.d (k + 1) - A.a (k + 1) * (A.c k / pivot A k) = pivot A (k + 1) := rfl
    rw [hp]
    by_cases h0 : pivot A (k + 1) = 0
    · rw [if_pos (by rw [beq_real, h0]; norm_num)]
      constructor
      · rintro ⟨_, h⟩; cases h
      · intro h; exact absurd h0 (h (k + 1) (by omega) (by omega))
    · rw [if_neg (by rw [beq_real]; norm_num; exact h0)]
      have ih' := ih (k + 1) ((b (k + 1) - A.a (k + 1) * x) / pivot A (k + 1))
      have hiff : (∀ j, k < j → j ≤ k + (m + 1) → pivot A j ≠ 0) ↔
          (∀ j, k + 1 < j → j ≤ k + 1 + m → pivot A j ≠ 0) := by
        constructor
        · intro h j h1 h2; exact h j (by omega) (by omega)
        · intro h j h1 h2
          rcases Nat.lt_or_ge (k + 1) j with h3 | h3
          · exact h j h3 (by omega)
          · have : j = k + 1 := by omega
            rw [this]; exact h0
      rw [hiff, ← ih']
      cases m with
      | zero =>
        simp only [List.range'_zero, List.map_nil, sweep]
        exact ⟨fun _ => ⟨_, rfl⟩, fun _ => ⟨_, rfl⟩⟩
      | succ m =>
        simp only [List.range'_succ, List.map_cons]
        generalize sweep _ (pivot A (k + 1)) _ = o
        cases o with
        | none => simp
        | some l => cases l <;> simp

theorem sweep_isSome (A : Tridiag ℝ) (N : Nat) (b : Nat → ℝ) (x : ℝ) :
    (∃ l, sweep (rowsOf A N b) (A.d 0) x = some l) ↔ ∀ j, 0 < j → j < N → pivot A j ≠ 0 := by
  have := sweep_isSome_aux A b (N - 1) 0 x
  unfold rowsOf
  rw [List.range_eq_range']
  refine this.trans ?_
  constructor
  · intro h j h1 h2; exact h j h1 (by omega)
  · intro h j h1 h2; exact h j h1 (by omega)

theorem trig_solve_def (A : Tridiag ℝ) (N : Nat) (b : Nat → ℝ) (h : A.d 0 ≠ 0) :
    A.trig_solve N b = match sweep (rowsOf A N b) (A.d 0) (b 0 / A.d 0) with
      | none => .ok (List.replicate N 0.0)
      | some [] => .ok [b 0 / A.d 0]
      | some (y :: ys) => .ok ((b 0 / A.d 0 - (A.c 0 / A.d 0) * y) :: y :: ys) := by
  unfold trig_solve
  rw [if_neg (by rw [beq_real]; norm_num; exact h)]
  simp only [rowsOf]
  split <;> rename_i heq <;> simp only [heq]

/-- With all pivots non-zero the result satisfies the swapped system. -/
theorem trig_solve_swapped (A : Tridiag ℝ) (N : Nat) (hN : 1 ≤ N) (b : Nat → ℝ)
    (hp : ∀ j < N, pivot A j ≠ 0) :
    ∃ xs, A.trig_solve N b = .ok xs ∧ xs.length = N ∧ Swapped A N b (fun i => xs.getD i 0) := by
  have h0 : A.d 0 ≠ 0 := hp 0 (by omega)
  rw [trig_solve_def A N b h0]
  obtain ⟨l, hl⟩ := (sweep_isSome A N b (b 0 / A.d 0)).mpr fun j _ h => hp j h
  have hs := sweep_sound _ _ _ _ hl
  have hlen := sys_length _ _ _ hs
  have hlen' : l.length = N - 1 := by rw [hlen]; simp [rowsOf]
  rw [hl]
  cases l with
  | nil =>
    refine ⟨_, rfl, ?_, ?_⟩
    · simp at hlen' ⊢; omega
    · rw [swapped_iff A N hN b _ _ hlen']
      refine ⟨?_, ?_⟩
      · rw [if_neg (by simp at hlen'; omega), add_zero]; field_simp
      · have : rowsOf A N b = [] := by
          apply List.length_eq_zero_iff.mp; simpa using hlen.symm
        rw [this]; trivial
  | cons y ys =>
    refine ⟨_, rfl, ?_, ?_⟩
    · simp only [List.length_cons] at hlen' ⊢; omega
    · rw [swapped_iff A N hN b _ _ hlen']
      have h1 : 1 < N := by simp only [List.length_cons] at hlen'; omega
      refine ⟨?_, ?_⟩
      · rw [if_pos h1]
        simp only [List.getD_cons_zero]
        field_simp
        ring
      · have e : rowsOf A N b = ⟨A.c 0, A.a 1, A.d 1, b 1⟩ ::
            (List.range' 1 (N - 2)).map fun k => ⟨A.c k, A.a (k+1), A.d (k+1), b (k+1)⟩ := by
          unfold rowsOf
          have : N - 1 = (N - 2) + 1 := by omega
          rw [List.range_eq_range', this, List.range'_succ, List.map_cons]
        rw [e] at hs ⊢
        exact hs

theorem getD_replicate_zero (N i : Nat) : (List.replicate N (0.0 : ℝ)).getD i 0 = 0 := by
  rcases Nat.lt_or_ge i N with h | h
  · simp [List.getD_eq_getElem?_getD, h]
    norm_num
  · simp [List.getD_eq_getElem?_getD, h]

/-- A solution of the swapped system is what the solver returns, unless a pivot is zero, in which
case it returns zeros. -/
theorem trig_solve_unique (A : Tridiag ℝ) (N : Nat) (hN : 1 ≤ N) (b z : Nat → ℝ) (h0 : A.d 0 ≠ 0)
    (hz : Swapped A N b z) :
    ∃ xs, A.trig_solve N b = .ok xs ∧ xs.length = N ∧
      ((∀ i < N, xs.getD i 0 = z i) ∨ (∃ j < N, pivot A j = 0) ∧ ∀ i, xs.getD i 0 = 0) := by
  rw [trig_solve_def A N b h0]
  cases hl : sweep (rowsOf A N b) (A.d 0) (b 0 / A.d 0) with
  | none =>
    refine ⟨_, rfl, by simp, .inr ⟨?_, fun i => getD_replicate_zero N i⟩⟩
    by_contra hc
    obtain ⟨l, h'⟩ := (sweep_isSome A N b (b 0 / A.d 0)).mpr fun j _ hj hz => hc ⟨j, hj, hz⟩
    rw [hl] at h'
    cases h'
  | some l =>
    have hlen := sys_length _ _ _ (sweep_sound _ _ _ _ hl)
    have hlen' : l.length = N - 1 := by rw [hlen]; simp [rowsOf]
    set zs := (List.range' 1 (N - 1)).map z with hzs
    have hzl : zs.length = N - 1 := by simp [hzs]
    have hget : ∀ i < N, (z 0 :: zs).getD i 0 = z i := by
      intro i hi
      rcases i with _ | i
      · rfl
      · have : i < zs.length := by omega
        rw [List.getD_cons_succ, List.getD_eq_getElem?_getD, List.getElem?_eq_getElem this, Option.getD_some]
        simp only [hzs, List.getElem_map, List.getElem_range']
        congr 1; omega
    have hz' : Swapped A N b (fun i => (z 0 :: zs).getD i 0) := by
      intro i hi
      have := hz i hi
      simp only [hget i hi]
      rw [← this]
      congr 1
      · congr 1
        rcases i with _ | i
        · rfl
        · simp only [Nat.add_one_ne_zero, if_false, Nat.add_sub_cancel]
          rw [hget i (by omega)]
      · by_cases hc : i + 1 < N
        · rw [if_pos hc, if_pos hc, hget _ hc]
        · rw [if_neg hc, if_neg hc]
    rw [swapped_iff A N hN b _ _ hzl] at hz'
    have := sweep_complete (rowsOf A N b) (A.d 0) (b 0 / A.d 0) (z 0) zs l hz'.2 (by
      intro r z1 hr hz1
      have h1 : 1 < N := by
        by_contra hc
        have : N - 1 = 0 := by omega
        simp [rowsOf, this] at hr
      have e1 : r.cprev = A.c 0 := by
        have : N - 1 = (N - 2) + 1 := by omega
        simp only [rowsOf, this, List.range_eq_range', List.range'_succ, List.map_cons,
          List.head?_cons, Option.some.injEq] at hr
        rw [← hr]
      have e2 : zs.getD 0 0 = z1 := by
        cases h' : zs with
        | nil => rw [h'] at hz1; cases hz1
        | cons a as => rw [h'] at hz1; simpa using hz1
      have := hz'.1
      rw [if_pos h1, e2] at this
      rw [e1, ← this]
      field_simp) hl
    subst this
    have h00 := hz'.1
    cases hzs' : zs with
    | nil =>
      refine ⟨_, rfl, ?_, .inl fun i hi => ?_⟩
      · rw [hzs'] at hlen'; simp at hlen' ⊢; omega
      · rw [hzs'] at hlen'
        have hi0 : i = 0 := by simp at hlen'; omega
        have hN1 : ¬ 1 < N := by simp at hlen'; omega
        rw [if_neg hN1, add_zero] at h00
        subst hi0
        simp only [List.getD_cons_zero]
        rw [← h00]; field_simp
    | cons y ys =>
      refine ⟨_, rfl, ?_, .inl fun i hi => ?_⟩
      · rw [hzs'] at hlen'; simp only [List.length_cons] at hlen' ⊢; omega
      · have h1 : 1 < N := by rw [hzs'] at hlen'; simp only [List.length_cons] at hlen'; omega
        rw [if_pos h1, hzs'] at h00
        have e : b 0 / A.d 0 - A.c 0 / A.d 0 * y = z 0 := by
          simp only [List.getD_cons_zero] at h00
          rw [← h00]; field_simp; ring
        rw [e, ← hzs']
        exact hget i hi

/-- A zero pivot makes the solver return zeros. -/
theorem trig_solve_zero (A : Tridiag ℝ) (N : Nat) (b : Nat → ℝ) (h0 : A.d 0 ≠ 0)
    (hp : ∃ j < N, pivot A j = 0) : A.trig_solve N b = .ok (List.replicate N 0.0) := by
  rw [trig_solve_def A N b h0]
  cases hl : sweep (rowsOf A N b) (A.d 0) (b 0 / A.d 0) with
  | none => rfl
  | some l =>
    obtain ⟨j, hj, hz⟩ := hp
    have := (sweep_isSome A N b (b 0 / A.d 0)).mp ⟨l, hl⟩ j (by
      rcases Nat.eq_zero_or_pos j with h | h
      · subst h; exact absurd hz h0
      · exact h) hj
    exact absurd hz this

/-- Existence and uniqueness when no pivot is zero. -/
theorem trig_solve_good (A : Tridiag ℝ) (N : Nat) (hN : 1 ≤ N) (b : Nat → ℝ)
    (hp : ∀ j < N, pivot A j ≠ 0) :
    ∃ xs, A.trig_solve N b = .ok xs ∧ xs.length = N ∧ Swapped A N b (fun i => xs.getD i 0) ∧
      ∀ z, Swapped A N b z → ∀ i < N, xs.getD i 0 = z i := by
  obtain ⟨xs, h1, h2, h3⟩ := trig_solve_swapped A N hN b hp
  refine ⟨xs, h1, h2, h3, fun z hz => ?_⟩
  obtain ⟨ys, g1, g2, g3⟩ := trig_solve_unique A N hN b z (hp 0 (by omega)) hz
  rw [h1] at g1
  cases g1
  rcases g3 with g3 | ⟨⟨j, hj, hz⟩, _⟩
  · exact g3
  · exact absurd hz (hp j hj)

end Tridiag
end Catima
