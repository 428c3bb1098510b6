import Verif.Lemmas.Cache
import Mathlib.Data.List.Rotate

/-!
# The cache as a ring buffer
-/

namespace Catima
set_option linter.unusedSectionVars false
variable {α : Type} [Scalar α]

/-- Overwriting position `k` and rotating one further appends at the end of the rotated list and
drops its head. -/
theorem rotate_set {β : Type} (l : List β) (k : Nat) (hk : k < l.length) (d : β) :
    (l.set k d).rotate (k + 1) = (l.rotate k).tail ++ [d] := by
  apply List.ext_getElem
  · simp; omega
  · intro n h1 h2
    simp only [List.length_rotate, List.length_set] at h1
    rw [List.getElem_rotate]
    simp only [List.getElem_set, List.length_set]
    rw [List.getElem_append]
    by_cases hn : n < l.length - 1
    · rw [dif_pos (by simpa using hn)]
      simp only [List.getElem_tail, List.getElem_rotate]
      have e1 : (n + (k + 1)) % l.length = (n + 1 + k) % l.length := by congr 1; omega
      rw [if_neg]
      · congr 1
      · intro h
        by_cases h3 : n + (k + 1) < l.length
        · rw [Nat.mod_eq_of_lt h3] at h; omega
        · have : (n + (k + 1)) % l.length = n + (k + 1) - l.length := by
            rw [Nat.mod_eq_sub_mod (by omega), Nat.mod_eq_of_lt (by omega)]
          omega
    · have hn' : n = l.length - 1 := by omega
      rw [dif_neg (by simpa using hn)]
      rw [if_pos]
      · simp
      · subst hn'
        have : (l.length - 1 + (k + 1)) % l.length = (l.length - 1 + (k + 1)) - l.length := by
          rw [Nat.mod_eq_sub_mod (by omega), Nat.mod_eq_of_lt (by omega)]
        omega

/-- The ring invariant for a cache into which `ins` was inserted since the last reset. -/
structure RingInv (s : Storage α) (ins : List (DataPoint α)) : Prop where
  shape : Shape s
  idx : s.pos = ins.length % max_storage_data
  small : ins.length ≤ max_storage_data →
    s.slots = ins ++ List.replicate (max_storage_data - ins.length) .default
  big : max_storage_data ≤ ins.length →
    s.slots.rotate (ins.length % max_storage_data) = ins.drop (ins.length - max_storage_data)

theorem ring_init : RingInv (Storage.init : Storage α) [] where
  shape := shape_init
  idx := rfl
  small := fun _ => by simp [Storage.init]
  big := fun h => by simp [max_storage_data] at h

theorem ring_miss {s : Storage α} {ins : List (DataPoint α)} (h : RingInv s ins) (d : DataPoint α) :
    RingInv ⟨s.slots.set s.pos d, s.pos + 1⟩ (ins ++ [d]) := by
  have hp := shape_pos h.shape
  have hlen := h.shape.1
  have hN : 0 < max_storage_data := by decide
  constructor
  · exact shape_set h.shape d
  · simp only [Storage.pos, List.length_set, List.length_append, List.length_singleton]
    have := h.idx
    simp only [Storage.pos] at this
    rw [this, hlen]
    rw [Nat.add_mod ins.length 1]
    have h1 : 1 % max_storage_data = 1 := by decide
    rw [h1]
    have h2 := Nat.mod_lt ins.length hN
    by_cases h3 : ins.length % max_storage_data + 1 = max_storage_data
    · rw [if_pos h3, h3, Nat.mod_self]
    · rw [if_neg h3]
      exact (Nat.mod_eq_of_lt (by omega)).symm
  · intro hle
    simp only [List.length_append, List.length_singleton] at hle ⊢
    have hlt : ins.length < max_storage_data := by omega
    have hi : s.pos = ins.length := by rw [h.idx, Nat.mod_eq_of_lt hlt]
    rw [hi, h.small (by omega)]
    have : max_storage_data - ins.length = (max_storage_data - (ins.length + 1)) + 1 := by omega
    rw [this, List.replicate_succ]
    rw [List.set_append_right _ _ (le_refl _)]
    simp
  · intro hle
    simp only [List.length_append, List.length_singleton] at hle ⊢
    have hrot : (s.slots.set s.pos d).rotate ((ins.length + 1) % max_storage_data) =
        (s.slots.rotate s.pos).tail ++ [d] := by
      rw [← rotate_set _ _ hp, h.idx, Nat.add_mod]
      have h1 : 1 % max_storage_data = 1 := by decide
      rw [h1, ← List.rotate_mod _ (ins.length % max_storage_data + 1)]
      simp [hlen]
    rw [hrot, h.idx]
    by_cases hge : max_storage_data ≤ ins.length
    · rw [h.big hge]
      rw [List.tail_drop]
      rw [List.drop_append_of_le_length (by omega)]
      congr 2
      omega
    · have heq : ins.length + 1 = max_storage_data := by omega
      have hs := h.small (by omega)
      rw [Nat.mod_eq_of_lt (by omega), hs]
      have h60 : max_storage_data - ins.length = 1 := by omega
      rw [h60, List.rotate_append_length_eq]
      simp [heq]

theorem trace_ring {f : Compute α} {s : Storage α} {ins : List (DataPoint α)} (h : Trace f s ins) :
    RingInv s ins := by
  induction h with
  | init => exact ring_init
  | reset _ _ => exact ring_init
  | hitGet _ k hk e ho ih =>
    obtain ⟨e', _, _, h3⟩ := getWith_hit f _ k hk
    rw [h3] at ho; cases ho; exact ih
  | hitAdd _ k hk ho ih =>
    rw [addWith_hit f _ k hk] at ho; cases ho; exact ih
  | missGet _ k hk e d hd ho ih =>
    rw [getWith_miss_ok ih.shape hk hd] at ho; cases ho; exact ring_miss ih _
  | missAdd _ k hk d hd ho ih =>
    rw [addWith_miss_ok ih.shape hk hd] at ho; cases ho; exact ring_miss ih _

/-- Every reachable state has a trace. -/
theorem reachable_trace {f : Compute α} {s : Storage α} (h : Reachable f s) :
    ∃ ins, Trace f s ins := by
  induction h with
  | init => exact ⟨[], .init⟩
  | step hr op ho ih =>
    obtain ⟨ins, ih⟩ := ih
    have hs := reachable_shape hr
    cases op with
    | get k =>
      simp only [CacheOp.run] at ho
      rename_i s0 s1
      cases hg : s0.getWith f k.p k.t k.c with
      | error e => rw [hg] at ho; cases ho
      | ok r =>
        obtain ⟨e, s2⟩ := r
        rw [hg] at ho
        cases ho
        rcases getWith_cases hs hg with ⟨h1, _, _, rfl⟩ | ⟨h1, h2, rfl⟩
        · exact ⟨ins, .hitGet ih k h1 e hg⟩
        · exact ⟨_, .missGet ih k h1 e e h2 hg⟩
    | add k =>
      rcases addWith_cases hs ho with ⟨h1, rfl⟩ | ⟨h1, d, h2, rfl⟩
      · exact ⟨ins, .hitAdd ih k h1 ho⟩
      · exact ⟨_, .missAdd ih k h1 d h2 ho⟩
    | reset =>
      cases ho
      exact ⟨[], .reset ih⟩

/-- Effect of a hit. -/
theorem run_hit {f : Compute α} {s s' : Storage α} {k : Key α} (hk : s.has k) {op : CacheOp α}
    (hop : op = .get k ∨ op = .add k) (ho : op.run f s = .ok s') : s' = s := by
  rcases hop with rfl | rfl
  · obtain ⟨e, _, _, h⟩ := getWith_hit f s k hk
    simp only [CacheOp.run, h, Except.map] at ho
    cases ho; rfl
  · simp only [CacheOp.run, addWith_hit f s k hk] at ho
    cases ho; rfl

/-- Effect of a miss. -/
theorem run_miss {f : Compute α} {s s' : Storage α} (hs : Shape s) {k : Key α} (hk : ¬ s.has k)
    {op : CacheOp α} (hop : op = .get k ∨ op = .add k) (ho : op.run f s = .ok s') :
    ∃ d, f k.p k.t k.c = .ok d ∧ s' = ⟨s.slots.set s.pos d, s.pos + 1⟩ := by
  rcases hop with rfl | rfl
  · cases hd : f k.p k.t k.c with
    | error e =>
      simp only [CacheOp.run, getWith_miss_error hk hd, Except.map] at ho
      cases ho
    | ok d =>
      simp only [CacheOp.run, getWith_miss_ok hs hk hd, Except.map] at ho
      cases ho
      exact ⟨d, rfl, rfl⟩
  · rcases addWith_cases hs ho with ⟨h, _⟩ | ⟨_, d, hd, rfl⟩
    · exact absurd h hk
    · exact ⟨d, hd, rfl⟩

theorem pos_set {s : Storage α} (hs : Shape s) (d : DataPoint α) :
    (⟨s.slots.set s.pos d, s.pos + 1⟩ : Storage α).pos = (s.pos + 1) % max_storage_data := by
  have hp := shape_pos hs
  rw [hs.1] at hp
  unfold Storage.pos
  simp only [List.length_set, hs.1]
  by_cases h : (if s.index = max_storage_data then 0 else s.index) + 1 = max_storage_data
  · rw [if_pos h, h, Nat.mod_self]
  · rw [if_neg h]
    refine (Nat.mod_eq_of_lt ?_).symm
    unfold Storage.pos at hp
    rw [hs.1] at hp
    omega

/-- After `n` misses the write position has advanced by `n`, and every slot not among the `n`
written ones is unchanged. -/
theorem steps_slots {f : Compute α} {s s' : Storage α} {n : Nat} (hs : Shape s)
    (h : Steps f s n s') :
    Shape s' ∧ s'.pos = (s.pos + n) % max_storage_data ∧
    ∀ k, (∀ j < n, (s.pos + j) % max_storage_data ≠ k) → s'.slots[k]? = s.slots[k]? := by
  induction h with
  | refl =>
    have hp := shape_pos hs
    rw [hs.1] at hp
    exact ⟨hs, by simp [Nat.mod_eq_of_lt hp], fun k _ => rfl⟩
  | hit h k hk op hop ho ih =>
    rw [run_hit hk hop ho]; exact ih
  | miss h k hk op hop ho ih =>
    obtain ⟨d, _, rfl⟩ := run_miss ih.1 hk hop ho
    refine ⟨shape_set ih.1 d, ?_, ?_⟩
    · rw [pos_set ih.1, ih.2.1, Nat.mod_add_mod, Nat.add_assoc]
    · intro k hk
      rw [← ih.2.2 k (fun j hj => hk j (by omega))]
      apply List.getElem?_set_ne
      rw [ih.2.1]
      exact hk _ (by omega)

end Catima
