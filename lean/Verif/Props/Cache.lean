import Verif.Lemmas.Ring
import Verif.Lemmas.CacheDP
import Verif.Lemmas.Structures

/-!
# C08-C12, C16-C18: the cache of computed tables

The fill function is a parameter `f`; the library uses `Storage.computeDP env`
(`calculate_DataPoint` followed by the construction of the interpolators), which is faithful by
`computeDP_faithful`.  `Props/Api` lifts the invariants to histories of library calls.
-/

set_option linter.unusedSectionVars false

namespace Catima
variable {α : Type} [Scalar α]

/-! ## C08 -/

/-- C08 (cache level): 60 slots and an index between 0 and 60 after every history. -/
theorem cache_shape (f : Compute α) (s : Storage α) (h : Reachable f s) :
    s.getN = 60 ∧ s.index ≤ 60 := reachable_shape h

/-! ## C09 -/

/-- C09: the returned entry matches the request; on a miss it is the freshly computed one, and it
is stored. -/
theorem get_returns_match (f : Compute α) (hf : f.Faithful) (s s' : Storage α) (h : Reachable f s)
    (k : Key α) (hk : k.eq k = true) (e : DataPoint α)
    (hg : s.getWith f k.p k.t k.c = .ok (e, s')) :
    e.key.eq k = true ∧ e ∈ s'.slots ∧ (¬ s.has k → f k.p k.t k.c = .ok e ∧ e.key = k) := by
  rcases getWith_cases (reachable_shape h) hg with ⟨h1, h2, h3, rfl⟩ | ⟨h1, h2, rfl⟩
  · exact ⟨h3, h2, fun h => absurd h1 h⟩
  · have hkey := (hf _ _ _ _ h2).1
    refine ⟨by rw [hkey]; exact hk, ?_, fun _ => ⟨h2, hkey⟩⟩
    exact List.mem_set (shape_pos (reachable_shape h)) _

/-- C09: a query fails only if the computation of the tables fails. -/
theorem get_succeeds (f : Compute α) (s : Storage α) (h : Reachable f s) (k : Key α)
    (hc : ∃ d, f k.p k.t k.c = .ok d) : ∃ r, s.getWith f k.p k.t k.c = .ok r := by
  by_cases hk : s.has k
  · obtain ⟨e, _, _, h⟩ := getWith_hit f s k hk
    exact ⟨_, h⟩
  · obtain ⟨d, hd⟩ := hc
    exact ⟨_, getWith_miss_ok (reachable_shape h) hk hd⟩

/-! ## C10 -/

/-- C10: `Get` and `Add` of a stored key leave the cache unchanged; the fill function is not
consulted (the statement holds for every `f`). -/
theorem hit_unchanged (f : Compute α) (s : Storage α) (k : Key α) (hk : s.has k) :
    (∃ e ∈ s.slots, e.key.eq k = true ∧ ∀ g : Compute α, s.getWith g k.p k.t k.c = .ok (e, s)) ∧
    s.addWith f k.p k.t k.c = .ok s := by
  refine ⟨?_, addWith_hit f s k hk⟩
  obtain ⟨e, h1, h2, h3⟩ := getWith_hit f s k hk
  refine ⟨e, h1, h2, fun g => ?_⟩
  obtain ⟨e', _, _, h3'⟩ := getWith_hit g s k hk
  cases hfd : s.slots.find? (Storage.hit k.p k.t k.c) with
  | none => exact absurd hk ((find_none_iff s k).mp hfd)
  | some e'' =>
    rw [Storage.getWith, hfd] at h3
    cases h3
    rw [Storage.getWith, hfd]

/-- C10: repeating a query returns the same entry, changes nothing and computes nothing. -/
theorem repeated_get (f : Compute α) (hf : f.Faithful) (s s' : Storage α) (h : Reachable f s)
    (k : Key α) (hk : k.eq k = true) (e : DataPoint α)
    (hg : s.getWith f k.p k.t k.c = .ok (e, s')) (g : Compute α) :
    s'.getWith g k.p k.t k.c = .ok (e, s') := by
  have hs := reachable_shape h
  by_cases hh : s.has k
  · obtain ⟨⟨e', _, _, h3⟩, _⟩ := hit_unchanged f s k hh
    have := h3 f
    rw [hg] at this
    cases this
    exact h3 g
  · rcases getWith_cases hs hg with ⟨h1, _⟩ | ⟨_, h2, rfl⟩
    · exact absurd h1 hh
    · have hn := (find_none_iff s k).mpr hh
      rw [Storage.getWith, find_set _ _ _ (shape_pos hs) e]
      · intro x hx
        have := List.find?_eq_none.mp hn x hx
        simpa using this
      · rw [hit_eq, (hf _ _ _ _ h2).1]
        exact hk

/-! ## C11 -/

/-- C11: the cache holds the last `min n 60` entries computed since the start or the last reset:
in insertion order while fewer than 60, as a ring afterwards. -/
theorem fifo_contents (f : Compute α) (s : Storage α) (ins : List (DataPoint α))
    (h : Trace f s ins) :
    (ins.length ≤ 60 → s.slots = ins ++ List.replicate (60 - ins.length) DataPoint.default) ∧
    (60 ≤ ins.length →
      s.slots.rotate (ins.length % 60) = ins.drop (ins.length - 60)) :=
  ⟨(trace_ring h).small, (trace_ring h).big⟩

/-- Every reachable cache has such a history. -/
theorem fifo_every_history (f : Compute α) (s : Storage α) (h : Reachable f s) :
    ∃ ins, Trace f s ins := reachable_trace h

/-- C11: an entry computed by a miss is still in its slot after up to 59 further misses and any
number of hits, and the 60th miss replaces exactly that slot. -/
theorem fifo_eviction (f : Compute α) (s s' : Storage α) (h : Reachable f s) (k : Key α)
    (hk : ¬ s.has k) (op : CacheOp α) (hop : op = .get k ∨ op = .add k)
    (ho : op.run f s = .ok s') :
    ∃ (i : Nat) (d : DataPoint α), f k.p k.t k.c = .ok d ∧
      (∀ (n : Nat) (s'' : Storage α), n ≤ 59 → Steps f s' n s'' → s''.slots[i]? = some d) ∧
      (∀ (s'' s''' : Storage α) (k' : Key α), Steps f s' 59 s'' → ¬ s''.has k' → ∀ op' : CacheOp α,
        (op' = .get k' ∨ op' = .add k') → op'.run f s'' = .ok s''' →
        ∃ d', f k'.p k'.t k'.c = .ok d' ∧ s'''.slots[i]? = some d' ∧
          ∀ j : Nat, j ≠ i → s'''.slots[j]? = s''.slots[j]?) := by
  have hs := reachable_shape h
  have hp := shape_pos hs
  obtain ⟨d, hd, rfl⟩ := run_miss hs hk hop ho
  have hp' : s.pos < 60 := by have := hs.1; simp only [max_storage_data] at this; omega
  refine ⟨s.pos, d, hd, ?_, ?_⟩
  · intro n s'' hn hst
    have := (steps_slots (shape_set hs d) hst).2.2 s.pos ?_
    · rw [this]; simp [hp]
    · intro j hj
      rw [pos_set hs d]
      simp only [max_storage_data]
      omega
  · intro s'' s''' k' hst hk' op' hop' ho'
    have hsl := steps_slots (shape_set hs d) hst
    obtain ⟨d', hd', rfl⟩ := run_miss hsl.1 hk' hop' ho'
    have hpos : s''.pos = s.pos := by
      rw [hsl.2.1, pos_set hs d]
      simp only [max_storage_data]
      omega
    have hlen := hsl.1.1
    refine ⟨d', hd', ?_, ?_⟩
    · have := shape_pos hsl.1
      rw [hpos] at this
      simp [hpos, this]
    · intro j hj
      rw [hpos]
      simp [hj.symm]

/-! ## C12 -/

/-- C12: two different slots never hold computed entries with equal keys. -/
theorem no_duplicates (hsym : EqSymm α) (f : Compute α) (hf : f.Faithful) (s : Storage α)
    (h : Reachable f s) (i j : Nat) (hij : i ≠ j) (a b : DataPoint α)
    (ha : s.slots[i]? = some a) (hb : s.slots[j]? = some b)
    (hac : a.range ≠ []) (hbc : b.range ≠ []) : a.key.eq b.key = false := by
  induction h generalizing i j a b with
  | init =>
    have := mem_init (List.mem_of_getElem? ha)
    rw [this] at hac
    exact absurd rfl hac
  | @step s0 s1 hr op ho ih =>
    have hs := reachable_shape hr
    rcases op_cases hs op ho with rfl | rfl | ⟨k, d, hk, hd, rfl⟩
    · exact ih i j hij a b ha hb hac hbc
    · have := mem_init (List.mem_of_getElem? ha)
      rw [this] at hac
      exact absurd rfl hac
    · have hkey := (hf _ _ _ _ hd).1
      have hno : ∀ e ∈ s0.slots, e.key.eq d.key = false := by
        intro e he
        rw [hkey]
        cases hc : e.key.eq k with
        | false => rw [← hc]
        | true => exact absurd ⟨e, he, hc⟩ hk
      simp only [List.getElem?_set] at ha hb
      by_cases h1 : s0.pos = i
      · rw [if_pos h1] at ha
        rw [if_neg (by omega)] at hb
        split at ha
        · cases ha
          rw [key_eq_symm hsym]
          exact hno b (List.mem_of_getElem? hb)
        · cases ha
      · rw [if_neg h1] at ha
        by_cases h2 : s0.pos = j
        · rw [if_pos h2] at hb
          split at hb
          · cases hb
            exact hno a (List.mem_of_getElem? ha)
          · cases hb
        · rw [if_neg h2] at hb
          exact ih i j hij a b ha hb hac hbc

/-! ## C16 -/

/-- C16, the part that holds: a query whose key does not equal the default key returns an entry
that was computed by the fill function.  Missing: the default key, see `default_key_faults`. -/
theorem returned_entry_computed_partial (f : Compute α) (s s' : Storage α) (h : Reachable f s)
    (k : Key α) (hk : Key.default.eq k = false) (e : DataPoint α)
    (hg : s.getWith f k.p k.t k.c = .ok (e, s')) :
    ∃ p t c, f p t c = .ok e := by
  have hent : ∀ e ∈ s.slots, e = .default ∨ ∃ p t c, f p t c = .ok e :=
    reachable_entries (P := fun e => e = .default ∨ ∃ p t c, f p t c = .ok e) (.inl rfl)
      (fun p t c d hd => .inr ⟨p, t, c, hd⟩) h
  rcases getWith_cases (reachable_shape h) hg with ⟨_, h2, h3, rfl⟩ | ⟨_, h2, _⟩
  · rcases hent e h2 with rfl | h
    · rw [show (DataPoint.default : DataPoint α).key = Key.default from rfl, hk] at h3
      cases h3
    · exact h
  · exact ⟨_, _, _, h2⟩

/-! ## C17 -/

/-- C17, the part that holds.  The slot a query refers to keeps its entry through `n` misses if the
slot is at least `n` positions ahead of the write position; for a freshly computed entry that is 59
misses.  Missing: for a cache hit the slot may be the next one to be overwritten, see
`reference_of_hit_lost`. -/
theorem reference_lifetime_partial (f : Compute α) (s s' : Storage α) (h : Reachable f s)
    (k : Key α) (e : DataPoint α) (hg : s.getWith f k.p k.t k.c = .ok (e, s')) :
    ∃ i < 60, s'.slots[i]? = some e ∧
      (¬ s.has k → (i + 60 - s'.index % 60) % 60 = 59) ∧
      ∀ n s'', n ≤ (i + 60 - s'.index % 60) % 60 → Steps f s' n s'' → s''.slots[i]? = some e := by
  have hs := reachable_shape h
  have hp := shape_pos hs
  have key : ∀ (s' : Storage α) (i : Nat), Shape s' → i < 60 → s'.slots[i]? = some e →
      ∀ n s'', n ≤ (i + 60 - s'.index % 60) % 60 → Steps f s' n s'' → s''.slots[i]? = some e := by
    intro s' i hs' hi he n s'' hn hst
    rw [(steps_slots hs' hst).2.2 i ?_, he]
    intro j hj
    have h1 := hs'.1
    have h2 := hs'.2
    have : s'.pos = s'.index % 60 := by
      unfold Storage.pos
      by_cases hc : s'.index = s'.slots.length
      · rw [if_pos hc, hc, h1]; rfl
      · rw [if_neg hc]
        refine (Nat.mod_eq_of_lt ?_).symm
        simp only [max_storage_data] at h1 h2
        omega
    rw [this]
    simp only [max_storage_data] at h2 ⊢
    omega
  rcases getWith_cases hs hg with ⟨h1, h2, h3, rfl⟩ | ⟨h1, h2, rfl⟩
  · obtain ⟨i, hi, rfl⟩ := List.mem_iff_getElem.mp h2
    have hi' : i < 60 := by have := hs.1; simp only [max_storage_data] at this; omega
    exact ⟨i, hi', by simp [hi], fun h => absurd h1 h, key _ i hs hi' (by simp [hi])⟩
  · have hp' : s.pos < 60 := by have := hs.1; simp only [max_storage_data] at this; omega
    refine ⟨s.pos, hp', by simp [hp], fun _ => ?_, key _ _ (shape_set hs e) hp' (by simp [hp])⟩
    show (s.pos + 60 - (s.pos + 1) % 60) % 60 = 59
    omega

/-! ## C18 -/

/-- Run a list of operations. -/
def runOps (f : Compute α) : List (CacheOp α) → Storage α → M (Storage α)
  | [], s => .ok s
  | o :: os, s => do runOps f os (← o.run f s)

/-- C18: after `Reset` every further sequence of operations, and every query after it, behaves as
in a fresh process; and every query whose key does not equal the default key is computed anew. -/
theorem reset_fresh (f : Compute α) (s : Storage α) (k : Key α) (ops : List (CacheOp α)) :
    runOps f ops s.reset = runOps f ops .init ∧
    s.reset.getWith f k.p k.t k.c = (Storage.init : Storage α).getWith f k.p k.t k.c ∧
    (Key.default.eq k = false →
      (s.reset.getWith f k.p k.t k.c).map Prod.fst = f k.p k.t k.c) := by
  refine ⟨rfl, rfl, fun hk => ?_⟩
  have hn : ¬ (Storage.init : Storage α).has k := by
    rintro ⟨e, he, h⟩
    rw [mem_init he, show (DataPoint.default : DataPoint α).key = Key.default from rfl, hk] at h
    cases h
  show ((Storage.init : Storage α).getWith f k.p k.t k.c).map Prod.fst = _
  cases hd : f k.p k.t k.c with
  | error e => rw [getWith_miss_error hn hd]; rfl
  | ok d => rw [getWith_miss_ok shape_init hn hd]; rfl

/-! ## Real-number instances: refutations and examples -/

/-- Different projectiles with mass number 1, 2, 3, ... and one target. -/
noncomputable def sampleKey (n : Nat) : Key ℝ :=
  ⟨⟨(n : ℝ) + 1, 1, 1, 10⟩, ⟨2, 1, 12, 0, [⟨12, 6, 1⟩]⟩, .default⟩

theorem sampleKey_eq (n m : Nat) : (sampleKey n).eq (sampleKey m) = true ↔ n = m := by
  constructor
  · intro h
    simp only [Key.eq, Bool.and_eq_true, sampleKey, Projectile.eq, beq_real] at h
    have := h.1.1.1.1
    exact_mod_cast (add_right_cancel this)
  · rintro rfl
    simp only [Key.eq, Bool.and_eq_true, material_eq_iff]
    refine ⟨⟨?_, ?_⟩, ?_⟩
    · simp [Projectile.eq]
    · norm_num
    · simp only [Config.eq, Scalar.gt, sub_self, fabs_real, abs_zero]
      norm_num

theorem default_ne_sample (n : Nat) : Key.default.eq (sampleKey n) = false := by
  simp [Key.eq, Key.default, sampleKey, Projectile.eq, Projectile.default]
  norm_num

/-- `n` different queries in a fresh process. -/
theorem sample_trace (f : Compute ℝ) (hf : f.Faithful)
    (hok : ∀ n, ∃ d, f (sampleKey n).p (sampleKey n).t (sampleKey n).c = .ok d) (n : Nat)
    (hn : n ≤ 60) : ∃ s ins, Trace f s ins ∧ Reachable f s ∧
      ins.map DataPoint.key = (List.range n).map sampleKey := by
  induction n with
  | zero => exact ⟨_, _, .init, .init, rfl⟩
  | succ n ih =>
    obtain ⟨s, ins, ht, hr, hkeys⟩ := ih (by omega)
    have hlen : ins.length = n := by simpa using congrArg List.length hkeys
    obtain ⟨d, hd⟩ := hok n
    have hs := reachable_shape hr
    have hno : ¬ s.has (sampleKey n) := by
      rintro ⟨e, he, hk⟩
      rw [(fifo_contents f s ins ht).1 (by omega), List.mem_append] at he
      rcases he with he | he
      · have := List.mem_map_of_mem (f := DataPoint.key) he
        rw [hkeys, List.mem_map] at this
        obtain ⟨m, hm, hme⟩ := this
        rw [← hme, sampleKey_eq] at hk
        simp at hm
        omega
      · rw [(List.mem_replicate.mp he).2, show (DataPoint.default : DataPoint ℝ).key = Key.default from rfl,
          default_ne_sample] at hk
        cases hk
    have hg := getWith_miss_ok hs hno hd
    refine ⟨_, _, .missGet ht _ hno _ d hd hg, .step hr (.get (sampleKey n)) (by
      simp only [CacheOp.run, hg, Except.map]), ?_⟩
    rw [List.map_append, hkeys, List.range_succ, List.map_append]
    simp [(hf _ _ _ _ hd).1]

/-- C17 fails for cache hits: after 60 different queries, a hit on the first one refers to a slot
that the next miss overwrites with data for another projectile.  (Stated for every fill function
that succeeds on the sample queries.) -/
theorem reference_of_hit_lost (f : Compute ℝ) (hf : f.Faithful)
    (hok : ∀ n, ∃ d, f (sampleKey n).p (sampleKey n).t (sampleKey n).c = .ok d) :
    ∃ (s s' : Storage ℝ) (e d : DataPoint ℝ), Reachable f s ∧ e.key = sampleKey 0 ∧
      s.getWith f (sampleKey 0).p (sampleKey 0).t (sampleKey 0).c = .ok (e, s) ∧
      s.slots[0]? = some e ∧ Steps f s 1 s' ∧ s'.slots[0]? = some d ∧
      d.key.eq (sampleKey 0) = false := by
  obtain ⟨s, ins, ht, hr, hkeys⟩ := sample_trace f hf hok 60 le_rfl
  have hlen : ins.length = 60 := by simpa using congrArg List.length hkeys
  have hs := reachable_shape hr
  have hsl := (fifo_contents f s ins ht).1 (by omega)
  simp only [hlen, Nat.sub_self, List.replicate_zero, List.append_nil] at hsl
  obtain ⟨d, hd⟩ := hok 60
  have hno : ¬ s.has (sampleKey 60) := by
    rintro ⟨e, he, hk⟩
    rw [hsl] at he
    have := List.mem_map_of_mem (f := DataPoint.key) he
    rw [hkeys, List.mem_map] at this
    obtain ⟨m, hm, hme⟩ := this
    rw [← hme, sampleKey_eq] at hk
    simp at hm
    omega
  have h0 : 0 < ins.length := by omega
  have hk0 : ins[0].key = sampleKey 0 := by
    have : (ins.map DataPoint.key)[0]'(by simpa using h0) = sampleKey 0 := by simp [hkeys]
    simpa using this
  have hpos : s.pos = 0 := by
    have := (trace_ring ht).idx
    rw [hlen] at this
    exact this
  refine ⟨s, ⟨s.slots.set s.pos d, s.pos + 1⟩, ins[0], d, hr, hk0, ?_, ?_, .miss .refl (sampleKey 60) hno (.get (sampleKey 60)) (.inl rfl) (by
    simp only [CacheOp.run, getWith_miss_ok hs hno hd, Except.map]), ?_, ?_⟩
  · have : s.slots.find? (Storage.hit (sampleKey 0).p (sampleKey 0).t (sampleKey 0).c) = some ins[0] := by
      rw [hsl]
      cases ins with
      | nil => simp at h0
      | cons a l =>
        rw [List.find?_cons, hit_eq]
        simp only [List.getElem_cons_zero] at hk0
        rw [hk0, (sampleKey_eq 0 0).mpr rfl]
        rfl
    rw [Storage.getWith, this]
  · rw [hsl]; simp
  · simp [hpos, hsl, hlen]
  · rw [(hf _ _ _ _ hd).1]
    cases h : (sampleKey 60).eq (sampleKey 0) with
    | false => rw [← h]
    | true => exact absurd ((sampleKey_eq 60 0).mp h) (by omega)

/-- C16 fails for the default key: in a fresh process `get_data(Projectile(), Material(), Config())`
is a hit on a slot that was never computed; its tables are empty. -/
theorem default_key_uncomputed (env : Env ℝ) :
    get_data env .default .default .default World.init = .ok (DataPoint.default, World.init) := by
  have hhas : (Storage.init : Storage ℝ).has Key.default := by
    refine ⟨.default, by simp [Storage.init, max_storage_data], ?_⟩
    show Key.default.eq Key.default = true
    simp only [Key.eq, Key.default, Bool.and_eq_true, material_eq_iff]
    refine ⟨⟨?_, ?_⟩, ?_⟩
    · simp [Projectile.eq]
    · norm_num
    · simp only [Config.eq, Scalar.gt, sub_self, fabs_real, abs_zero]
      norm_num
  obtain ⟨e, he, _, hg⟩ := getWith_hit (Storage.computeDP env) _ _ hhas
  rw [mem_init he] at hg
  simp only [get_data, World.init]
  simp only [Key.default] at hg
  rw [hg]
  rfl

/-- C16 fails: what reading the interpolators of that slot does, in both build variants. -/
theorem default_key_faults (env : Env ℝ) : ∃ e,
    get_range_spline env DataPoint.default = .error e ∧
    e = if env.storeSplines then .uninitialised else .outOfBounds := by
  refine ⟨_, ?_, rfl⟩
  unfold get_range_spline
  by_cases h : env.storeSplines = true
  · simp only [h, if_true, DataPoint.default]
  · rw [if_neg h, if_neg h, newSpline, Spline.new, if_pos]
    simp [EnergyTable.grid, energy_table, max_datapoints, DataPoint.default]

/-! A fill function that always succeeds. -/

/-- Stores the key and a one-element table. -/
noncomputable def toyCompute : Compute ℝ := fun p t c => .ok ⟨p, t, c, [1], [1], [1], none⟩

theorem toy_faithful : toyCompute.Faithful := by
  intro p t c d h
  cases h
  exact ⟨rfl, by simp⟩

/-- The hypotheses of the theorems above are met by a cache with 60 computed entries, in which the
key `sampleKey 59` is present and `sampleKey 60` is not. -/
example : ∃ s ins, Trace toyCompute s ins ∧ Reachable toyCompute s ∧ ins.length = 60 ∧
    s.has (sampleKey 59) ∧ (sampleKey 59).eq (sampleKey 59) = true ∧ EqSymm ℝ ∧
    Key.default.eq (sampleKey 59) = false := by
  obtain ⟨s, ins, ht, hr, hk⟩ := sample_trace toyCompute toy_faithful (fun n => ⟨_, rfl⟩) 60 le_rfl
  have hlen : ins.length = 60 := by simpa using congrArg List.length hk
  have hsl := (fifo_contents _ s ins ht).1 (by omega)
  refine ⟨s, ins, ht, hr, hlen, ?_, (sampleKey_eq _ _).mpr rfl, eqSymm_real, default_ne_sample _⟩
  have : sampleKey 59 ∈ ins.map DataPoint.key := by
    rw [hk]; exact List.mem_map_of_mem (by simp)
  obtain ⟨e, he, hek⟩ := List.mem_map.mp this
  exact ⟨e, by rw [hsl]; exact List.mem_append_left _ he, by rw [hek]; exact (sampleKey_eq _ _).mpr rfl⟩

/-- A miss exists in a fresh process. -/
example : ¬ (Storage.init : Storage ℝ).has (sampleKey 0) ∧
    ∃ r, (Storage.init : Storage ℝ).getWith toyCompute (sampleKey 0).p (sampleKey 0).t (sampleKey 0).c
      = .ok r := by
  have h : ¬ (Storage.init : Storage ℝ).has (sampleKey 0) := by
    rintro ⟨e, he, h⟩
    rw [mem_init he, show (DataPoint.default : DataPoint ℝ).key = Key.default from rfl,
      default_ne_sample] at h
    cases h
  exact ⟨h, _, getWith_miss_ok shape_init h rfl⟩

end Catima
