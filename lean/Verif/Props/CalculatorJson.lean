import Verif.Spec.Document
import Verif.Props.Calculator

/-!
# C116, C117: what the calculator does with a JSON document
-/

namespace Catima

/-- The computation ends with the value `b`. -/
def Yields {β : Type} (m : J β) (b : β) : Prop := m.run = .ok (some b)

/-- The computation throws. -/
def Throws {β : Type} (m : J β) : Prop := m.run = .ok none

theorem yields_pure {β : Type} (b : β) : Yields (pure b : J β) b := rfl

theorem yields_bind {β γ : Type} {m : J β} {f : β → J γ} {a : β} {b : γ} (h : Yields m a) (h' : Yields (f a) b) : Yields (m >>= f) b := by
  unfold Yields at *
  show OptionT.run (OptionT.bind m f) = _
  unfold OptionT.bind OptionT.mk OptionT.run at *
  rw [h]
  exact h'

theorem throws_bind {β γ : Type} {m : J β} {f : β → J γ} (h : Throws m) : Throws (m >>= f) := by
  unfold Throws at *
  show OptionT.run (OptionT.bind m f) = _
  unfold OptionT.bind OptionT.mk OptionT.run at *
  rw [h]
  rfl

theorem throws_bind' {β γ : Type} {m : J β} {f : β → J γ} {a : β} (h : Yields m a) (h' : Throws (f a)) : Throws (m >>= f) := by
  unfold Yields Throws at *
  show OptionT.run (OptionT.bind m f) = _
  unfold OptionT.bind OptionT.mk OptionT.run at *
  rw [h]
  exact h'

theorem yields_lift {β : Type} {m : M β} {b : β} (h : m = .ok b) : Yields (liftM m : J β) b := by
  subst h; rfl

theorem find_entry {l : List (String × Json ℝ)} {k : String} {v : Json ℝ} (h : HasEntry l k v) : (Json.obj l).find k = some v := by
  show Option.map Prod.snd _ = _
  cases hf : l.reverse.find? fun e => e.1 == k with
  | none =>
    have := List.find?_eq_none.mp hf (k, v) (by simpa using h.1)
    simp at this
  | some e =>
    have h1 := List.find?_some hf
    have h2 := List.mem_of_find?_eq_some hf
    obtain ⟨a, b⟩ := e
    have : a = k := by simpa using h1
    subst this
    rw [h.2 b (by simpa using h2)]
    rfl

theorem find_none {l : List (String × Json ℝ)} {k : String} (h : NoEntry l k) : (Json.obj l).find k = none := by
  show Option.map Prod.snd _ = _
  cases hf : l.reverse.find? fun e => e.1 == k with
  | none => rfl
  | some e =>
    have h1 := List.find?_some hf
    have h2 := List.mem_of_find?_eq_some hf
    obtain ⟨a, b⟩ := e
    have : a = k := by simpa using h1
    subst this
    exact absurd (by simpa using h2) (h b)

theorem isNumber_value {v : Json ℝ} {x : ℝ} (h : v.IsNumber x) : v.number? = some x := by
  rcases h with ⟨i, rfl, rfl⟩ | rfl
  · show some (ofInt i : ℝ) = _
    rw [ofInt_real]
  · rfl

theorem getDouble_yields {v : Json ℝ} {x : ℝ} (h : v.IsNumber x) : Yields v.getDouble x := by
  unfold Json.getDouble
  rw [isNumber_value h]
  exact yields_pure x

theorem wrap32_small (i : Int) (h0 : -2147483648 ≤ i) (h1 : i ≤ 2147483647) : wrap32 i = i := by
  unfold wrap32
  omega

theorem getInt_yields (i : Int) (h0 : -2147483648 ≤ i) (h1 : i ≤ 2147483647) : Yields (Json.int i : Json ℝ).getInt i := by
  show Yields (pure (wrap32 i)) i
  rw [wrap32_small i h0 h1]
  exact yields_pure i

theorem field_yields {l : List (String × Json ℝ)} {k : String} {x : ℝ} (h : NumberOrZero l k x) : Yields (jsonField (.obj l) k) x := by
  unfold jsonField
  rcases h with ⟨v, h1, h2⟩ | ⟨h1, rfl⟩
  · rw [find_entry h1]; exact getDouble_yields h2
  · rw [find_none h1]
    have : (0 : ℝ) = 0.0 := by norm_num
    rw [this]
    exact yields_pure _

theorem doc_projectile {l : List (String × Json ℝ)} {A Z : ℝ} (h : DocProjectile l A Z) :
    Yields (jsonProjectile (.obj l)) { (Projectile.default : Projectile ℝ) with A := A, Z := Z } := by
  obtain ⟨a, z, h1, h2, h3⟩ := h
  unfold jsonProjectile
  rw [find_entry h1]
  exact yields_bind (getDouble_yields h2) (yields_bind (getDouble_yields h3) (yields_pure _))

theorem doc_material {v : Json ℝ} {m : Material ℝ} (h : DocMaterial v m) : Yields (jsonMaterial v) m := by
  obtain ⟨l, z, a, d, th, I, rfl, hz, z1, z2, ha, hd, hth, hI, hm, hm'⟩ := h
  unfold jsonMaterial
  refine yields_bind (field_yields hd) (yields_bind (field_yields hth) (yields_bind (field_yields hI) (yields_bind (field_yields ha) ?_)))
  rw [find_entry hz]
  refine yields_bind (getInt_yields z (by omega) z2) ?_
  dsimp only
  rw [if_neg (by omega)]
  have e : (if (d ≤? 0.0) = true then element_density z else d) = if 0 < d then d else element_density z := by
    by_cases h0 : 0 < d
    · rw [if_pos h0, if_neg]
      rw [le_real]; norm_num; exact h0
    · rw [if_neg h0, if_pos]
      rw [le_real]; norm_num; linarith
  rw [e]
  by_cases h200 : z < 200
  · rw [if_pos h200]
    obtain ⟨hI0, rfl⟩ := hm h200
    by_cases hI1 : 0 < I
    · rw [if_pos (by show Scalar.lt (0.0 : ℝ) I = true; rw [lt_real]; norm_num; exact hI1)]
      exact yields_pure _
    · rw [if_neg (by show ¬ Scalar.lt (0.0 : ℝ) I = true; rw [lt_real]; norm_num; linarith)]
      have : I = 0 := by linarith
      subst this
      have e1 (m : Material ℝ) (h : m.i_potential = 0) : { m with i_potential := 0 } = m := by rw [← h]
      rw [e1 _ (by show (0.0 : ℝ) = 0; norm_num)]
      exact yields_pure _
  · rw [if_neg h200]
    obtain ⟨-, -, rfl⟩ := hm' (by omega)
    exact yields_pure _

theorem yields_mapM {vs : List (Json ℝ)} {ms : List (Material ℝ)} (h : List.Forall₂ DocMaterial vs ms) : Yields (vs.mapM jsonMaterial) ms := by
  induction h with
  | nil => exact yields_pure _
  | cons h1 _ ih =>
    rw [List.mapM_cons]
    exact yields_bind (doc_material h1) (yields_bind ih (yields_pure _))

theorem doc_layers {l : List (String × Json ℝ)} {ms : List (Material ℝ)} (h : DocMaterials l ms) : Yields (jsonLayers (.obj l)) ms := by
  unfold jsonLayers
  rcases h with ⟨v, m, h1, h2, rfl⟩ | ⟨vs, h1, h2⟩
  · rw [find_entry h1]
    obtain ⟨l', hv⟩ : ∃ l', v = .obj l' := by
      obtain ⟨l', _, _, _, _, _, hv, _⟩ := h2
      exact ⟨l', hv⟩
    subst hv
    exact yields_bind (doc_material h2) (yields_pure _)
  · rw [find_entry h1]
    exact yields_mapM h2

theorem filterMap_numbers {vs : List (Json ℝ)} {es : List ℝ} (h : List.Forall₂ Json.IsNumber vs es) : vs.filterMap Json.number? = es := by
  induction h with
  | nil => rfl
  | cons h1 _ ih => rw [List.filterMap_cons, isNumber_value h1, ih]

theorem linspace_points (a b : ℝ) (n : ℕ) (hn : 2 ≤ n) (hab : a < b) :
    linspace_vector a b n = (List.range n).map fun i : ℕ => a + i * ((b - a) / (n - 1)) := by
  obtain ⟨h1, h2, -⟩ := linspace_spec a b n hn hab
  apply List.ext_getElem?
  intro i
  by_cases hi : i < n
  · rw [h2 i hi, List.getElem?_map, List.getElem?_range hi]
    rfl
  · rw [List.getElem?_eq_none (by omega), List.getElem?_eq_none (by simp; omega)]

/-- At least three energies for a range. -/
def NotShort (v : Json ℝ) (es : List ℝ) : Prop := ∀ l, v = .obj l → 3 ≤ es.length

theorem doc_energies {stod : String → Option ℝ} {l : List (String × Json ℝ)} {v : Json ℝ} {es : List ℝ} (h : HasEntry l "energy" v)
    (hd : DocEnergies stod v es) (hs : NotShort v es) : Yields (jsonEnergies stod (.obj l)) es := by
  unfold jsonEnergies
  rw [find_entry h]
  cases hd with
  | number hx =>
    rcases hx with ⟨i, rfl, rfl⟩ | rfl
    · rw [← ofInt_real]
      exact yields_pure _
    · exact yields_pure _
  | string hx => dsimp only; rw [hx]; exact yields_pure _
  | array hx =>
    dsimp only
    rw [filterMap_numbers hx]
    exact yields_pure _
  | @step l' a b va vb k n h1 h1' h2 h2' h3 h4 k1 k2 n2 hn =>
    have n3 : 2 ≤ n := by have := hs l' rfl; simp at this; omega
    have hk0 : (0 : ℝ) < k := by exact_mod_cast k1
    have hdiv : (b - a) / (k : ℝ) = n := by rw [hn]; field_simp
    have hc : castInt ((1.0 : ℝ) + (b - a) / ofInt k) = .ok ((n + 1 : ℕ) : Int) := by
      rw [ofInt_real, hdiv, ← castInt_real ((n + 1 : ℕ) : Int) (by omega) (by omega)]
      congr 1
      push_cast
      norm_num
      ring
    have hlt : a < b := by
      have : 0 < b - a := by
        rw [hn]
        have : (2 : ℝ) ≤ n := by exact_mod_cast n3
        positivity
      linarith
    show Yields (jsonRange (.obj l')) _
    unfold jsonRange
    rw [find_entry h1, find_entry h2, find_entry h3, find_none h4]
    refine yields_bind (getDouble_yields h1') (yields_bind (getDouble_yields h2') ?_)
    dsimp only
    refine yields_bind (getInt_yields k (by omega) k2) ?_
    rw [if_neg (by omega)]
    refine yields_bind (yields_lift hc) ?_
    · refine yields_bind (yields_pure _) ?_
      rw [if_pos (by omega)]
      have e : ((List.range (n + 1)).map fun i : ℕ => a + i * (k : ℝ)) = linspace_vector a b (((n + 1 : ℕ) : Int)).toNat := by
        rw [Int.toNat_natCast, linspace_points a b (n + 1) (by omega) hlt]
        have : (b - a) / (((n + 1 : ℕ) : ℝ) - 1) = k := by
          push_cast
          rw [add_sub_cancel_right, hn]
          have : (n : ℝ) ≠ 0 := by
            have : n ≠ 0 := by omega
            exact_mod_cast this
          field_simp
        rw [this]
      rw [e]
      exact yields_pure _
  | @num l' a b va vb n h1 h1' h2 h2' h3 h4 n1 n2 hab =>
    have n3 : 3 ≤ n := by have := hs l' rfl; simpa using this
    show Yields (jsonRange (.obj l')) _
    unfold jsonRange
    rw [find_entry h1, find_entry h2, find_entry h3, find_none h4]
    refine yields_bind (getDouble_yields h1') (yields_bind (getDouble_yields h2') ?_)
    dsimp only
    refine yields_bind (yields_pure _) (yields_bind (getInt_yields n (by omega) (by omega)) ?_)
    rw [if_pos (by omega), Int.toNat_natCast, linspace_points a b n n1 hab]
    exact yields_pure _

/-- What the program does with a document it can read. -/
theorem calculatorFile_read {env : Env ℝ} {stod : String → Option ℝ} {j : Json ℝ} {p : Projectile ℝ} {es : List ℝ} {ms : List (Material ℝ)}
    (h : Yields (jsonInput stod j) (p, es, ms)) {w w' : World ℝ} {out : CalcOutput ℝ}
    (hrun : calculatorFile env stod (.parsed j) w = .ok (out, w')) :
    (ms = [] ∧ out = .noMaterial) ∨ (ms ≠ [] ∧ es = [] ∧ out = .noEnergy) ∨
    ms ≠ [] ∧ es ≠ [] ∧ ∃ rs, calcLoop env p ⟨ms⟩ (jsonConfig j) es w = .ok (rs, w') ∧
      out = .results p.A p.Z (ms.map fun m => (m.rho, m.th)) rs 1 := by
  unfold calculatorFile at hrun
  rw [api_bind] at hrun
  obtain ⟨o, w1, h1, h2⟩ := hrun
  rw [api_pureM] at h1
  obtain ⟨h1, rfl⟩ := h1
  rw [h] at h1
  cases h1
  dsimp only at h2
  by_cases hm : ms = []
  · subst hm
    rw [if_pos (by rfl)] at h2
    cases h2
    exact .inl ⟨rfl, rfl⟩
  · rw [if_neg (by simpa using hm)] at h2
    by_cases he : es = []
    · subst he
      rw [if_pos (by rfl)] at h2
      cases h2
      exact .inr (.inl ⟨hm, rfl, rfl⟩)
    · rw [if_neg (by simpa using he)] at h2
      rw [api_bind] at h2
      obtain ⟨rs, w2, h3, h4⟩ := h2
      cases h4
      exact .inr (.inr ⟨hm, he, rs, h3, rfl⟩)

theorem nonDefault_of_mass (p : Projectile ℝ) (hA : p.A ≠ 0) (t : Material ℝ) (c : Config ℝ) : NonDefault p t c := by
  unfold NonDefault Key.eq Projectile.eq
  have : Scalar.beq (0.0 : ℝ) p.A = false := by rw [beq_real_false]; norm_num; exact hA.symm
  have e : (Key.default : Key ℝ).p.A = 0.0 := rfl
  rw [e]
  dsimp only
  rw [this]
  rfl

/-- C116, the part that holds: a document as described is read without an error, and the program prints the given projectile and layers and,
for each of the described energies in this order, what `calculate` gives for the layers in a fresh process with the default
configuration.  Missing: ranges of fewer than three energies (`documented_range_wrong`), steps that are not integers or do not
divide the range (C83), `"config"` and the density of compounds (C80). -/
theorem documented_input_partial (env : Env ℝ) (stod : String → Option ℝ) (j : Json ℝ) (A Z : ℝ) (es : List ℝ) (ms : List (Material ℝ))
    (h : Documented stod j A Z es ms) (hA : A ≠ 0) (hm : ms ≠ []) (he : es ≠ [])
    (hs : ∀ l v, j = .obj l → HasEntry l "energy" v → NotShort v es) :
    Yields (jsonInput stod j) (⟨A, Z, 0, 0⟩, es, ms) ∧
    ∀ out w', calculatorFile env stod (.parsed j) .init = .ok (out, w') →
      ∃ rs, out = .results A Z (ms.map fun m => (m.rho, m.th)) rs 1 ∧ rs.map Prod.fst = es ∧
        ∀ x ∈ rs, (Call.calculate_layers ⟨A, Z, 0, x.1⟩ .init ⟨ms⟩ .default).respond env .init = .ok (.multi x.2) := by
  obtain ⟨l, v, rfl, h1, h2, h3, h4⟩ := h
  have hp : ({ (Projectile.default : Projectile ℝ) with A := A, Z := Z } : Projectile ℝ) = ⟨A, Z, 0, 0⟩ := by
    unfold Projectile.default
    norm_num
  have hy : Yields (jsonInput stod (.obj l)) (⟨A, Z, 0, 0⟩, es, ms) := by
    unfold jsonInput
    rw [← hp]
    exact yields_bind (doc_projectile h1) (yields_bind (doc_energies h2 h3 (hs l v rfl h2)) (yields_bind (doc_layers h4) (yields_pure _)))
  refine ⟨hy, fun out w' hrun => ?_⟩
  rcases calculatorFile_read hy hrun with ⟨h, -⟩ | ⟨-, h, -⟩ | ⟨-, -, rs, hr, rfl⟩
  · exact absurd h hm
  · exact absurd h he
  · obtain ⟨k1, k2⟩ := calcLoop_results eqLaws_real env ⟨A, Z, 0, 0⟩ ⟨ms⟩ _ (nonDefault_of_mass _ hA) es .init w'
      ⟨rfl, [], by simp, rfl⟩ rs hr
    exact ⟨rs, rfl, k1, k2⟩

/-- The last example of the documentation. -/
def docExample : Json ℝ := .obj [
  ("projectile", .arr [.float 11.99671, .int 6]),
  ("energy", .obj [("min", .int 100), ("max", .int 1000), ("step", .int 100)]),
  ("material", .obj [("A", .int 12), ("Z", .int 6), ("density", .float 2.0), ("thickness", .float 1.0)])]

theorem docExample_documented (stod : String → Option ℝ) :
    Documented stod docExample 11.99671 6 ((List.range 10).map fun i : ℕ => (100 : ℝ) + i * ((100 : Int) : ℝ))
      [{ Material.ofElement 12 6 2.0 1.0 with i_potential := 0 }] ∧
    ∀ l v, docExample = .obj l → HasEntry l "energy" v → NotShort v ((List.range 10).map fun i : ℕ => (100 : ℝ) + i * ((100 : Int) : ℝ)) := by
  refine ⟨⟨_, _, rfl, ⟨_, _, ⟨List.mem_cons_self, by simp⟩, .inr rfl, .inl ⟨6, rfl, by norm_num⟩⟩,
    ⟨.tail _ (List.mem_cons_self), by simp⟩, ?_, .inl ⟨_, _, ⟨.tail _ (.tail _ (List.mem_cons_self)), by simp⟩, ?_, rfl⟩⟩, ?_⟩
  · exact DocEnergies.step (n := 9) (a := 100) (b := 1000) ⟨List.mem_cons_self, by simp⟩ (.inl ⟨100, rfl, by norm_num⟩)
      ⟨.tail _ List.mem_cons_self, by simp⟩ (.inl ⟨1000, rfl, by norm_num⟩) ⟨.tail _ (.tail _ List.mem_cons_self), by simp⟩
      (by intro v; simp) (by norm_num) (by norm_num) (by norm_num) (by norm_num)
  · refine ⟨_, 6, 12, 2.0, 1.0, 0, rfl, ⟨.tail _ List.mem_cons_self, by simp⟩, by norm_num, by norm_num,
      .inl ⟨_, ⟨List.mem_cons_self, by simp⟩, .inl ⟨12, rfl, by norm_num⟩⟩,
      .inl ⟨_, ⟨.tail _ (.tail _ List.mem_cons_self), by simp⟩, .inr rfl⟩,
      .inl ⟨_, ⟨.tail _ (.tail _ (.tail _ List.mem_cons_self)), by simp⟩, .inr rfl⟩,
      .inr ⟨by intro v; simp, rfl⟩, ?_, by norm_num⟩
    intro _
    refine ⟨le_refl _, ?_⟩
    rw [if_pos (by norm_num)]
  · intro l v _ _ l' _
    simp

/-- The example satisfies the hypotheses: ten energies, one layer. -/
example (stod : String → Option ℝ) : ∃ es ms, Documented stod docExample 11.99671 6 es ms ∧ ms ≠ [] ∧ es.length = 10 ∧
    ∀ l v, docExample = .obj l → HasEntry l "energy" v → NotShort v es :=
  ⟨_, _, (docExample_documented stod).1, by simp, by simp, (docExample_documented stod).2⟩

theorem bind_yields {β γ : Type} {m : J β} {f : β → J γ} {b : γ} (h : Yields (m >>= f) b) : ∃ a, Yields m a ∧ Yields (f a) b := by
  unfold Yields at *
  change OptionT.run (OptionT.bind m f) = _ at h
  unfold OptionT.bind OptionT.mk OptionT.run at *
  cases hm : m with
  | error e => rw [hm] at h; cases h
  | ok o =>
    rw [hm] at h
    cases o with
    | none => cases h
    | some a => exact ⟨a, rfl, h⟩

theorem throw_yields {β : Type} {b : β} (h : Yields (J.throw : J β) b) : False := by cases h

theorem getDouble_number {v : Json ℝ} {x : ℝ} (h : Yields v.getDouble x) : v.IsNumber x := by
  unfold Json.getDouble Json.number? at h
  cases v with
  | int i =>
    cases h
    exact .inl ⟨i, rfl, ofInt_real i⟩
  | float y => cases h; exact .inr rfl
  | null => exact (throw_yields h).elim
  | bool b => exact (throw_yields h).elim
  | str b => exact (throw_yields h).elim
  | arr b => exact (throw_yields h).elim
  | obj b => exact (throw_yields h).elim

theorem field_number {l : List (String × Json ℝ)} {k : String} {v : Json ℝ} {x : ℝ} (hv : HasEntry l k v)
    (h : Yields (jsonField (.obj l) k) x) : v.IsNumber x := by
  unfold jsonField at h
  rw [find_entry hv] at h
  exact getDouble_number h

theorem material_not_bad {v : Json ℝ} {m : Material ℝ} (h : Yields (jsonMaterial v) m) : ¬ BadMaterial v := by
  intro hb
  unfold jsonMaterial at h
  rcases hb with hb | ⟨l, rfl, hb⟩
  · cases v with
    | obj l => exact hb l rfl
    | null => exact throw_yields h
    | bool b => exact throw_yields h
    | int b => exact throw_yields h
    | float b => exact throw_yields h
    | str b => exact throw_yields h
    | arr b => exact throw_yields h
  · dsimp only at h
    obtain ⟨d, hd, h⟩ := bind_yields h
    obtain ⟨th, hth, h⟩ := bind_yields h
    obtain ⟨I, hI, h⟩ := bind_yields h
    obtain ⟨a, ha, h⟩ := bind_yields h
    rcases hb with hb | ⟨z, hb, hz, hz'⟩ | ⟨s, hb⟩ | hb | ⟨k, hk, w, hw, hb⟩
    · rw [find_none hb] at h
      exact throw_yields h
    · rw [find_entry hb] at h
      obtain ⟨z', h1, h⟩ := bind_yields h
      have h2 := getInt_yields z hz (by omega)
      unfold Yields at h1 h2
      rw [h1] at h2
      cases h2
      rw [if_pos hz'] at h
      exact throw_yields h
    · rw [find_entry hb] at h
      obtain ⟨z', h1, h⟩ := bind_yields h
      exact throw_yields h1
    · rw [find_entry hb] at h
      obtain ⟨z', h1, h⟩ := bind_yields h
      exact throw_yields h1
    · simp only [List.mem_cons, List.not_mem_nil, or_false] at hk
      rcases hk with rfl | rfl | rfl | rfl
      · exact hb _ (field_number hw ha)
      · exact hb _ (field_number hw hd)
      · exact hb _ (field_number hw hth)
      · exact hb _ (field_number hw hI)

theorem mapM_not_bad {vs : List (Json ℝ)} {ms : List (Material ℝ)} (h : Yields (vs.mapM jsonMaterial) ms) : ∀ v ∈ vs, ¬ BadMaterial v := by
  induction vs generalizing ms with
  | nil => simp
  | cons v vs ih =>
    rw [List.mapM_cons] at h
    obtain ⟨m, h1, h⟩ := bind_yields h
    obtain ⟨ms', h2, h⟩ := bind_yields h
    intro u hu
    rcases List.mem_cons.mp hu with rfl | hu
    · exact material_not_bad h1
    · exact ih h2 u hu

theorem find_not_object {j : Json ℝ} (h : ∀ l, j ≠ .obj l) (k : String) : j.find k = none := by
  cases j with
  | obj l => exact absurd rfl (h l)
  | _ => rfl

theorem input_not_bad {stod : String → Option ℝ} {j : Json ℝ} {r : Projectile ℝ × List ℝ × List (Material ℝ)}
    (h : Yields (jsonInput stod j) r) : ¬ BadDocument stod j := by
  intro hb
  unfold jsonInput at h
  obtain ⟨p, h1, h⟩ := bind_yields h
  obtain ⟨es, h2, h⟩ := bind_yields h
  obtain ⟨ms, h3, -⟩ := bind_yields h
  unfold jsonProjectile at h1
  unfold jsonEnergies at h2
  unfold jsonLayers at h3
  cases hb with
  | notObject hn =>
    rw [find_not_object hn] at h1
    exact throw_yields h1
  | missing hk hn =>
    simp only [List.mem_cons, List.not_mem_nil, or_false] at hk
    rcases hk with rfl | rfl | rfl
    · rw [find_none hn] at h1; exact throw_yields h1
    · rw [find_none hn] at h2; exact throw_yields h2
    · rw [find_none hn] at h3; exact throw_yields h3
  | @projectile l vs he hn =>
    rw [find_entry he] at h1
    match vs, h1 with
    | [], h1 =>
      obtain ⟨A, h4, -⟩ := bind_yields h1
      exact throw_yields h4
    | [a], h1 =>
      obtain ⟨A, h4, h1⟩ := bind_yields h1
      obtain ⟨Z, h5, -⟩ := bind_yields h1
      exact throw_yields h5
    | a :: z :: rest, h1 =>
      obtain ⟨A, h4, h1⟩ := bind_yields h1
      obtain ⟨Z, h5, -⟩ := bind_yields h1
      exact hn a z rest A Z rfl (getDouble_number h4) (getDouble_number h5)
  | energy he hn =>
    rw [find_entry he] at h2
    dsimp only at h2
    rw [hn] at h2
    exact throw_yields h2
  | material he hv hb =>
    rw [find_entry he] at h3
    exact mapM_not_bad h3 _ hv hb
  | single he hb =>
    rw [find_entry he] at h3
    obtain ⟨m, h4, -⟩ := bind_yields h3
    exact material_not_bad h4 hb

/-- C117, the part that holds: when the program gets through a document that lacks something mandatory or has something of the wrong kind in
its place, it prints the error message only (and nothing is computed); so it does for a missing file and for one that is no JSON.
Missing: the cases of `loose_input_wrong`. -/
theorem bad_input_rejected_partial (env : Env ℝ) (stod : String → Option ℝ) (file : InputFile ℝ)
    (hf : ∀ j, file = .parsed j → BadDocument stod j) (w w' : World ℝ) (out : CalcOutput ℝ)
    (hrun : calculatorFile env stod file w = .ok (out, w')) : out = .badConfig ∧ w' = w := by
  cases file with
  | missing => cases hrun; exact ⟨rfl, rfl⟩
  | unparsable => cases hrun; exact ⟨rfl, rfl⟩
  | parsed j =>
    have hb := hf j rfl
    unfold calculatorFile at hrun
    rw [api_bind] at hrun
    obtain ⟨o, w1, h1, h2⟩ := hrun
    rw [api_pureM] at h1
    obtain ⟨h1, rfl⟩ := h1
    cases o with
    | none => cases h2; exact ⟨rfl, rfl⟩
    | some r => exact absurd hb (input_not_bad h1)

/-- The error message does appear: for the example without its projectile. -/
example (env : Env ℝ) (stod : String → Option ℝ) : BadDocument stod (.obj [("energy", .int 100), ("material", .arr [])] : Json ℝ) ∧
    calculatorFile env stod (.parsed (.obj [("energy", .int 100), ("material", .arr [])])) .init = .ok (.badConfig, .init) :=
  ⟨.missing (k := "projectile") (by simp) (by intro v; simp), rfl⟩

/-- A document with the given parts. -/
def docOf (projectile energy Z : Json ℝ) : Json ℝ :=
  .obj [("projectile", projectile), ("energy", energy), ("material", .obj [("Z", Z), ("thickness", .int 1)])]

/-- The layer of 1 g/cm² of the element `z`. -/
noncomputable def layerOf (z : Int) : Material ℝ := Material.ofElement 0 z (element_density z) 1

theorem read_layer {Z : Json ℝ} {z : Int} (hZ : Yields Z.getInt z) (h0 : 1 ≤ z) (h2 : z < 200) :
    Yields (jsonMaterial (.obj [("Z", Z), ("thickness", .int 1)])) (layerOf z) := by
  have hn (k : String) (h : k ≠ "Z" ∧ k ≠ "thickness") : NumberOrZero [("Z", Z), ("thickness", .int 1)] k 0 :=
    .inr ⟨by intro v hv; simp at hv; tauto, rfl⟩
  unfold jsonMaterial
  refine yields_bind (field_yields (hn "density" (by decide))) (yields_bind (field_yields (x := 1)
    (.inl ⟨_, ⟨.tail _ List.mem_cons_self, by simp⟩, .inl ⟨1, rfl, by norm_num⟩⟩)) (yields_bind (field_yields (hn "Ipot" (by decide)))
    (yields_bind (field_yields (hn "A" (by decide))) ?_)))
  rw [find_entry (v := Z) ⟨List.mem_cons_self, by simp⟩]
  refine yields_bind hZ ?_
  dsimp only
  have e1 : ((0 : ℝ) ≤? 0.0) = true := by rw [le_real]; norm_num
  have e2 : ((0 : ℝ) >? 0.0) = false := by show Scalar.lt (0.0 : ℝ) 0 = false; rw [lt_real_false]; norm_num
  rw [if_neg (by omega), if_pos h2, e1, e2]
  exact yields_pure _

theorem read_doc {stod : String → Option ℝ} {p e Z : Json ℝ} {pr : Projectile ℝ} {es : List ℝ} {z : Int}
    (hp : Yields (jsonProjectile (docOf p e Z)) pr) (he : Yields (jsonEnergies stod (docOf p e Z)) es) (hZ : Yields Z.getInt z)
    (h0 : 1 ≤ z) (h2 : z < 200) : Yields (jsonInput stod (docOf p e Z)) (pr, es, [layerOf z]) := by
  unfold jsonInput
  refine yields_bind hp (yields_bind he (yields_bind (a := [layerOf z]) ?_ (yields_pure _)))
  unfold jsonLayers docOf
  rw [find_entry ⟨.tail _ (.tail _ List.mem_cons_self), by simp⟩]
  exact yields_bind (read_layer hZ h0 h2) (yields_pure _)

theorem read_projectile (e Z : Json ℝ) : Yields (jsonProjectile (docOf (.arr [.int 12, .int 6]) e Z)) ⟨12, 6, 0, 0⟩ := by
  have := doc_projectile (l := [("projectile", .arr [.int 12, .int 6]), ("energy", e), ("material", .obj [("Z", Z), ("thickness", .int 1)])])
    (A := 12) (Z := 6) ⟨_, _, ⟨List.mem_cons_self, by simp⟩, .inl ⟨12, rfl, by norm_num⟩, .inl ⟨6, rfl, by norm_num⟩⟩
  unfold Projectile.default at this
  norm_num at this
  exact this

theorem read_energy (stod : String → Option ℝ) {p e Z : Json ℝ} {es : List ℝ} (h : DocEnergies stod e es) (hs : NotShort e es) :
    Yields (jsonEnergies stod (docOf p e Z)) es :=
  doc_energies ⟨.tail _ List.mem_cons_self, by simp⟩ h hs

/-- C117 does not hold: anything but an array as projectile (such as `"C12"`) is read as A = 0, Z = 0; in an array of energies whatever is not a
number is skipped, also the strings that the documentation shows; and as `"Z"` of a material `true` is taken for hydrogen, 6.9 and 2³² + 6 for carbon. -/
theorem loose_input_wrong (stod : String → Option ℝ) :
    (∀ v : Json ℝ, (∀ vs, v ≠ .arr vs) → Yields (jsonInput stod (docOf v (.int 100) (.int 6))) (⟨0, 0, 0, 0⟩, [100], [layerOf 6])) ∧
    (∀ s, Yields (jsonInput stod (docOf (.arr [.int 12, .int 6]) (.arr [.int 100, .str s]) (.int 6))) (⟨12, 6, 0, 0⟩, [100], [layerOf 6])) ∧
    Yields (jsonInput stod (docOf (.arr [.int 12, .int 6]) (.int 100) (.bool true))) (⟨12, 6, 0, 0⟩, [100], [layerOf 1]) ∧
    Yields (jsonInput stod (docOf (.arr [.int 12, .int 6]) (.int 100) (.float 6.9))) (⟨12, 6, 0, 0⟩, [100], [layerOf 6]) ∧
    Yields (jsonInput stod (docOf (.arr [.int 12, .int 6]) (.int 100) (.int (2 ^ 32 + 6)))) (⟨12, 6, 0, 0⟩, [100], [layerOf 6]) := by
  have e1 : DocEnergies stod (.int 100) [100] := .number (.inl ⟨100, rfl, by norm_num⟩)
  have n1 : NotShort (.int 100) [100] := by intro l hl; cases hl
  have h6 : Yields (Json.int 6 : Json ℝ).getInt 6 := getInt_yields 6 (by norm_num) (by norm_num)
  refine ⟨fun v hv => read_doc ?_ (read_energy stod e1 n1) h6 (by norm_num) (by norm_num),
    fun s => read_doc (read_projectile _ _) ?_ h6 (by norm_num) (by norm_num),
    read_doc (read_projectile _ _) (read_energy stod e1 n1) (yields_pure 1) (by norm_num) (by norm_num),
    read_doc (read_projectile _ _) (read_energy stod e1 n1) ?_ (by norm_num) (by norm_num),
    read_doc (read_projectile _ _) (read_energy stod e1 n1) ?_ (by norm_num) (by norm_num)⟩
  · have hp : (Projectile.default : Projectile ℝ) = ⟨0, 0, 0, 0⟩ := by
      unfold Projectile.default
      norm_num
    unfold jsonProjectile docOf
    rw [find_entry (v := v) ⟨List.mem_cons_self, by simp⟩, ← hp]
    cases v with
    | arr vs => exact absurd rfl (hv vs)
    | _ => exact yields_pure _
  · unfold jsonEnergies docOf
    rw [find_entry (v := .arr [.int 100, .str s]) ⟨.tail _ List.mem_cons_self, by simp⟩]
    have : ([Json.int 100, Json.str s] : List (Json ℝ)).filterMap Json.number? = [100] := by
      show [(ofInt 100 : ℝ)] = _
      rw [ofInt_real]; norm_num
    dsimp only
    rw [this]
    exact yields_pure _
  · refine yields_lift ?_
    unfold castInt
    have hf : ⌊(6.9 : ℝ)⌋ = 6 := by rw [Int.floor_eq_iff]; norm_num
    rw [toInt_real, if_pos (by constructor <;> norm_num), if_pos (by norm_num), hf]
  · exact yields_pure 6

/-- C116 does not hold for a range of two energies: `{"min":100,"max":200,"num":2}` is a documented input, and the program prints that no
energy is specified. -/
theorem documented_range_wrong (env : Env ℝ) (stod : String → Option ℝ) : ∃ j : Json ℝ,
    Documented stod j 12 6 [100, 200] [{ layerOf 6 with i_potential := 0 }] ∧
    calculatorFile env stod (.parsed j) .init = .ok (.noEnergy, .init) := by
  refine ⟨docOf (.arr [.int 12, .int 6]) (.obj [("min", .int 100), ("max", .int 200), ("num", .int 2)]) (.int 6), ?_, ?_⟩
  · refine ⟨_, _, rfl, ⟨_, _, ⟨List.mem_cons_self, by simp⟩, .inl ⟨12, rfl, by norm_num⟩, .inl ⟨6, rfl, by norm_num⟩⟩,
      ⟨.tail _ (List.mem_cons_self), by simp⟩, ?_, .inl ⟨_, _, ⟨.tail _ (.tail _ (List.mem_cons_self)), by simp⟩, ?_, rfl⟩⟩
    · have := DocEnergies.num (stod := stod) (l := [("min", .int 100), ("max", .int 200), ("num", .int 2)]) (n := 2) (a := 100) (b := 200)
        ⟨List.mem_cons_self, by simp⟩ (.inl ⟨100, rfl, by norm_num⟩)
        ⟨.tail _ List.mem_cons_self, by simp⟩ (.inl ⟨200, rfl, by norm_num⟩) ⟨.tail _ (.tail _ List.mem_cons_self), by simp⟩
        (by intro v; simp) (by norm_num) (by norm_num) (by norm_num)
      have e : ((List.range 2).map fun i : ℕ => (100 : ℝ) + i * ((200 - 100) / ((2 : ℕ) - 1))) = [100, 200] := by
        simp [List.range_succ]; norm_num
      rw [e] at this
      exact this
    · refine ⟨_, 6, 0, 0, 1, 0, rfl, ⟨List.mem_cons_self, by simp⟩, by norm_num, by norm_num, .inr ⟨by intro v; simp, rfl⟩,
        .inr ⟨by intro v; simp, rfl⟩, .inl ⟨_, ⟨.tail _ List.mem_cons_self, by simp⟩, .inl ⟨1, rfl, by norm_num⟩⟩,
        .inr ⟨by intro v; simp, rfl⟩, fun _ => ⟨le_refl _, ?_⟩, by norm_num⟩
      rw [if_neg (lt_irrefl _)]
      rfl
  · have hy : Yields (jsonInput stod (docOf (.arr [.int 12, .int 6]) (.obj [("min", .int 100), ("max", .int 200), ("num", .int 2)]) (.int 6)))
        (⟨12, 6, 0, 0⟩, [], [layerOf 6]) := by
      refine read_doc (read_projectile _ _) ?_ (getInt_yields 6 (by norm_num) (by norm_num)) (by norm_num) (by norm_num)
      unfold jsonEnergies docOf
      rw [find_entry (v := .obj [("min", .int 100), ("max", .int 200), ("num", .int 2)]) ⟨.tail _ List.mem_cons_self, by simp⟩]
      exact yields_pure _
    unfold calculatorFile
    exact api_bind.mpr ⟨some (⟨12, 6, 0, 0⟩, [], [layerOf 6]), .init, api_pureM.mpr ⟨hy, rfl⟩, rfl⟩

end Catima
