import Verif.Lemmas.Transparency

/-!
# The two builds with and without `STORE_SPLINES` run in lockstep
-/

set_option linter.unusedSectionVars false
set_option maxRecDepth 8000

namespace Catima
variable {α : Type} [Scalar α]

/-- Corresponding slots: same key; both uncomputed or equal interpolators. -/
def SlotRel (env : Env α) (b : Bool) (e e' : DataPoint α) : Prop :=
  e.key = e'.key ∧ ((e = .default ∧ e' = .default) ∨ DataEq env (env.withStore b) True e e')

/-- Corresponding states. -/
structure Lock (env : Env α) (b : Bool) (w w' : World α) : Prop where
  conf : w.default_config = w'.default_config
  cdef : w.c_defaults_z_effective = w'.c_defaults_z_effective
  shape : Shape w.storage
  idx : w.storage.index = w'.storage.index
  slots : List.Forall₂ (SlotRel env b) w.storage.slots w'.storage.slots

theorem find_forall₂ {β γ : Type} {R : β → γ → Prop} {p : β → Bool} {q : γ → Bool}
    (hpq : ∀ b c, R b c → p b = q c) {l : List β} {l' : List γ} (h : List.Forall₂ R l l') :
    (l.find? p = none ∧ l'.find? q = none) ∨
      ∃ b c, l.find? p = some b ∧ l'.find? q = some c ∧ R b c := by
  induction h with
  | nil => exact .inl ⟨rfl, rfl⟩
  | @cons b c l l' hbc _ ih =>
    rw [List.find?_cons, List.find?_cons, ← hpq b c hbc]
    cases hp : p b
    · exact ih
    · exact .inr ⟨b, c, rfl, rfl, hbc⟩

theorem forall₂_set {β γ : Type} {R : β → γ → Prop} {l : List β} {l' : List γ}
    (h : List.Forall₂ R l l') (i : Nat) {b : β} {c : γ} (hbc : R b c) :
    List.Forall₂ R (l.set i b) (l'.set i c) := by
  induction h generalizing i with
  | nil => exact .nil
  | cons h1 h2 ih =>
    cases i with
    | zero => exact .cons hbc h2
    | succ i => exact .cons h1 (ih i)

theorem forall₂_replicate {β γ : Type} {R : β → γ → Prop} {b : β} {c : γ} (h : R b c) (n : Nat) :
    List.Forall₂ R (List.replicate n b) (List.replicate n c) := by
  induction n with
  | zero => exact .nil
  | succ n ih => exact .cons h ih

theorem slotRel_default (env : Env α) (b : Bool) : SlotRel env b .default .default :=
  ⟨rfl, .inl ⟨rfl, rfl⟩⟩

/-- Both caches after the same query of a non-default key. -/
theorem lock_get (hl : EqLaws α) {env : Env α} {b : Bool} {w w' : World α} (h : Lock env b w w')
    (p : Projectile α) (t : Material α) (c : Config α) (hk : NonDefault p t c) :
    ERel (fun r r' => DataEq env (env.withStore b) True r.1 r'.1 ∧
        Lock env b { w with storage := r.2 } { w' with storage := r'.2 })
      (w.storage.getWith (Storage.computeDP env) p t c)
      (w'.storage.getWith (Storage.computeDP (env.withStore b)) p t c) := by
  have hshape' : Shape w'.storage :=
    ⟨by rw [← h.slots.length_eq]; exact h.shape.1, by rw [← h.idx]; exact h.shape.2⟩
  have hpos : w.storage.pos = w'.storage.pos := by
    unfold Storage.pos
    rw [h.idx, h.slots.length_eq]
  rcases find_forall₂ (p := Storage.hit p t c) (q := Storage.hit p t c)
    (fun e e' (hr : SlotRel env b e e') => by rw [hit_eq, hit_eq, hr.1]) h.slots with
    ⟨h1, h2⟩ | ⟨e, e', h1, h2, h3⟩
  · have hn := (find_none_iff w.storage ⟨p, t, c⟩).mp h1
    have hn' := (find_none_iff w'.storage ⟨p, t, c⟩).mp h2
    have hrel := computeDP_rel (env := env) (b := b) hl (Agree.refl p t c) True fun _ => rfl
    cases c1 : Storage.computeDP env p t c <;>
      cases c2 : Storage.computeDP (env.withStore b) p t c <;> rw [c1, c2] at hrel
    · have g1 := getWith_miss_error (k := ⟨p, t, c⟩) hn c1
      have g2 := getWith_miss_error (k := ⟨p, t, c⟩) hn' c2
      simp only at g1 g2
      rw [g1, g2]
      exact hrel
    · exact hrel.elim
    · exact hrel.elim
    · have g1 := getWith_miss_ok (k := ⟨p, t, c⟩) h.shape hn c1
      have g2 := getWith_miss_ok (k := ⟨p, t, c⟩) hshape' hn' c2
      simp only at g1 g2
      rw [g1, g2]
      refine ⟨hrel, h.conf, h.cdef, shape_set h.shape _, by rw [hpos], ?_⟩
      rw [hpos]
      refine forall₂_set h.slots _ ⟨?_, .inr hrel⟩
      rw [(computeDP_faithful _ _ _ _ _ c1).1, (computeDP_faithful _ _ _ _ _ c2).1]
  · unfold Storage.getWith
    rw [h1, h2]
    refine ⟨?_, h⟩
    rcases h3.2 with ⟨rfl, rfl⟩ | h4
    · have := List.find?_some h1
      rw [hit_eq, show (DataPoint.default : DataPoint α).key = Key.default from rfl, hk] at this
      cases this
    · exact h4

theorem addWith_eq_getWith (f : Compute α) (s : Storage α) (hs : Shape s) (p : Projectile α)
    (t : Material α) (c : Config α) :
    s.addWith f p t c = (s.getWith f p t c).map Prod.snd := by
  by_cases hh : s.has ⟨p, t, c⟩
  · obtain ⟨e, _, _, h⟩ := getWith_hit f s ⟨p, t, c⟩ hh
    have h' := addWith_hit f s ⟨p, t, c⟩ hh
    simp only at h h'
    rw [h, h']; rfl
  · cases hd : f p t c with
    | error e =>
      have h := getWith_miss_error (k := ⟨p, t, c⟩) hh hd
      have h' := addWith_miss_error (k := ⟨p, t, c⟩) hh hd
      simp only at h h'
      rw [h, h']; rfl
    | ok d =>
      have h := getWith_miss_ok (k := ⟨p, t, c⟩) hs hh hd
      have h' := addWith_miss_ok (k := ⟨p, t, c⟩) hs hh hd
      simp only at h h'
      rw [h, h']; rfl

theorem lock_shape' {env : Env α} {b : Bool} {w w' : World α} (h : Lock env b w w') :
    Shape w'.storage :=
  ⟨by rw [← h.slots.length_eq]; exact h.shape.1, by rw [← h.idx]; exact h.shape.2⟩

theorem lock_sim (hl : EqLaws α) (env : Env α) (b : Bool) :
    Sim env b (Lock env b) True NonDefault (fun _ => True) where
  get := by
    intro p t c hK _ w w' hS
    exact (lock_get hl hS p t c hK).bind fun r r' hr => .pure hr
  keyT := fun _ _ _ _ h => h
  keyTh := fun _ _ _ _ h => h
  conf := fun _ _ h => h.conf
  cdef := fun _ _ h => h.cdef
  fdef := fun _ _ _ => trivial
  setD := fun w w' h => ⟨by simp only [setDefaults, h.conf, h.cdef], h.cdef, h.shape, h.idx, h.slots⟩
  setS := fun w w' h => ⟨by simp only [setScattering, h.conf], h.cdef, h.shape, h.idx, h.slots⟩

theorem lock_call (hl : EqLaws α) (env : Env α) (b : Bool) (call : Call α)
    (hc : call.Within NonDefault (fun _ => True)) :
    Rel (Lock env b) (RespEq env (env.withStore b) True) (call.run env)
      (call.run (env.withStore b)) := by
  refine call_rel (lock_sim hl env b) call ?_ ?_ ?_ ?_ hc
  · intro p t c hK _ w w' hS
    show ERel _ (do let s ← w.storage.addWith (Storage.computeDP env) p t c
                    return (Response.unit, { w with storage := s }))
      (do let s ← w'.storage.addWith (Storage.computeDP (env.withStore b)) p t c
          return (Response.unit, { w' with storage := s }))
    rw [addWith_eq_getWith _ _ hS.shape, addWith_eq_getWith _ _ (lock_shape' hS)]
    have hg := lock_get hl hS p t c hK
    cases c1 : w.storage.getWith (Storage.computeDP env) p t c <;>
      cases c2 : w'.storage.getWith (Storage.computeDP (env.withStore b)) p t c <;>
      rw [c1, c2] at hg
    · have h : _ = _ := hg
      subst h
      exact ERel.error _
    · exact hg.elim
    · exact hg.elim
    · exact ⟨trivial, hg.2⟩
  · exact fun w w' h => ⟨h.conf, h.cdef, shape_init, rfl, forall₂_replicate (slotRel_default _ _) _⟩
  · exact fun w w' c _ h hc => ⟨rfl, h.cdef, h.shape, h.idx, h.slots⟩
  · exact fun w w' z _ h => ⟨h.conf, rfl, h.shape, h.idx, h.slots⟩

theorem lock_init (env : Env α) (b : Bool) : Lock env b World.init World.init :=
  ⟨rfl, rfl, shape_init, rfl, forall₂_replicate (slotRel_default _ _) _⟩

end Catima
