import Verif.Spec.Mocadi
import Verif.Lemmas.RealScalar

/-!
# C81: export to MOCADI
-/

namespace Catima

theorem lines_cons_ne (c : Char) (cs : List Char) (h : c ≠ '\n') :
    ∃ l ls, textLines cs = l :: ls ∧ textLines (c :: cs) = (c :: l) :: ls := by
  have hne : ∀ cs, textLines cs ≠ [] := by
    intro cs
    cases cs with
    | nil => simp [textLines]
    | cons c cs =>
      rw [textLines]
      split
      · simp
      · split <;> simp
  cases hl : textLines cs with
  | nil => exact absurd hl (hne cs)
  | cons l ls =>
    refine ⟨l, ls, rfl, ?_⟩
    rw [textLines, if_neg h, hl]

theorem lines_newline (a b : List Char) (h : '\n' ∉ a) : textLines (a ++ '\n' :: b) = a :: textLines b := by
  induction a with
  | nil => simp [textLines]
  | cons c a ih =>
    have hc : c ≠ '\n' := fun e => h (by simp [e])
    have ha : '\n' ∉ a := fun e => h (by simp [e])
    rw [List.cons_append, textLines, if_neg hc, ih ha]

theorem lines_prefix (a b : List Char) (h : '\n' ∉ a) :
    ∃ l ls, textLines b = l :: ls ∧ textLines (a ++ b) = (a ++ l) :: ls := by
  induction a with
  | nil =>
    cases hl : textLines b with
    | nil =>
      cases b with
      | nil => simp [textLines] at hl
      | cons c b =>
        rw [textLines] at hl
        split at hl
        · simp at hl
        · split at hl <;> simp at hl
    | cons l ls => exact ⟨l, ls, rfl, by rw [List.nil_append, hl]; rfl⟩
  | cons c a ih =>
    have hc : c ≠ '\n' := fun e => h (by simp [e])
    have ha : '\n' ∉ a := fun e => h (by simp [e])
    obtain ⟨l, ls, h1, h2⟩ := ih ha
    refine ⟨l, ls, h1, ?_⟩
    rw [List.cons_append, textLines, if_neg hc, h2]
    rfl

section
variable {α : Type} [Scalar α]

theorem lines_matter (fmt : Format α) (hf : fmt.OneLine) (m : Material α) (b : List Char) :
    textLines (mocadiMatter fmt m ++ b) =
      matterLines fmt (matterKind m).1 (matterKind m).2 m.rho (m.th / m.rho) ++ textLines b := by
  have hk : mocadiKind m = matterKind m := by
    unfold matterKind mocadiKind
    rcases m.atoms with _ | ⟨t, _ | ⟨t', l⟩⟩ <;> simp
  unfold mocadiMatter
  rw [hk]
  generalize matterKind m = az
  have e : ∀ x y z u : List Char, "*******\nMATTER\n".toList ++ x ++ ", ".toList ++ y ++ ", ".toList ++
      z ++ "\n".toList ++ "2,".toList ++ u ++ "\n0.\n0.,0.,0.\n1,1,0\n0,0,0,0\n".toList ++ b =
      "*******".toList ++ '\n' :: ("MATTER".toList ++ '\n' :: ((x ++ ", ".toList ++ y ++ ", ".toList ++ z) ++
        '\n' :: (("2,".toList ++ u) ++ '\n' :: ("0.".toList ++ '\n' :: ("0.,0.,0.".toList ++ '\n' ::
          ("1,1,0".toList ++ '\n' :: ("0,0,0,0".toList ++ '\n' :: b))))))) := by
    intro x y z u
    simp
  rw [e, lines_newline _ _ (by decide), lines_newline _ _ (by decide), lines_newline, lines_newline,
    lines_newline _ _ (by decide), lines_newline _ _ (by decide), lines_newline _ _ (by decide),
    lines_newline _ _ (by decide)]
  · rfl
  · have := hf.real m.thickness_cm
    simpa using this
  · have h1 := hf.real az.1
    have h2 := hf.int az.2
    have h3 := hf.real (m.rho * 1000.0)
    simp [h1, h2, h3]

theorem lines_rest (fmt : Format α) (hf : fmt.OneLine) (l : Layers α) :
    textLines (l.materials.flatMap (mocadiMatter fmt) ++ "ERWARTUNGSWERTE\nSAVE\nEND".toList) =
      restLines fmt l := by
  obtain ⟨ms⟩ := l
  unfold restLines
  dsimp only
  induction ms with
  | nil => exact (by decide : textLines ("ERWARTUNGSWERTE\nSAVE\nEND".toList) =
      ["ERWARTUNGSWERTE".toList, "SAVE".toList, "END".toList])
  | cons m ms ih =>
    rw [List.flatMap_cons, List.flatMap_cons, List.append_assoc, lines_matter fmt hf, ih, List.append_assoc]

/-- C81, the part that holds: the lines are those about the beam, those of every layer in order and the
trailer, all as they should be, except that the last line about the beam and the line that should follow
it are one line.  Missing: the line break between the two, see `mocadi_lines_wrong`. -/
theorem mocadi_lines_partial (fmt : Format α) (hf : fmt.OneLine) (p : Projectile α) (l : Layers α)
    (psx psy : Phasespace α) : ∃ a b,
      (beamLines fmt p psx psy).getLast? = some a ∧ (restLines fmt l).head? = some b ∧
      textLines (save_mocadi fmt p l psx psy) =
        (beamLines fmt p psx psy).dropLast ++ (a ++ b) :: (restLines fmt l).tail := by
  have e : ∀ t a z x x' y y' r : List Char,
      "epax 2\natima-1.0\noption listmode root\n".toList ++
      ("BEAM\n100000\n".toList ++ t ++ ", 0, ".toList ++ a ++ ", ".toList ++ z ++ "\n2\n".toList ++
        x ++ ", ".toList ++ x' ++ ", 0, 0, 0\n2\n".toList ++
        y ++ ", ".toList ++ y' ++ ", 0, 0, 0\n1\n0,  0, 0, 0, 0".toList) ++ r =
      "epax 2".toList ++ '\n' :: ("atima-1.0".toList ++ '\n' :: ("option listmode root".toList ++ '\n' ::
        ("BEAM".toList ++ '\n' :: ("100000".toList ++ '\n' :: ((t ++ ", 0, ".toList ++ a ++ ", ".toList ++ z) ++
          '\n' :: ("2".toList ++ '\n' :: ((x ++ ", ".toList ++ x' ++ ", 0, 0, 0".toList) ++ '\n' ::
            ("2".toList ++ '\n' :: ((y ++ ", ".toList ++ y' ++ ", 0, 0, 0".toList) ++ '\n' ::
              ("1".toList ++ '\n' :: ("0,  0, 0, 0, 0".toList ++ r))))))))))) := by
    intro t a z x x' y y' r
    simp
  have hrest := lines_rest fmt hf l
  set rest := l.materials.flatMap (mocadiMatter fmt) ++ "ERWARTUNGSWERTE\nSAVE\nEND".toList with hr
  have hs : save_mocadi fmt p l psx psy = mocadiBeam fmt p psx psy ++ rest := by
    unfold save_mocadi
    rw [List.append_assoc]
  obtain ⟨b, ls, h1, h2⟩ := lines_prefix "0,  0, 0, 0, 0".toList rest (by decide)
  rw [hrest] at h1
  refine ⟨"0,  0, 0, 0, 0".toList, b, rfl, by rw [h1]; rfl, ?_⟩
  rw [hs]
  unfold mocadiBeam
  rw [e, lines_newline _ _ (by decide), lines_newline _ _ (by decide), lines_newline _ _ (by decide),
    lines_newline _ _ (by decide), lines_newline _ _ (by decide), lines_newline,
    lines_newline _ _ (by decide), lines_newline, lines_newline _ _ (by decide), lines_newline,
    lines_newline _ _ (by decide), h2, h1]
  · rfl
  · have h1 := hf.real psy.sigma_x
    have h2 := hf.real (1000.0 * psy.sigma_a)
    simp [h1, h2]
  · have h1 := hf.real psx.sigma_x
    have h2 := hf.real (1000.0 * psx.sigma_a)
    simp [h1, h2]
  · have h1 := hf.real p.T
    have h2 := hf.real p.A
    have h3 := hf.real p.Z
    simp [h1, h2, h3]

/-- C81, refuted for every projectile and all layers: the line break after the beam is missing. -/
theorem mocadi_lines_wrong (fmt : Format α) (hf : fmt.OneLine) (p : Projectile α) (l : Layers α)
    (psx psy : Phasespace α) :
    textLines (save_mocadi fmt p l psx psy) ≠ beamLines fmt p psx psy ++ restLines fmt l := by
  obtain ⟨a, b, h1, h2, h3⟩ := mocadi_lines_partial fmt hf p l psx psy
  rw [h3]
  intro h
  have := congrArg List.length h
  simp only [List.length_append, List.length_dropLast, List.length_cons, List.length_tail] at this
  have hb : 0 < (beamLines fmt p psx psy).length := by simp [beamLines]
  have hr : 0 < (restLines fmt l).length := by simp [restLines]
  omega

end

/-- C81 applies: numbers written without line breaks. -/
example : (⟨fun _ => "1.000000".toList, fun _ => "6".toList⟩ : Format ℝ).OneLine :=
  ⟨fun _ => (by decide : '\n' ∉ "1.000000".toList), fun _ => (by decide : '\n' ∉ "6".toList)⟩

end Catima
