import Verif.Props.Access
import Verif.Props.BlendFloat

/-!
# C66: the alpha channel
-/

namespace Ase

open Spec

theorem mergeU_alpha (b c : Color) (o : UInt8) : (mergeU b c o).a = mixU b.a c.a o := by
  unfold mergeU
  split
  · next h => exact h.symm
  · split
    · rfl
    · split <;> rfl

theorem mixU_ge {k x y o : UInt8} (hx : k ≤ x) (hy : k ≤ y) : k ≤ mixU x y o := by
  rw [UInt8.le_iff_toNat_le] at *
  have h := mixU_toI x y o
  have h1 := mixStep_between x y o
  simp only [toI] at h h1
  rcases Nat.le_total x.toNat y.toNat with h2 | h2
  · have := h1.1 (by omega); omega
  · have := h1.2 (by omega); omega

theorem normalU_ge (back front : Color) (o : UInt8) : back.a ≤ (normalU back front o).a := by
  obtain ⟨c, h1, _, _, _, _, _, _, h2, _⟩ := C46_normal ⟨false, 0⟩ back front o
  rw [blend_normal] at h1
  cases h1
  exact h2

theorem blenderU_ge (back front : Color) (o : UInt8) {p : Color} (hp : back.a ≤ p.a) :
    back.a ≤ (blenderU back front o p).a := by
  unfold blenderU
  split
  · rw [mergeU_alpha, mergeU_alpha]
    exact mixU_ge (mixU_ge (normalU_ge _ _ _) hp) hp
  · exact normalU_ge _ _ _

/-- **C66 (one pixel).** No blend mode makes a pixel more transparent. -/
theorem C66_blend (plat : Plat) (m : BlendMode) (back front c : Color) (o : UInt8)
    (h : blend plat m back front o = .ok c) : back.a ≤ c.a := by
  cases hf : channelFn m with
  | some f =>
    obtain ⟨g, h1, h2⟩ := mode_eq plat m f hf
    rw [blend, h1, run_bind_ok, h2, modeU] at h
    cases h
    exact blenderU_ge _ _ _ (normalU_ge _ _ _)
  | none =>
    by_cases hm : isHsl m = true
    · obtain ⟨r, g, b, h1⟩ := hsl_shape m hm back front
      rw [h1] at h
      by_cases hb : back.a = 0
      · rw [hb]
        exact UInt8.le_iff_toNat_le.2 (Nat.zero_le _)
      · cases hcol : Color.ofF64 plat r g b (toF front.a) with
        | ok col =>
          rw [blender_eq _ _ _ _ _ (normalU back col o) (fun _ => by
            rw [if_pos ⟨rfl, rfl⟩, hcol, run_bind_ok, normal_eq])] at h
          cases h
          exact blenderU_ge _ _ _ (normalU_ge _ _ _)
        | err e => exact nomatch e
        | panic k =>
          rw [blender_panic _ _ _ _ _ k hb (by rw [if_pos ⟨rfl, rfl⟩, hcol]; rfl)] at h
          cases h
    · cases m <;> first | exact absurd rfl hm | (simp [channelFn] at hf; done) | skip
      · rw [blend_softLight] at h
        cases h
        exact blenderU_ge _ _ _ (normalU_ge _ _ _)
      · cases h

example : blend ⟨true, 0⟩ .difference ⟨200, 100, 50, 200⟩ ⟨100, 200, 0, 128⟩ 255 = .ok ⟨144, 107, 46, 228⟩ := by
  decide +kernel

/-- For every mode that is known and not one of the HSL modes the alpha is that of normal blending. -/
theorem blend_alpha (plat : Plat) (m : BlendMode) (hm : isHsl m = false) (back front c : Color) (o : UInt8)
    (h : blend plat m back front o = .ok c) :
    c.a.toNat = screen back.a.toNat (times front.a.toNat o.toNat) := by
  obtain ⟨n, h1, _, _, _, _, _, h2, _⟩ := C46_normal plat back front o
  rw [← h2]
  rw [blend_normal] at h1
  cases h1
  have key : ∀ col : Color, col.a = front.a → (blenderU back front o (normalU back col o)).a = (normalU back front o).a := by
    intro col hc
    by_cases hb : back.a = 0
    · simp only [blenderU, hb, ne_eq, not_true_eq_false, if_false]
    · have h5 := normalU_alpha back front col o hc
      exact (blenderU_mix back front o _ hb h5).1.trans h5
  cases hf : channelFn m with
  | some f =>
    obtain ⟨g, h1, h2⟩ := mode_eq plat m f hf
    rw [blend, h1, run_bind_ok, h2, modeU] at h
    cases h
    rw [key (chanU f back front) rfl]
  | none =>
    cases m <;> first | (simp [isHsl] at hm; done) | (simp [channelFn] at hf; done) | skip
    · rw [blend_softLight] at h
      cases h
      rw [key (softColor back front) rfl]
    · cases h

/-! ## Whole frames -/

/-- The effective alphas of the cel pixels drawn on the canvas pixel `(x, y)`, in order: the alpha of the image pixel
times the layer's opacity. -/
def Spec.coverage (inflate : Inflater) (f : AsepriteFile) (sel : LayerSelection) (x y : Nat) (cels : List FrameCel) :
    List Nat :=
  cels.filterMap fun cel =>
    match drawnOn f sel cel, (coveredBy cel x y).bind (imageColor inflate f cel.imageIndex) with
    | some layer, some front => some (times front.a.toNat layer.opacity.toNat)
    | _, _ => none

theorem compose_ge {plat : Plat} {inflate : Inflater} {f : AsepriteFile} {sel : LayerSelection} {x y : Nat}
    {cels : List FrameCel} {c out : Color} (h : compose plat inflate f sel x y cels c = .ok out) : c.a ≤ out.a := by
  induction cels generalizing c with
  | nil =>
    rw [compose] at h
    cases h
    exact UInt8.le_refl _
  | cons cel cels ih =>
    rw [compose] at h
    split at h
    · next layer front _ _ =>
      cases hb : blend plat layer.blendMode c front layer.opacity with
      | ok d =>
        rw [hb] at h
        exact UInt8.le_trans (C66_blend _ _ _ _ _ _ hb) (ih h)
      | err e => exact nomatch e
      | panic k => rw [hb] at h; cases h
    · exact ih h

theorem compose_alpha {plat : Plat} {inflate : Inflater} {f : AsepriteFile} {sel : LayerSelection} {x y : Nat}
    {cels : List FrameCel} (hm : ∀ c ∈ cels, ∀ layer, drawnOn f sel c = some layer → isHsl layer.blendMode = false)
    {c out : Color} (h : compose plat inflate f sel x y cels c = .ok out) :
    out.a.toNat = (coverage inflate f sel x y cels).foldl screen c.a.toNat := by
  induction cels generalizing c with
  | nil =>
    rw [compose] at h
    cases h
    rfl
  | cons cel cels ih =>
    have ih := fun {c} => ih (c := c) fun c hc => hm c (List.mem_cons_of_mem _ hc)
    rw [compose] at h
    rw [coverage, List.filterMap_cons]
    split at h
    · next layer front h1 h2 =>
      rw [h1, h2]
      cases hb : blend plat layer.blendMode c front layer.opacity with
      | ok d =>
        rw [hb] at h
        dsimp only
        rw [List.foldl_cons, ← blend_alpha plat _ (hm cel List.mem_cons_self layer h1) _ _ _ _ hb]
        exact ih h
      | err e => exact nomatch e
      | panic k => rw [hb] at h; cases h
    · next h1 =>
      have : (match drawnOn f sel cel, (coveredBy cel x y).bind (imageColor inflate f cel.imageIndex) with
          | some layer, some front => some (times front.a.toNat layer.opacity.toNat)
          | _, _ => none) = none := by
        split
        · next layer front h2 h3 => exact absurd h3 (h1 layer front h2)
        · rfl
      rw [this]
      exact ih h

/-- **C66 (frames).** Rendering a frame never makes a canvas pixel more transparent; in particular an opaque canvas stays
opaque, whatever is drawn on it. -/
theorem C66_not_more_transparent (plat : Plat) (b : Bytes) (f : AsepriteFile) (h : AsepriteFile.load plat b = .ok f)
    (inflate : Inflater) (i : Nat) (sel : LayerSelection) (t t' : Bytes)
    (hok : f.renderFrame plat inflate i sel t = (.ok (), t')) (x y : Nat) (hx : x < f.size.1.toNat)
    (hy : y < f.size.2.toNat) :
    ∃ before after, canvasPixel f t x y = some before ∧ canvasPixel f t' x y = some after ∧
      before.a ≤ after.a ∧ (before.a = 255 → after.a = 255) := by
  obtain ⟨lf, hi⟩ : ∃ lf, f.frames[i]? = some lf := by
    cases hi : f.frames[i]? with
    | some lf => exact ⟨lf, rfl⟩
    | none =>
      rw [renderFrame_eq, hi] at hok
      split at hok <;> cases hok
  obtain ⟨c, d, h1, h2, h3⟩ := C37_pixels plat b f h inflate i lf hi sel t t' hok x y hx hy
  have h4 := compose_ge h3
  refine ⟨c, d, h1, h2, h4, fun h5 => UInt8.toNat_inj.1 ?_⟩
  rw [h5, UInt8.le_iff_toNat_le] at h4
  have := byte_le d.a
  have h6 : (255 : UInt8).toNat = 255 := rfl
  omega

/-- **C66 (alpha of a frame).** If no HSL blend mode is involved, the alpha of a canvas pixel does not depend on colours
and blend modes: it is the alpha it had, composed by `1 - (1 - a) (1 - b)` with the effective alphas of the cel pixels
drawn on it.  One of these that is 255 makes it opaque. -/
theorem C66_alpha (plat : Plat) (b : Bytes) (f : AsepriteFile) (h : AsepriteFile.load plat b = .ok f)
    (inflate : Inflater) (i : Nat) (lf : LFrame) (hi : f.frames[i]? = some lf) (sel : LayerSelection) (t t' : Bytes)
    (hm : ∀ c ∈ lf.cels, ∀ layer, drawnOn f sel c = some layer → isHsl layer.blendMode = false)
    (hok : f.renderFrame plat inflate i sel t = (.ok (), t')) (x y : Nat) (hx : x < f.size.1.toNat)
    (hy : y < f.size.2.toNat) :
    ∃ before after, canvasPixel f t x y = some before ∧ canvasPixel f t' x y = some after ∧
      after.a.toNat = (coverage inflate f sel x y lf.cels).foldl screen before.a.toNat ∧
      (255 ∈ coverage inflate f sel x y lf.cels → after.a = 255) := by
  obtain ⟨c, d, h1, h2, h3⟩ := C37_pixels plat b f h inflate i lf hi sel t t' hok x y hx hy
  have h4 := compose_alpha hm h3
  refine ⟨c, d, h1, h2, h4, fun h5 => UInt8.toNat_inj.1 ?_⟩
  rw [h4]
  have hle : ∀ v ∈ coverage inflate f sel x y lf.cels, v ≤ 255 := by
    intro v hv
    obtain ⟨cel, _, hcel⟩ := List.mem_filterMap.1 hv
    split at hcel
    · cases hcel
      exact Nat.le_trans (times_le_left _ _ (byte_le _)) (byte_le _)
    · cases hcel
  have hmono : ∀ (vs : List Nat) (a : Nat), (∀ v ∈ vs, v ≤ 255) → a ≤ 255 →
      vs.foldl screen a ≤ 255 ∧ (a = 255 ∨ 255 ∈ vs → vs.foldl screen a = 255) := by
    intro vs
    induction vs with
    | nil => intro a _ ha; exact ⟨ha, fun h => by simpa using h⟩
    | cons v vs ih =>
      intro a hv ha
      have hv0 := hv v List.mem_cons_self
      have hs := screen_le a v ha hv0
      have ih := ih (screen a v) (fun w hw => hv w (List.mem_cons_of_mem _ hw)) hs.2
      refine ⟨ih.1, fun h => ih.2 ?_⟩
      rcases h with rfl | h
      · refine .inl ?_
        simp only [Spec.screen, Spec.times, Spec.roundDiv]
        omega
      · rcases List.mem_cons.1 h with rfl | h
        · refine .inl ?_
          simp only [Spec.screen, Spec.times, Spec.roundDiv]
          omega
        · exact .inr h
  exact (hmono _ _ hle (byte_le _)).2 (.inr h5)

-- an opaque pixel, a half transparent one multiplied onto an empty canvas, and an untouched one
example : (match AsepriteFile.load ⟨true, 10⟩ Sample.picture with
    | .ok f =>
      (match f.frames[0]? with
        | some lf => lf.cels.all (fun c => match drawnOn f .visible c with
            | some l => !isHsl l.blendMode | none => true) &&
          coverage Sample.inflate f .visible 0 1 lf.cels == [255, 64] &&
          coverage Sample.inflate f .visible 1 1 lf.cels == [64]
        | none => false) &&
      (f.renderFrame ⟨true, 10⟩ Sample.inflate 0 .visible (List.replicate 24 0)).1 == .ok ()
    | _ => false) = true := by decide +kernel

end Ase
