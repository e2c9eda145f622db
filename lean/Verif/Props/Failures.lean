import Verif.Props.Alpha

/-!
# C41, C50: how rendering fails

`Props/Render.lean` shows exactly when rendering succeeds.  Here: which panic it ends with otherwise, and what that
means for sprites without HSL blend modes and for release builds.
-/

namespace Ase

open Spec

/-! ## One pixel -/

theorem debugAssert_panic {plat : Plat} {c : Bool} {k : Panic} (h : debugAssert plat c = .panic k) :
    plat.debug = true ∧ k = .debugAssertFailed := by
  unfold debugAssert at h
  split at h
  · next hc =>
    cases h
    refine ⟨?_, rfl⟩
    revert hc
    cases plat.debug <;> simp
  · cases h

theorem ofI32_panic {plat : Plat} {r g b a : Int} {k : Panic} (h : Color.ofI32 plat r g b a = .panic k) :
    plat.debug = true ∧ k = .debugAssertFailed := by
  unfold Color.ofI32 at h
  cases h1 : debugAssert plat (isByte r) with
  | panic k1 => rw [h1] at h; cases h; exact debugAssert_panic h1
  | err e => exact nomatch e
  | ok u =>
    rw [h1, run_bind_ok] at h
    cases h2 : debugAssert plat (isByte g) with
    | panic k1 => rw [h2] at h; cases h; exact debugAssert_panic h2
    | err e => exact nomatch e
    | ok u =>
      rw [h2, run_bind_ok] at h
      cases h3 : debugAssert plat (isByte b) with
      | panic k1 => rw [h3] at h; cases h; exact debugAssert_panic h3
      | err e => exact nomatch e
      | ok u =>
        rw [h3, run_bind_ok] at h
        cases h4 : debugAssert plat (isByte a) with
        | panic k1 => rw [h4] at h; cases h; exact debugAssert_panic h4
        | err e => exact nomatch e
        | ok u => rw [h4, run_bind_ok] at h; cases h

/-- Blending with a known mode panics only in debug builds, only in the HSL modes and only on a visible backdrop. -/
theorem blend_panic {plat : Plat} {m : BlendMode} (hm : isKnown m = true) {back front : Color} {o : UInt8} {k : Panic}
    (h : blend plat m back front o = .panic k) :
    k = .debugAssertFailed ∧ plat.debug = true ∧ isHsl m = true ∧ back.a ≠ 0 := by
  by_cases hs : isSeparable m = true
  · obtain ⟨c, hc⟩ := C47_total m hs back front o
    rw [hc] at h; cases h
  · have hh : isHsl m = true := by
      revert hs
      simp only [isSeparable, hm, Bool.true_and]
      cases isHsl m <;> simp
    obtain ⟨r, g, b, h1⟩ := hsl_shape m hh back front
    rw [h1] at h
    by_cases hb : back.a = 0
    · rw [blender_eq _ _ _ _ _ back (fun hb' => absurd hb hb')] at h
      cases h
    · cases hcol : Color.ofF64 plat r g b (toF front.a) with
      | ok col =>
        rw [blender_eq _ _ _ _ _ (normalU back col o) (fun _ => by
          rw [if_pos ⟨rfl, rfl⟩, hcol, run_bind_ok, normal_eq])] at h
        cases h
      | err e => exact nomatch e
      | panic k' =>
        rw [blender_panic _ _ _ _ _ k' hb (by rw [if_pos ⟨rfl, rfl⟩, hcol]; rfl)] at h
        cases h
        have := ofI32_panic hcol
        exact ⟨this.2, this.1, hh, hb⟩

/-- **C50, more.** In a debug build even a fully transparent source pixel makes an HSL mode panic: transparent black with
the mode saturation, transparent red with the others, each on an ordinary opaque backdrop.  So in the HSL modes the law
that transparent pixels change nothing (C48) holds in release builds only. -/
theorem C50_transparent_source_panics :
    blend ⟨true, 0⟩ .saturation ⟨100, 50, 50, 255⟩ ⟨0, 0, 0, 0⟩ 255 = .panic .debugAssertFailed ∧
    blend ⟨true, 0⟩ .hue ⟨100, 50, 20, 255⟩ ⟨255, 0, 0, 0⟩ 255 = .panic .debugAssertFailed ∧
    blend ⟨true, 0⟩ .color ⟨100, 50, 20, 255⟩ ⟨255, 0, 0, 0⟩ 255 = .panic .debugAssertFailed ∧
    blend ⟨true, 0⟩ .luminosity ⟨100, 50, 20, 255⟩ ⟨255, 0, 0, 0⟩ 255 = .panic .debugAssertFailed ∧
    blend ⟨false, 0⟩ .saturation ⟨100, 50, 50, 255⟩ ⟨0, 0, 0, 0⟩ 255 = .ok ⟨100, 50, 50, 255⟩ := by
  decide +kernel

/-! ## A cel -/

theorem forEach_panic {α : Type} {body : α → Buf Unit} {xs : List α} {t t' : Bytes} {k : Panic}
    (h : Buf.forEach body xs t = (.panic k, t')) :
    ∃ pre x post t1, xs = pre ++ x :: post ∧ Buf.forEach body pre t = (.ok (), t1) ∧ body x t1 = (.panic k, t') := by
  induction xs generalizing t with
  | nil => cases h
  | cons x xs ih =>
    rw [forEach_cons] at h
    rcases hb : body x t with ⟨u | e | k', t1⟩ <;> rw [hb] at h <;> dsimp only at h
    · obtain ⟨pre, y, post, t2, rfl, h2, h3⟩ := ih h
      exact ⟨x :: pre, y, post, t2, rfl, by rw [forEach_cons, hb]; exact h2, h3⟩
    · cases h
    · cases h
      exact ⟨[], x, xs, t, rfl, rfl, hb⟩

theorem pixelLoop_panic {plat : Plat} {f : AsepriteFile} {cel : FrameCel} {layer : LLayer} {fn : BlendFn} {c : Bytes}
    (hct : c.length = cel.size.1.toNat * cel.size.2.toNat * 4) {pre : List (UInt16 × UInt16)} {t : Bytes}
    (hpre : ∀ yx ∈ pre, yx ∈ celPixels cel.size.1 cel.size.2)
    (ht : canvasBytes f ≤ t.length) {k : Panic} {t' : Bytes}
    (h : Buf.forEach (fun yx : UInt16 × UInt16 => f.renderPixel plat cel layer fn c yx.1 yx.2) pre t = (.panic k, t')) :
    ∃ back front, fn back front layer.opacity = .panic k := by
  induction pre generalizing t with
  | nil => cases h
  | cons yx pre ih =>
    rw [forEach_cons] at h
    have hyx := hpre yx List.mem_cons_self
    rw [mem_celPixels] at hyx
    rw [renderPixel_eq plat layer fn hct hyx.1 hyx.2 ht] at h
    have hp := row_major hyx.1 hyx.2
    obtain ⟨front, hf⟩ := Option.isSome_iff_exists.1
      (pixel_isSome (a := c) (p := yx.1.toNat * cel.size.1.toNat + yx.2.toNat) (by omega))
    rw [hf] at h
    cases htg : targetOf f cel (yx.1, yx.2) with
    | none =>
      rw [htg] at h
      exact ih (fun z hz => hpre z (List.mem_cons_of_mem _ hz)) ht h
    | some q =>
      rw [htg] at h
      dsimp only at h
      have hq := targetOf_lt htg
      obtain ⟨back, hb⟩ := Option.isSome_iff_exists.1
        (pixel_isSome (a := t) (p := q) (by unfold canvasBytes at ht; omega))
      rw [hb] at h
      dsimp only at h
      cases hfn : fn back front layer.opacity with
      | ok out =>
        rw [hfn] at h
        dsimp only at h
        refine ih (fun z hz => hpre z (List.mem_cons_of_mem _ hz)) ?_ h
        rw [setPixel_length (by unfold canvasBytes at ht; omega)]
        exact ht
      | err e => exact nomatch e
      | panic k' =>
        rw [hfn] at h
        cases h
        exact ⟨back, front, hfn⟩

/-- The panic of a drawn cel whose image cannot be decoded. -/
theorem loadImage_fails {f : AsepriteFile} {pal : Palette} (hpal : GoodPalette f.file pal) (inflate : Inflater) {i : Nat}
    {im : Image} (him : f.images[i]? = some im) (hno : ¬ HasPixels inflate f.file im) :
    (im.compressed = false ∧ f.file.header.colorDepth = .rgba →
      (f.loadImage inflate i (List.replicate (pixelCount im * 4) 0)).1 = .panic .lengthMismatch) ∧
    (¬ (im.compressed = false ∧ f.file.header.colorDepth = .rgba) →
      ∃ e, (f.loadImage inflate i (List.replicate (pixelCount im * 4) 0)).1 = .err e) := by
  rw [loadImage_eq him, if_neg (by simp), List.take_of_length_le (by simp)]
  dsimp only
  rcases known_or_unknown f.file.header.colorDepth with ⟨n, hu⟩ | hn
  · rw [decodeImage_unknown hu]
    exact ⟨fun h => (by rw [hu] at h; cases h.2), fun _ => ⟨_, rfl⟩⟩
  · rw [decodeImage_known hpal rfl hn inflate im _ (by simp)]
    unfold HasPixels at hno
    by_cases hc : im.compressed = true
    · rw [if_pos hc]
      rw [if_neg (fun h => hno ⟨hn, by dsimp only; rw [if_pos hc]; exact h⟩)]
      exact ⟨fun h => (by rw [hc] at h; cases h.1), fun _ => ⟨_, rfl⟩⟩
    · rw [if_neg hc]
      rw [if_neg (fun h => hno ⟨hn, by dsimp only; rw [if_neg hc]; exact h⟩)]
      rw [Bool.not_eq_true] at hc
      by_cases hd : f.file.header.colorDepth = .rgba
      · rw [if_pos hd]
        exact ⟨fun _ => rfl, fun h => absurd ⟨hc, hd⟩ h⟩
      · rw [if_neg hd]
        exact ⟨fun h => absurd h.2 hd, fun _ => ⟨_, rfl⟩⟩

/-- The reasons why a cel cannot be drawn, and the panic they lead to. -/
inductive Spec.CelFailure (inflate : Inflater) (file : File) (layer : LLayer) (im : Image) (pixelFails : Prop) : Panic → Prop
  /-- The data of an uncompressed RGBA image has the wrong length. -/
  | rawRgba : ¬ HasPixels inflate file im → im.compressed = false → file.header.colorDepth = .rgba →
      CelFailure inflate file layer im pixelFails .lengthMismatch
  /-- The data of another image has the wrong length, or is not a zlib stream, or the colour depth is unknown. -/
  | undecodable : ¬ HasPixels inflate file im → ¬ (im.compressed = false ∧ file.header.colorDepth = .rgba) →
      CelFailure inflate file layer im pixelFails .unwrapOnErr
  /-- The image is fine but the layer's blend mode is not known. -/
  | unknownMode : HasPixels inflate file im → isKnown layer.blendMode = false →
      CelFailure inflate file layer im pixelFails .explicitPanic
  /-- The image and the blend mode are fine but blending fails on some pixel. -/
  | pixel : HasPixels inflate file im → isHsl layer.blendMode = true → pixelFails →
      CelFailure inflate file layer im pixelFails .debugAssertFailed

theorem renderCel_panic {plat : Plat} {inflate : Inflater} {f : AsepriteFile} {pal : Palette}
    (hpal : GoodPalette f.file pal) (sel : LayerSelection) {cel : FrameCel} {im : Image} {layer : LLayer}
    (him : f.images[cel.imageIndex]? = some im) (hsize : cel.size = (im.width, im.height))
    (hd : drawnOn f sel cel = some layer) {t : Bytes} (ht : canvasBytes f ≤ t.length) (k : Panic) :
    (f.renderCel plat inflate sel cel t).1 = .panic k ↔
      CelFailure inflate f.file layer im (∃ x y c k', x < f.file.header.width.toNat ∧ y < f.file.header.height.toNat ∧
        canvasPixel f t x y = some c ∧ compose plat inflate f sel x y [cel] c = .panic k') k ∧
      (k = .debugAssertFailed → plat.debug = true) := by
  have hspec := renderCel_spec (plat := plat) (inflate := inflate) hpal sel (cel := cel) (t := t) (fun c hc => by
    rw [List.mem_singleton] at hc
    subst hc
    exact ⟨im, him, hsize⟩) ht
  have hpc : cel.size.1.toNat * cel.size.2.toNat = pixelCount im := by rw [hsize]; rfl
  have hone : (∀ c ∈ [cel], ∀ layer im, drawnOn f sel c = some layer →
      f.images[c.imageIndex]? = some im → HasPixels inflate f.file im ∧ isKnown layer.blendMode = true) ↔
      HasPixels inflate f.file im ∧ isKnown layer.blendMode = true := by
    constructor
    · intro h; exact h cel List.mem_cons_self layer im hd him
    · intro h c hc layer' im' h1 h2
      rw [List.mem_singleton] at hc
      subst hc
      rw [hd] at h1; cases h1
      rw [him] at h2; cases h2
      exact h
  by_cases hh : HasPixels inflate f.file im
  · obtain ⟨c, hc1, hc2, hc3⟩ := (loadImage_fresh hpal inflate him).1 hh
    by_cases hk : isKnown layer.blendMode = true
    · -- the pixel loop
      have hpanic : ∀ k', (f.renderCel plat inflate sel cel t).1 = .panic k' →
          k' = .debugAssertFailed ∧ plat.debug = true ∧ isHsl layer.blendMode = true := by
        intro k' hk'
        rw [renderCel_drawn hd, hpc, hc1] at hk'
        obtain ⟨fn, hfn⟩ := (blendFn_known plat layer.blendMode).1 hk
        rw [hfn] at hk'
        dsimp only at hk'
        obtain ⟨back, front, hb⟩ := pixelLoop_panic (by rw [hpc]; exact hc2) (fun _ h => h) ht
          (Prod.ext hk' rfl)
        have hbl : blend plat layer.blendMode back front layer.opacity = .panic k' := by
          rw [blend, hfn]; exact hb
        have := blend_panic hk hbl
        exact ⟨this.1, this.2.1, this.2.2.1⟩
      have hnotok : (∃ k', (f.renderCel plat inflate sel cel t).1 = .panic k') ↔
          ∃ x y c k', x < f.file.header.width.toNat ∧ y < f.file.header.height.toNat ∧
            canvasPixel f t x y = some c ∧ compose plat inflate f sel x y [cel] c = .panic k' := by
        constructor
        · rintro ⟨k', hk'⟩
          apply Classical.byContradiction
          intro hno
          have := hspec.ok_iff.2 ⟨hone.2 ⟨hh, hk⟩, fun x y c hx hy hc => ?_⟩
          · rw [hk'] at this; cases this
          · cases hcomp : compose plat inflate f sel x y [cel] c with
            | ok out => exact ⟨out, rfl⟩
            | err e => exact nomatch e
            | panic k'' => exact absurd ⟨x, y, c, k'', hx, hy, hc, hcomp⟩ hno
        · rintro ⟨x, y, c, k', hx, hy, hc, hcomp⟩
          cases hr : (f.renderCel plat inflate sel cel t).1 with
          | ok u =>
            obtain ⟨out, ho⟩ := (hspec.ok_iff.1 hr).2 x y c hx hy hc
            rw [hcomp] at ho; cases ho
          | err e => exact absurd hr (hspec.no_err e)
          | panic k'' => exact ⟨k'', rfl⟩
      constructor
      · intro hk'
        obtain ⟨rfl, h2, h3⟩ := hpanic k hk'
        exact ⟨.pixel hh h3 (hnotok.1 ⟨_, hk'⟩), fun _ => h2⟩
      · rintro ⟨hf, _⟩
        cases hf with
        | rawRgba h => exact absurd hh h
        | undecodable h => exact absurd hh h
        | unknownMode _ h => rw [hk] at h; cases h
        | pixel _ _ h =>
          obtain ⟨k', hk'⟩ := hnotok.2 h
          rw [hk', (hpanic k' hk').1]
    · rw [Bool.not_eq_true] at hk
      rw [renderCel_drawn hd, hpc, hc1]
      dsimp only
      rw [(blendFn_known plat layer.blendMode).2 hk]
      dsimp only
      constructor
      · intro h; cases h; exact ⟨.unknownMode hh hk, fun h => by cases h⟩
      · rintro ⟨hf, _⟩
        cases hf with
        | rawRgba h => exact absurd hh h
        | undecodable h => exact absurd hh h
        | unknownMode _ h => rfl
        | pixel _ h2 _ =>
          revert hk h2
          cases layer.blendMode <;> simp [isKnown, isHsl]
  · have hl := loadImage_fails hpal inflate him hh
    rw [renderCel_drawn hd, hpc]
    by_cases hraw : im.compressed = false ∧ f.file.header.colorDepth = .rgba
    · have h1 := hl.1 hraw
      rcases hr : f.loadImage inflate cel.imageIndex (List.replicate (pixelCount im * 4) 0) with ⟨_ | _ | _, c⟩ <;>
        rw [hr] at h1 <;> cases h1
      dsimp only
      constructor
      · intro h; cases h; exact ⟨.rawRgba hh hraw.1 hraw.2, fun h => by cases h⟩
      · rintro ⟨hf, _⟩
        cases hf with
        | rawRgba h => rfl
        | undecodable _ h => exact absurd hraw h
        | unknownMode h => exact absurd h hh
        | pixel h => exact absurd h hh
    · obtain ⟨e, h1⟩ := hl.2 hraw
      rcases hr : f.loadImage inflate cel.imageIndex (List.replicate (pixelCount im * 4) 0) with ⟨_ | _ | _, c⟩ <;>
        rw [hr] at h1 <;> cases h1
      dsimp only
      constructor
      · intro h; cases h; exact ⟨.undecodable hh hraw, fun h => by cases h⟩
      · rintro ⟨hf, _⟩
        cases hf with
        | rawRgba _ h1 h2 => exact absurd ⟨h1, h2⟩ hraw
        | undecodable _ h => rfl
        | unknownMode h => exact absurd h hh
        | pixel h => exact absurd h hh

/-! ## A frame -/

/-- Some cels can be drawn on a canvas: their images can be decoded, their blend modes are known, and blending does not
fail on any pixel. -/
def Spec.Draws (plat : Plat) (inflate : Inflater) (f : AsepriteFile) (sel : LayerSelection) (cels : List FrameCel)
    (t : Bytes) : Prop :=
  (∀ c ∈ cels, ∀ layer im, drawnOn f sel c = some layer → f.images[c.imageIndex]? = some im →
    HasPixels inflate f.file im ∧ isKnown layer.blendMode = true) ∧
  ∀ x y c, x < f.size.1.toNat → y < f.size.2.toNat → canvasPixel f t x y = some c →
    ∃ out, compose plat inflate f sel x y cels c = .ok out

/-- Blending fails on some pixel that a cel covers, when it is drawn after other cels. -/
def Spec.PixelFails (plat : Plat) (inflate : Inflater) (f : AsepriteFile) (sel : LayerSelection) (t : Bytes)
    (before : List FrameCel) (cel : FrameCel) (layer : LLayer) : Prop :=
  plat.debug = true ∧ ∃ x y old back p front, x < f.size.1.toNat ∧ y < f.size.2.toNat ∧
    canvasPixel f t x y = some old ∧ compose plat inflate f sel x y before old = .ok back ∧ back.a ≠ 0 ∧
    coveredBy cel x y = some p ∧ imageColor inflate f cel.imageIndex p = some front ∧
    blend plat layer.blendMode back front layer.opacity = .panic .debugAssertFailed

/-- **C41, the causes.** With a frame number of the sprite and a large enough buffer, `render_frame` panics exactly if
there is a first cel that cannot be drawn; and this decides the panic: a length mismatch for uncompressed RGBA data of
the wrong length, an `unwrap` on an error for all other images that cannot be decoded, an explicit panic for an unknown
blend mode, and a failed debug assertion in debug builds for an HSL mode on a visible pixel.

*Missing:* the property itself, that there is no panic. -/
theorem C41_cause_partial (plat : Plat) (b : Bytes) (f : AsepriteFile) (h : AsepriteFile.load plat b = .ok f)
    (inflate : Inflater) (i : Nat) (lf : LFrame) (hi : f.frames[i]? = some lf) (sel : LayerSelection) (t : Bytes)
    (ht : f.size.1.toNat * f.size.2.toNat * 4 ≤ t.length) (k : Panic) :
    (f.renderFrame plat inflate i sel t).1 = .panic k ↔
      ∃ before cel after layer im, lf.cels = before ++ cel :: after ∧ Draws plat inflate f sel before t ∧
        drawnOn f sel cel = some layer ∧ f.images[cel.imageIndex]? = some im ∧
        CelFailure inflate f.file layer im (PixelFails plat inflate f sel t before cel layer) k := by
  have ht : canvasBytes f ≤ t.length := ht
  obtain ⟨pal, hpal⟩ := goodPalette_of_load h
  have hcels := celsOk_of_load h hi
  rw [renderFrame_eq, if_neg (by omega), hi]
  dsimp only
  -- one cel after the others
  have key : ∀ before cel after layer im t1, lf.cels = before ++ cel :: after →
      Buf.forEach (f.renderCel plat inflate sel) before t = (.ok (), t1) →
      drawnOn f sel cel = some layer → f.images[cel.imageIndex]? = some im →
      ((f.renderCel plat inflate sel cel t1).1 = .panic k ↔
        CelFailure inflate f.file layer im (PixelFails plat inflate f sel t before cel layer) k) := by
    intro before cel after layer im t1 hl hb hd him
    have hspec := renderCels_spec (plat := plat) (inflate := inflate) hpal sel before
      (fun c hc => hcels c (by rw [hl]; simp [hc])) t ht
    rw [hb] at hspec
    obtain ⟨im', him', hsize⟩ := hcels cel (by rw [hl]; simp)
    rw [him] at him'; cases him'
    have ht1 : canvasBytes f ≤ t1.length := by have := hspec.length; dsimp only at this; omega
    have hpix : ∀ hkn : isKnown layer.blendMode = true,
        (plat.debug = true ∧ ∃ x y c k', x < f.file.header.width.toNat ∧ y < f.file.header.height.toNat ∧
          canvasPixel f t1 x y = some c ∧ compose plat inflate f sel x y [cel] c = .panic k') ↔
        PixelFails plat inflate f sel t before cel layer := by
      intro hkn
      refine and_congr_right fun _ => ?_
      constructor
      · rintro ⟨x, y, c, k', hx, hy, hc, hcomp⟩
        obtain ⟨old, back, h1, h2, h3⟩ := hspec.result rfl x y hx hy
        rw [hc] at h3; cases h3
        rw [compose, hd] at hcomp
        cases hp : coveredBy cel x y with
        | none => rw [hp] at hcomp; cases hcomp
        | some p =>
          rw [hp, Option.bind_some] at hcomp
          cases hf : imageColor inflate f cel.imageIndex p with
          | none => rw [hf] at hcomp; cases hcomp
          | some front =>
            rw [hf] at hcomp
            dsimp only at hcomp
            cases hbl : blend plat layer.blendMode c front layer.opacity with
            | ok out => rw [hbl] at hcomp; cases hcomp
            | err e => exact nomatch e
            | panic k'' =>
              have := blend_panic hkn hbl
              rw [this.1] at hbl
              exact ⟨x, y, old, c, p, front, hx, hy, h1, h2, this.2.2.2, hp, hf, hbl⟩
      · rintro ⟨x, y, old, back, p, front, hx, hy, h1, h2, _, hp, hf, hbl⟩
        obtain ⟨old', back', h1', h2', h3⟩ := hspec.result rfl x y hx hy
        rw [h1] at h1'; cases h1'
        rw [h2] at h2'; cases h2'
        refine ⟨x, y, back, .debugAssertFailed, hx, hy, h3, ?_⟩
        rw [compose, hd, hp, Option.bind_some, hf]
        dsimp only
        rw [hbl]
        rfl
    have hknown : isHsl layer.blendMode = true → isKnown layer.blendMode = true := by
      cases layer.blendMode <;> simp [isKnown, isHsl]
    rw [renderCel_panic hpal sel him hsize hd ht1 k]
    constructor
    · rintro ⟨hf, hdb⟩
      cases hf with
      | rawRgba h1 h2 h3 => exact .rawRgba h1 h2 h3
      | undecodable h1 h2 => exact .undecodable h1 h2
      | unknownMode h1 h2 => exact .unknownMode h1 h2
      | pixel h1 h2 h3 => exact .pixel h1 h2 ((hpix (hknown h2)).1 ⟨hdb rfl, h3⟩)
    · intro hf
      cases hf with
      | rawRgba h1 h2 h3 => exact ⟨.rawRgba h1 h2 h3, fun h => by cases h⟩
      | undecodable h1 h2 => exact ⟨.undecodable h1 h2, fun h => by cases h⟩
      | unknownMode h1 h2 => exact ⟨.unknownMode h1 h2, fun h => by cases h⟩
      | pixel h1 h2 h3 =>
        have := (hpix (hknown h2)).2 h3
        exact ⟨.pixel h1 h2 this.2, fun _ => this.1⟩
  constructor
  · intro hp
    obtain ⟨before, cel, after, t1, hl, hb, hc⟩ := forEach_panic (Prod.ext hp rfl)
    have hspec := renderCels_spec (plat := plat) (inflate := inflate) hpal sel before
      (fun c hc => hcels c (by rw [hl]; simp [hc])) t ht
    rw [hb] at hspec
    obtain ⟨im, him, _⟩ := hcels cel (by rw [hl]; simp)
    cases hd : drawnOn f sel cel with
    | none => rw [renderCel_skip hd] at hc; cases hc
    | some layer =>
      exact ⟨before, cel, after, layer, im, hl, hspec.ok_iff.1 rfl, hd, him,
        (key before cel after layer im t1 hl hb hd him).1 (by rw [hc])⟩
  · rintro ⟨before, cel, after, layer, im, hl, hdr, hd, him, hf⟩
    have hspec := renderCels_spec (plat := plat) (inflate := inflate) hpal sel before
      (fun c hc => hcels c (by rw [hl]; simp [hc])) t ht
    have hok := hspec.ok_iff.2 hdr
    rcases hb : Buf.forEach (f.renderCel plat inflate sel) before t with ⟨r, t1⟩
    rw [hb] at hok
    dsimp only at hok
    subst hok
    have := (key before cel after layer im t1 hl hb hd him).2 hf
    rw [hl, forEach_append, hb]
    dsimp only
    rw [forEach_cons]
    rcases hr : f.renderCel plat inflate sel cel t1 with ⟨u | e | k', t2⟩ <;> rw [hr] at this <;> cases this
    rfl

-- the five panics of `C41_render_panics` are of these four kinds; a cel after one that cannot be drawn does not matter
example :
    Sample.render ⟨false, 10⟩ (Sample.header 1 1 32 ++ Sample.frame 1
      [Sample.layer 1 0 99 255 [65], Sample.layer 1 0 0 255 [66], Sample.cel 0 0 0 1 1 [1, 2, 3, 4],
       Sample.cel 1 0 0 1 1 [1, 2, 3]]) 0 .all [0, 0, 0, 0] = some (.panic .explicitPanic, [0, 0, 0, 0]) ∧
    Sample.render ⟨false, 10⟩ (Sample.header 1 1 32 ++ Sample.frame 1
      [Sample.layer 1 0 0 255 [65], Sample.layer 1 0 99 255 [66], Sample.cel 0 0 0 1 1 [1, 2, 3, 4],
       Sample.cel 1 0 0 1 1 [1, 2, 3]]) 0 .all [0, 0, 0, 0] = some (.panic .lengthMismatch, [1, 2, 3, 4]) := by
  decide +kernel

/-- **C41, success.** In a release build, and in any build if no drawn layer has one of the four HSL modes, `render_frame`
with a frame number of the sprite and a large enough buffer succeeds exactly if all drawn cels have an image that can be
decoded and a blend mode that is known, whatever the colours are.

*Missing:* HSL modes in debug builds, see `C41_cause_partial`. -/
theorem C41_success_partial (plat : Plat) (b : Bytes) (f : AsepriteFile) (h : AsepriteFile.load plat b = .ok f)
    (inflate : Inflater) (i : Nat) (lf : LFrame) (hi : f.frames[i]? = some lf) (sel : LayerSelection) (t : Bytes)
    (ht : f.size.1.toNat * f.size.2.toNat * 4 ≤ t.length)
    (hm : plat.debug = false ∨ ∀ c ∈ lf.cels, ∀ layer, drawnOn f sel c = some layer → isHsl layer.blendMode = false) :
    (f.renderFrame plat inflate i sel t).1 = .ok () ↔
      ∀ c ∈ lf.cels, ∀ layer im, drawnOn f sel c = some layer → f.images[c.imageIndex]? = some im →
        HasPixels inflate f.file im ∧ isKnown layer.blendMode = true := by
  constructor
  · intro hok
    exact ((C41_failures_partial plat b f h inflate i lf hi sel t ht).2.1 hok).1
  · intro hall
    rcases (C41_failures_partial plat b f h inflate i lf hi sel t ht).1 with hok | ⟨k, hk⟩
    · exact hok
    · obtain ⟨before, cel, after, layer, im, hl, _, hd, him, hf⟩ :=
        (C41_cause_partial plat b f h inflate i lf hi sel t ht k).1 hk
      have hc : cel ∈ lf.cels := by rw [hl]; simp
      have h1 := hall cel hc layer im hd him
      cases hf with
      | rawRgba h2 => exact absurd h1.1 h2
      | undecodable h2 => exact absurd h1.1 h2
      | unknownMode _ h2 => rw [h1.2] at h2; cases h2
      | pixel _ h2 h3 =>
        rcases hm with hm | hm
        · have h4 := h3.1; rw [hm] at h4; cases h4
        · rw [hm cel hc layer hd] at h2; cases h2

-- hue in a release build; multiply in a debug build
example :
    Sample.render ⟨false, 10⟩ (Sample.header 1 1 32 ++ Sample.frame 1
      [Sample.layer 1 0 12 255 [65], Sample.cel 0 0 0 1 1 [1, 2, 3, 255]]) 0 .all [9, 9, 9, 255]
      = some (.ok (), [9, 9, 9, 255]) ∧
    Sample.render ⟨true, 10⟩ (Sample.header 1 1 32 ++ Sample.frame 1
      [Sample.layer 1 0 1 255 [65], Sample.cel 0 0 0 1 1 [1, 2, 3, 255]]) 0 .all [255, 255, 255, 255]
      = some (.ok (), [1, 2, 3, 255]) := by
  decide +kernel

end Ase
