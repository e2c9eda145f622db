import Verif.Lemmas.Edited
import Verif.Props.Drawn

/-!
# C110: sprites that were edited or put together by hand
-/

namespace Ase

open Spec

theorem renderFrame_shown {plat : Plat} {f : AsepriteFile} (hty : Typed f) (inflate : Inflater) {i : Nat} {lf : LFrame}
    (hi : f.frames[i]? = some lf) (sel : LayerSelection) {t : Bytes} (ht : canvasBytes f ≤ t.length) :
    ShownSpec plat inflate f sel lf.cels t (f.renderFrame plat inflate i sel t) := by
  rw [renderFrame_eq, if_neg (by omega), hi]
  exact renderCels_shown hty sel lf.cels t ht

/-- Loaded sprites are among those considered here. -/
theorem typed_of_load {plat : Plat} {b : Bytes} {f : AsepriteFile} (h : AsepriteFile.load plat b = .ok f) : Typed f := by
  intro pal hp
  obtain ⟨pal', h1, h2⟩ := goodPalette_of_load h
  by_cases hi : f.file.header.colorDepth = .indexed
  · rw [h2 hi] at hp
    cases hp
    exact h1
  · exact absurd ((C22_palette_iff_indexed plat b f.file (load_ok.1 h).1).1 (by rw [hp]; rfl)) hi

/-- **C110 (buffer).** Whatever is in a sprite, `render_frame` returns no error but `TargetBufferTooSmall`, that one
exactly if the buffer is shorter than `width * height * 4`, and then leaves the buffer as it is.  A frame number that
does not exist is a panic that leaves it as well.  The buffer always keeps its length and everything from byte
`width * height * 4` on. -/
theorem C110_buffer (plat : Plat) (f : AsepriteFile) (hty : Typed f) (inflate : Inflater) (i : Nat) (sel : LayerSelection)
    (t : Bytes) :
    let size := f.size.1.toNat * f.size.2.toNat * 4
    let result := (f.renderFrame plat inflate i sel t).1
    let after := (f.renderFrame plat inflate i sel t).2
    (∀ e, result = .err e ↔ t.length < size ∧ e = .targetBufferTooSmall) ∧
    (t.length < size ∨ f.frames.length ≤ i → after = t) ∧
    (size ≤ t.length → f.frames.length ≤ i → result = .panic .indexOutOfBounds) ∧
    after.length = t.length ∧ after.drop size = t.drop size := by
  intro size result after
  have hsz : size = canvasBytes f := rfl
  by_cases hs : t.length < canvasBytes f
  · have e : f.renderFrame plat inflate i sel t = (.err .targetBufferTooSmall, t) := by rw [renderFrame_eq, if_pos hs]
    simp only [result, after, e, hsz, hs, Outcome.err.injEq, true_and, true_or, forall_const, and_true, and_self]
    exact ⟨fun e => eq_comm, fun h => absurd hs (by omega)⟩
  · cases hi : f.frames[i]? with
    | none =>
      have e : f.renderFrame plat inflate i sel t = (.panic .indexOutOfBounds, t) := by
        rw [renderFrame_eq, if_neg hs, hi]
      simp [result, after, e, hsz, hs]
    | some lf =>
      have hlt := (List.getElem?_eq_some_iff.1 hi).1
      have hd := renderFrame_shown (plat := plat) hty inflate hi sel (Nat.le_of_not_lt hs)
      exact ⟨fun e => ⟨fun he => absurd he (hd.no_err _), fun h => absurd h.1 hs⟩,
        fun h => h.elim (fun h => absurd h hs) (fun h => by omega), fun _ h => by omega, hd.length, hd.drop⟩

/-- **C110 (success).** Whatever is in a sprite, with a frame number of the sprite and a large enough buffer,
`render_frame` succeeds exactly if every cel that is drawn can be decoded and has a known mode, and blending does not fail
on any pixel (which it does only with HSL modes in debug builds, see C41); otherwise it panics. -/
theorem C110_success (plat : Plat) (f : AsepriteFile) (hty : Typed f) (inflate : Inflater) (i : Nat) (lf : LFrame)
    (hi : f.frames[i]? = some lf) (sel : LayerSelection) (t : Bytes)
    (ht : f.size.1.toNat * f.size.2.toNat * 4 ≤ t.length) :
    ((f.renderFrame plat inflate i sel t).1 = .ok () ↔
      (∀ c ∈ lf.cels, ∀ layer, drawnOn f sel c = some layer → CelFits inflate f c ∧ isKnown layer.blendMode = true) ∧
      (∀ x y c, x < f.size.1.toNat → y < f.size.2.toNat → canvasPixel f t x y = some c →
        ∃ out, composeShown plat inflate f sel x y lf.cels c = .ok out)) ∧
    ((f.renderFrame plat inflate i sel t).1 = .ok () ∨ ∃ k, (f.renderFrame plat inflate i sel t).1 = .panic k) := by
  have hd := renderFrame_shown (plat := plat) hty inflate hi sel ht
  refine ⟨hd.ok_iff, ?_⟩
  have := hd.no_err
  cases hr : (f.renderFrame plat inflate i sel t).1 with
  | ok => exact .inl rfl
  | err e => exact absurd hr (this e)
  | panic k => exact .inr ⟨k, rfl⟩

/-- **C110 (pixels).** Whatever is in a sprite, after a successful `render_frame` every canvas pixel is what it was
before, composed in the order of the cels with the pixels that the drawn cels show there. -/
theorem C110_pixels (plat : Plat) (f : AsepriteFile) (hty : Typed f) (inflate : Inflater) (i : Nat) (lf : LFrame)
    (hi : f.frames[i]? = some lf) (sel : LayerSelection) (t t' : Bytes)
    (hok : f.renderFrame plat inflate i sel t = (.ok (), t')) (x y : Nat) (hx : x < f.size.1.toNat)
    (hy : y < f.size.2.toNat) :
    ∃ before after, canvasPixel f t x y = some before ∧ canvasPixel f t' x y = some after ∧
      composeShown plat inflate f sel x y lf.cels before = .ok after := by
  have hs : ¬ t.length < canvasBytes f := by
    intro hs
    rw [renderFrame_eq, if_pos hs] at hok
    cases hok
  have hd := renderFrame_shown (plat := plat) hty inflate hi sel (Nat.le_of_not_lt hs)
  rw [hok] at hd
  obtain ⟨c, out, h1, h2, h3⟩ := hd.result rfl x y hx hy
  exact ⟨c, out, h1, h3, h2⟩

/-- **C110 (edits).** A loaded sprite may be edited: layers may be changed, added and removed, cels may be removed, copied,
moved, put in another order, on other layers and into other frames, and the size of the canvas may be changed.  With a
frame number and a large enough buffer `render_frame` then succeeds exactly if the images of the drawn cels can be decoded
and so on, as for loaded sprites (C41), and every pixel is composed of the drawn cels in their order (as in C37). -/
theorem C110_edit (plat : Plat) (b : Bytes) (f : AsepriteFile) (hf : AsepriteFile.load plat b = .ok f) (g : AsepriteFile)
    (hg : EditOf f g) (inflate : Inflater) (i : Nat) (lg : LFrame) (hi : g.frames[i]? = some lg) (sel : LayerSelection)
    (t : Bytes) (ht : g.size.1.toNat * g.size.2.toNat * 4 ≤ t.length) :
    let result := (g.renderFrame plat inflate i sel t).1
    let after := (g.renderFrame plat inflate i sel t).2
    (∀ e, result ≠ .err e) ∧
    (result = .ok () ↔
      (∀ c ∈ lg.cels, ∀ layer im, drawnOn g sel c = some layer → g.images[c.imageIndex]? = some im →
        HasPixels inflate g.file im ∧ isKnown layer.blendMode = true) ∧
      (∀ x y c, x < g.size.1.toNat → y < g.size.2.toNat → canvasPixel g t x y = some c →
        ∃ out, compose plat inflate g sel x y lg.cels c = .ok out)) ∧
    (result = .ok () → ∀ x y, x < g.size.1.toNat → y < g.size.2.toNat →
      ∃ c out, canvasPixel g t x y = some c ∧ compose plat inflate g sel x y lg.cels c = .ok out ∧
        canvasPixel g after x y = some out) := by
  obtain ⟨h1, h2, h3, h4⟩ := hg
  obtain ⟨pal, hpal⟩ := goodPalette_of_load hf
  have hpal' : GoodPalette g.file pal := by
    unfold GoodPalette at *
    rwa [h1, h2]
  have hcels : CelsOk g lg.cels := by
    intro c hc
    obtain ⟨lf, hlf, c', hc', e1, e2⟩ := h4 lg (List.mem_of_getElem? hi) c hc
    obtain ⟨j, hj⟩ := List.getElem?_of_mem hlf
    rw [h3, e1, e2]
    exact celsOk_of_load hf hj c' hc'
  have hd := renderCels_spec (plat := plat) (inflate := inflate) hpal' sel lg.cels hcels t ht
  have e : g.renderFrame plat inflate i sel t = Buf.forEach (g.renderCel plat inflate sel) lg.cels t := by
    rw [renderFrame_eq, if_neg (by unfold canvasBytes; exact Nat.not_lt.2 ht), hi]
  intro result after
  simp only [result, after, e]
  exact ⟨hd.no_err, hd.ok_iff, hd.result⟩

/-- **C110 (eyes).** Switching the `visible` fields of the layers of any sprite and rendering the visible ones is rendering
with the mask of these fields. -/
theorem C110_eyes (plat : Plat) (f : AsepriteFile) (layers : List LLayer)
    (hl : layers.map (fun l => { l with visible := false }) = f.layers.map (fun l => { l with visible := false }))
    (inflate : Inflater) (i : Nat) (t : Bytes) :
    { f with layers := layers }.renderFrame plat inflate i .visible t
      = f.renderFrame plat inflate i (.mask (layers.map LLayer.visible)) t := by
  have hcb : canvasBytes { f with layers := layers } = canvasBytes f := rfl
  rw [renderFrame_eq, renderFrame_eq, hcb]
  by_cases h : t.length < canvasBytes f
  · rw [if_pos h, if_pos h]
  · rw [if_neg h, if_neg h]
    cases f.frames[i]? with
    | none => rfl
    | some lf =>
      refine forEach_draws (f := { f with layers := layers }) (g := f) rfl rfl rfl plat inflate .visible _ _ lf.cels lf.cels
        (Nat.le_refl _) (congrFun (congrArg _ (funext fun c => ?_)) _) t
      have hv : (layers[c.layerIndex]?).map (fun l => { l with visible := false })
          = (f.layers[c.layerIndex]?).map (fun l => { l with visible := false }) := by
        rw [← List.getElem?_map, ← List.getElem?_map, hl]
      unfold cellDraw drawnOn
      dsimp only
      cases hx : layers[c.layerIndex]? with
      | none =>
        rw [hx] at hv
        rw [Option.map_eq_none_iff.1 hv.symm]
      | some l =>
        rw [hx] at hv
        obtain ⟨l', h1, h2⟩ := Option.map_eq_some_iff.1 hv.symm
        rw [h1]
        obtain ⟨name, opacity, mode, visible, type⟩ := l
        obtain ⟨name', opacity', mode', visible', type'⟩ := l'
        simp only [LLayer.mk.injEq, true_and] at h2
        obtain ⟨rfl, rfl, rfl, rfl⟩ := h2
        have hs : Selects (.mask (layers.map LLayer.visible)) c.layerIndex ⟨name', opacity', mode', visible', type'⟩ ↔
            Selects .visible c.layerIndex ⟨name', opacity', mode', visible, type'⟩ := by
          simp [Selects, hx]
        by_cases hc : type' ≠ LayerType.group ∧ Selects .visible c.layerIndex ⟨name', opacity', mode', visible, type'⟩
        · dsimp only
          rw [if_pos hc, if_pos ⟨hc.1, hs.2 hc.2⟩]
          rfl
        · dsimp only
          rw [if_neg hc, if_neg fun h => hc ⟨h.1, hs.1 h.2⟩]

/-- **C110 (images).** Whatever is in a sprite, `load_image` succeeds exactly if the image exists, the buffer is large
enough, the data can be decoded, and there is a palette if the sprite is indexed; and it complains about a missing palette
exactly if that is what is missing: the sprite is indexed and has none, the buffer is large enough, and a compressed image
is a complete stream. -/
theorem C110_image (f : AsepriteFile) (hty : Typed f) (inflate : Inflater) (i : Nat) (t : Bytes) :
    ((f.loadImage inflate i t).1 = .ok () ↔ ∃ im, f.images[i]? = some im ∧ pixelCount im * 4 ≤ t.length ∧
      HasPixels inflate f.file im ∧ (f.file.header.colorDepth = .indexed → f.file.palette ≠ none)) ∧
    ((f.loadImage inflate i t).1 = .err .missingPalette ↔ ∃ im, f.images[i]? = some im ∧ pixelCount im * 4 ≤ t.length ∧
      f.file.header.colorDepth = .indexed ∧ f.file.palette = none ∧
      (im.compressed = true → (inflate im.data (pixelCount im)).1 = .streamEnd)) := by
  cases him : f.images[i]? with
  | none => simp [AsepriteFile.loadImage, him, Buf.lift]
  | some im =>
    simp only [Option.some.injEq, exists_eq_left']
    rw [loadImage_eq him]
    by_cases hs : t.length < pixelCount im * 4
    · rw [if_pos hs]
      simp only [reduceCtorEq, false_iff, Outcome.err.injEq]
      exact ⟨fun h => by omega, fun h => by omega⟩
    · rw [if_neg hs]
      have ht : (t.take (pixelCount im * 4)).length = pixelCount im * 4 := by rw [List.length_take]; omega
      generalize t.take (pixelCount im * 4) = u at ht
      simp only [Nat.le_of_not_lt hs, true_and]
      by_cases hp : f.file.header.colorDepth = .indexed ∧ f.file.palette = none
      · have hr : (f.decodeImage inflate im u).1 = if im.compressed = true ∧
            (inflate im.data (pixelCount im)).1 ≠ .streamEnd then .err .decompressError else .err .missingPalette := by
          unfold AsepriteFile.decodeImage
          rw [hp.1]
          cases im.compressed with
          | false =>
            dsimp only
            rw [buf_bind, AsepriteFile.paletteOrErr, hp.2]
            simp [Buf.lift]
          | true =>
            dsimp only
            rw [buf_bind, onFresh_decompress]
            unfold pixelCount
            by_cases he : (inflate im.data (im.width.toNat * im.height.toNat)).1 = .streamEnd
            · rw [if_pos he]
              dsimp only
              rw [buf_bind, AsepriteFile.paletteOrErr, hp.2]
              simp [Buf.lift, he]
            · rw [if_neg he]
              simp [he]
        rw [hr]
        simp only [hp.1, hp.2, true_and, ne_eq, not_true_eq_false, imp_false, and_false, iff_false]
        constructor
        · split <;> simp
        · by_cases hc : im.compressed = true <;> by_cases he : (inflate im.data (pixelCount im)).1 = .streamEnd <;>
            simp [hc, he]
      · obtain ⟨pal, hpal⟩ : ∃ pal, GoodPalette f.file pal := by
          cases hq : f.file.palette with
          | none => exact ⟨.default, List.length_replicate .., fun h => absurd ⟨h, hq⟩ hp⟩
          | some pal => exact ⟨pal, hty pal hq, fun _ => hq⟩
        have hp' : f.file.header.colorDepth = .indexed → f.file.palette ≠ none := fun h1 h2 => hp ⟨h1, h2⟩
        rcases known_or_unknown f.file.header.colorDepth with ⟨n, hu⟩ | hn
        · rw [decodeImage_unknown hu]
          simp [HasPixels, hu]
        · rw [decodeImage_known hpal rfl hn inflate im _ ht]
          simp only [HasPixels, hn, not_false_eq_true, implies_true, true_and, ne_eq]
          constructor
          · split
            · split <;> simp_all
            · split
              · simp_all
              · split <;> simp_all
          · constructor
            · intro h
              split at h
              · split at h <;> cases h
              · split at h
                · cases h
                · split at h <;> cases h
            · intro h
              exact absurd ⟨h.1, h.2.1⟩ hp

/-- A sprite of two by two pixels with one cel, changed by a function. -/
def Sample.edited (edit : AsepriteFile → AsepriteFile) (t : Bytes) : Option (Outcome LoadImageError Unit × Bytes) :=
  match AsepriteFile.load ⟨true, 10⟩ (Sample.header 2 2 32 ++ Sample.frame 1 [Sample.layer 1 0 0 255 [65],
      Sample.cel 0 0 0 1 3 [1, 2, 3, 255, 4, 5, 6, 255, 7, 8, 9, 255]]) with
  | .ok f => some ((edit f).renderFrame ⟨true, 10⟩ Sample.inflate 0 .all t)
  | _ => none

/-- A sprite with all its cels changed by a function. -/
def Sample.withCels (edit : FrameCel → FrameCel) (f : AsepriteFile) : AsepriteFile :=
  { f with frames := f.frames.map fun lf => { lf with cels := lf.cels.map edit } }

-- not edited; moved to the right; drawn twice; the image broken into rows of two pixels instead of one, with nothing at
-- the end
example :
    Sample.edited id (List.replicate 16 0) = some (.ok (), [1, 2, 3, 255, 0, 0, 0, 0, 4, 5, 6, 255, 0, 0, 0, 0]) ∧
    Sample.edited (Sample.withCels fun c => { c with origin := (1, 0) }) (List.replicate 16 0)
      = some (.ok (), [0, 0, 0, 0, 1, 2, 3, 255, 0, 0, 0, 0, 4, 5, 6, 255]) ∧
    Sample.edited (fun f => { f with frames := f.frames.map fun lf =>
        { lf with cels := lf.cels ++ lf.cels.map fun c => { c with origin := (1, -1) } } }) (List.replicate 16 0)
      = some (.ok (), [1, 2, 3, 255, 4, 5, 6, 255, 4, 5, 6, 255, 7, 8, 9, 255]) ∧
    Sample.edited (Sample.withCels fun c => { c with size := (2, 2) }) (List.replicate 16 9)
      = some (.ok (), [1, 2, 3, 255, 4, 5, 6, 255, 7, 8, 9, 255, 9, 9, 9, 9]) := by
  decide +kernel

-- too small for its image; an image that does not exist; the depth of an indexed sprite, without a palette
example :
    Sample.edited (Sample.withCels fun c => { c with size := (1, 2) }) (List.replicate 16 9)
      = some (.panic .unwrapOnErr, List.replicate 16 9) ∧
    Sample.edited (Sample.withCels fun c => { c with imageIndex := 1 }) (List.replicate 16 9)
      = some (.panic .indexOutOfBounds, List.replicate 16 9) ∧
    Sample.edited (fun f => { f with file := { f.file with header := { f.file.header with colorDepth := .indexed } } })
      (List.replicate 16 9) = some (.panic .unwrapOnErr, List.replicate 16 9) := by
  decide +kernel

-- the edits that keep the sizes are edits in the sense of `C110_edit`
example (f : AsepriteFile) (x y : Int16) (layers : List LLayer) :
    EditOf f (Sample.withCels (fun c => { c with origin := (x, y), layerIndex := c.layerIndex + 1 })
      { f with layers := layers }) := by
  refine ⟨rfl, rfl, rfl, ?_⟩
  intro lg hlg c hc
  obtain ⟨lf, hlf, rfl⟩ := List.mem_map.1 hlg
  obtain ⟨c', hc', rfl⟩ := List.mem_map.1 hc
  exact ⟨lf, hlf, c', hc', rfl, rfl⟩

end Ase
