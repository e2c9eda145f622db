import Verif.Spec.Kinds
import Verif.Props.BlendFloat
import Verif.Props.Failures
import Verif.Props.Occurs
import Verif.Props.Panics

/-!
# C131: exactly these panics can occur
-/

namespace Ase
open Spec

/-- **C131.** `parse_file` can panic in exactly these ways: an index out of bounds, an arithmetic overflow in debug
builds, and a stack overflow if the stack has room for no more than 700000000 calls. -/
theorem C131_parse (plat : Plat) (hs : plat.stack ≤ 700000000) (k : Panic) :
    (∃ b, parseFile plat b = .panic k) ↔ ParsePanics plat k := by
  constructor
  · rintro ⟨b, h⟩
    rcases C04_panics_partial plat b k h with ⟨rfl, hd⟩ | ⟨rfl, _⟩ | ⟨rfl, _⟩
    · exact hd
    · trivial
    · trivial
  · intro h
    cases k with
    | indexOutOfBounds => exact ⟨_, C04_index_panics plat⟩
    | overflow =>
      obtain ⟨debug, stack⟩ := plat
      cases (show debug = true from h)
      exact ⟨_, C04_overflow_panics stack 0 0 (by decide) (by decide)⟩
    | stackOverflow => exact C04_stack_overflow plat.debug plat.stack hs
    | _ => exact h.elim

/-- **C131.** With any stack at all there are no others. -/
theorem C131_parse_only (plat : Plat) (k : Panic) (b : Bytes) (h : parseFile plat b = .panic k) : ParsePanics plat k := by
  rcases C04_panics_partial plat b k h with ⟨rfl, hd⟩ | ⟨rfl, _⟩ | ⟨rfl, _⟩
  · exact hd
  · trivial
  · trivial

/-- **C131.** The same for `load`. -/
theorem C131_load (plat : Plat) (hs : plat.stack ≤ 700000000) (k : Panic) :
    (∃ b, AsepriteFile.load plat b = .panic k) ↔ ParsePanics plat k := by
  simp only [(C33_load_succeeds plat _).2.1]
  exact C131_parse plat hs k

/-- **C131.** `load_image` can panic in exactly one way for an image that exists, slices of different lengths, and in
exactly one other way for an image that does not exist. -/
theorem C131_load_image (plat : Plat) (k : Panic) :
    ((∃ b f i t, AsepriteFile.load plat b = .ok f ∧ i < f.images.length ∧
      (f.loadImage Zlib.inflate i t).1 = .panic k) ↔ k = .lengthMismatch) ∧
    ((∃ b f i t, AsepriteFile.load plat b = .ok f ∧ f.images.length ≤ i ∧
      (f.loadImage Zlib.inflate i t).1 = .panic k) ↔ k = .indexOutOfBounds) := by
  have hraw : ∀ b f, AsepriteFile.load plat b = .ok f → ∀ i im, f.images[i]? = some im → ∀ t, ∀ k,
      (f.loadImage Zlib.inflate i t).1 = .panic k → k = .lengthMismatch := by
    intro b f h i im him t k hk
    obtain ⟨pal, hpal⟩ := goodPalette_of_load h
    have h1 := (C43_contract_partial plat b f h Zlib.inflate i im him t).2.2.2.2.2.1 ⟨k, hk⟩
    obtain ⟨h2, h3, h4, h5⟩ := h1
    have h2 : pixelCount im * 4 ≤ t.length := h2
    have h5 : im.data.length ≠ pixelCount im * bytesPerPixel f.file.header.colorDepth := h5
    have ht : (t.take (pixelCount im * 4)).length = pixelCount im * 4 := by
      rw [List.length_take]
      exact Nat.min_eq_left h2
    rw [loadImage_eq him, if_neg (Nat.not_lt.2 h2)] at hk
    dsimp only at hk
    rw [decodeImage_known hpal rfl (by rw [h3]; nofun) _ _ _ ht, if_neg (by rw [h4]; decide), if_neg h5, if_pos h3] at hk
    cases hk
    rfl
  obtain ⟨b, f, h1, h2, h3⟩ := oneImage_loaded plat .rgba ⟨1, 1, [], false⟩ nofun nofun (by decide)
  constructor
  · constructor
    · rintro ⟨b, f, i, t, h, hi, hk⟩
      exact hraw b f h i _ (List.getElem?_eq_getElem hi) t k hk
    · rintro rfl
      have him : f.images[0]? = some ⟨1, 1, [], false⟩ := by rw [h3]; rfl
      obtain ⟨k, hk⟩ := (C43_contract_partial plat b f h1 Zlib.inflate 0 _ him [0, 0, 0, 0]).2.2.2.2.2.2
        ⟨by decide, h2, rfl, by rw [h2]; decide⟩
      have := hraw b f h1 0 _ him _ k hk
      subst this
      exact ⟨b, f, 0, _, h1, by rw [h3]; decide, hk⟩
  · constructor
    · rintro ⟨b, f, i, t, h, hi, hk⟩
      rw [loadImage_none (List.getElem?_eq_none hi)] at hk
      cases hk
      rfl
    · rintro rfl
      refine ⟨b, f, f.images.length, [], h1, Nat.le_refl _, ?_⟩
      rw [loadImage_none (List.getElem?_eq_none (Nat.le_refl _))]

/-! ## Rendering -/

/-- A sprite of one pixel with one image, on the layer with the number `l`. -/
def stacked (d : ColorDepth) (m : BlendMode) (l : Nat) (im : Image) : Sprite where
  size := (1, 1)
  depth := d
  transparent := 0
  palette := none
  layers := List.replicate (l + 1) ⟨"A", 255, m, true, .normal⟩
  frames := [⟨0, (0, 0), [⟨(0, 0), (im.width, im.height), l, 0⟩]⟩]
  tags := []
  images := [im]

theorem stacked_loaded (plat : Plat) (d : ColorDepth) (m : BlendMode) (l : Nat) (im : Image) (hd : d ≠ .indexed)
    (hu : ∀ n, d = .unknown n → n ≠ 8 ∧ n ≠ 16 ∧ n ≠ 32) (hm : ModeRead m) (hl : l < 2 ^ 16)
    (hlen : im.data.length < 2 ^ 20) :
    ∃ b f, AsepriteFile.load plat b = .ok f ∧ spriteOf f = stacked d m l im := by
  refine C129_every plat (stacked d m l im) ?_ ?_
  · refine ⟨hu, fun h => absurd h hd, fun _ => rfl, ?_, by simp [stacked], by simp [stacked], by simp [stacked],
      by simp [stacked], ?_, by simp [stacked], [(0, l)], rfl, by simp, ?_, ?_⟩
    · intro x hx
      cases List.eq_of_mem_replicate hx
      exact ⟨.inl rfl, hm, show FitsStr "A" by decide +kernel⟩
    · intro fr hfr c hc
      cases List.mem_singleton.1 hfr
      cases List.mem_singleton.1 hc
      exact hl
    · intro k i l' hk
      match k, hk with
      | 0, hk => cases hk; exact ⟨_, _, rfl, .head _, rfl, rfl⟩
      | k + 1, hk => simp at hk
    · intro i fr c hfr hc
      match i, hfr with
      | 0, hfr =>
        cases hfr
        rw [List.mem_singleton.1 hc]
        exact ⟨0, rfl, .inl rfl⟩
      | i + 1, hfr => simp [stacked] at hfr
  · intro fr hfr
    cases List.mem_singleton.1 hfr
    have : (utf8 "A").length = 1 := by decide +kernel
    simp [stacked, dataLength, this]
    omega

/-- **C131.** Rendering a frame that exists can panic in exactly these ways: slices of different lengths, `unwrap` on an
error, the `panic!` for unknown blend modes, and in debug builds a failed assertion. With every selection that can take a
layer all of them are possible, and with the others none. -/
theorem C131_render (plat : Plat) (sel : LayerSelection) (k : Panic) :
    (∃ b f i t, AsepriteFile.load plat b = .ok f ∧ i < f.frames.length ∧
      (f.renderFrame plat Zlib.inflate i sel t).1 = .panic k) ↔ RenderPanics plat k ∧ CanSelect sel := by
  constructor
  · rintro ⟨b, f, i, t, h, hi, hk⟩
    have ht : f.size.1.toNat * f.size.2.toNat * 4 ≤ t.length := by
      refine Nat.le_of_not_lt fun ht => ?_
      rw [(C36_buffer plat b f h Zlib.inflate i sel t).1.2 ht] at hk
      cases hk
    obtain ⟨before, cel, after, layer, im, h1, h2, h3, h4, h5⟩ :=
      (C41_cause_partial plat b f h Zlib.inflate i _ (List.getElem?_eq_getElem hi) sel t ht k).1 hk
    refine ⟨?_, ?_⟩
    · cases h5 with
      | rawRgba => trivial
      | undecodable => trivial
      | unknownMode => trivial
      | pixel _ _ h => exact h.1
    · cases sel with
      | visible => trivial
      | all => trivial
      | mask m =>
        have hlt : cel.layerIndex < 2 ^ 16 :=
          (C129_possible plat b f h).layerIndex _ (List.getElem_mem hi) cel (by rw [h1]; simp)
        refine ⟨_, hlt, ?_⟩
        rw [drawnOn] at h3
        split at h3
        · split at h3
          · next h6 => exact h6.2
          · cases h3
        · cases h3
  · rintro ⟨hk, hsel⟩
    obtain ⟨l, hl, hdrawn⟩ : ∃ l < 2 ^ 16, ∀ m, Selects sel l ⟨"A", 255, m, true, .normal⟩ := by
      cases sel with
      | visible => exact ⟨0, by decide, fun _ => rfl⟩
      | all => exact ⟨0, by decide, fun _ => trivial⟩
      | mask m =>
        obtain ⟨l, hl, hm⟩ := hsel
        exact ⟨l, hl, fun _ => hm⟩
    have key : ∀ d m im, d ≠ .indexed → (∀ n, d = .unknown n → n ≠ 8 ∧ n ≠ 16 ∧ n ≠ 32) → ModeRead m →
        im.data.length < 2 ^ 20 →
        (∀ b f, AsepriteFile.load plat b = .ok f → spriteOf f = stacked d m l im →
          CelFailure Zlib.inflate f.file ⟨"A", 255, m, true, .normal⟩ im (PixelFails plat Zlib.inflate f sel [0, 0, 0, 255] []
            ⟨(0, 0), (im.width, im.height), l, 0⟩ ⟨"A", 255, m, true, .normal⟩) k) →
        ∃ b f i t, AsepriteFile.load plat b = .ok f ∧ i < f.frames.length ∧
          (f.renderFrame plat Zlib.inflate i sel t).1 = .panic k := by
      intro d m im h1 h2 h3 h4 h5
      obtain ⟨b, f, h6, h7⟩ := stacked_loaded plat d m l im h1 h2 h3 hl h4
      have hfr : f.frames = _ := congrArg Sprite.frames h7
      have hsz : f.size = _ := congrArg Sprite.size h7
      have hla : f.layers = _ := congrArg Sprite.layers h7
      have him : f.images = _ := congrArg Sprite.images h7
      refine ⟨b, f, 0, [0, 0, 0, 255], h6, by rw [hfr]; exact Nat.zero_lt_one, ?_⟩
      refine (C41_cause_partial plat b f h6 Zlib.inflate 0 ⟨0, (0, 0), [⟨(0, 0), (im.width, im.height), l, 0⟩]⟩
        (by rw [hfr]; rfl) sel _ (by rw [hsz]; exact Nat.le_refl 4) k).2
        ⟨[], _, [], ⟨"A", 255, m, true, .normal⟩, im, rfl, ⟨nofun, fun x y c _ _ _ => ⟨c, rfl⟩⟩, ?_, by rw [him]; rfl, h5 b f h6 h7⟩
      rw [drawnOn, hla]
      simp only [stacked, List.getElem?_replicate, if_pos (Nat.lt_succ_self l)]
      rw [if_pos ⟨nofun, hdrawn m⟩]
    cases k with
    | lengthMismatch =>
      refine key .rgba .normal ⟨1, 1, [], false⟩ nofun nofun trivial (by decide) fun b f _ h => .rawRgba ?_ rfl ?_
      · rintro ⟨_, h2⟩
        rw [show f.file.header.colorDepth = .rgba from congrArg Sprite.depth h] at h2
        exact absurd h2 (by decide)
      · exact congrArg Sprite.depth h
    | unwrapOnErr =>
      refine key .grayscale .normal ⟨1, 1, [], false⟩ nofun nofun trivial (by decide) fun b f _ h => .undecodable ?_ ?_
      · rintro ⟨_, h2⟩
        rw [show f.file.header.colorDepth = .grayscale from congrArg Sprite.depth h] at h2
        exact absurd h2 (by decide)
      · rintro ⟨_, h2⟩
        rw [show f.file.header.colorDepth = .grayscale from congrArg Sprite.depth h] at h2
        cases h2
    | explicitPanic =>
      refine key .rgba (.unknown 99) ⟨1, 1, [1, 2, 3, 255], false⟩ nofun nofun (.inr (by decide)) (by decide)
        fun b f _ h => .unknownMode ?_ rfl
      have hd : f.file.header.colorDepth = .rgba := congrArg Sprite.depth h
      exact ⟨by rw [hd]; nofun, by rw [hd]; decide⟩
    | debugAssertFailed =>
      refine key .rgba .hue ⟨1, 1, [1, 2, 3, 255], false⟩ nofun nofun trivial (by decide)
        fun b f _ h => .pixel ?_ rfl ?_
      · have hd : f.file.header.colorDepth = .rgba := congrArg Sprite.depth h
        exact ⟨by rw [hd]; nofun, by rw [hd]; decide⟩
      · have hd : f.file.header.colorDepth = .rgba := congrArg Sprite.depth h
        have him : f.images = _ := congrArg Sprite.images h
        have hsz : f.size = (1, 1) := congrArg Sprite.size h
        refine ⟨hk, 0, 0, ⟨0, 0, 0, 255⟩, ⟨0, 0, 0, 255⟩, 0, ⟨1, 2, 3, 255⟩, by rw [hsz]; decide, by rw [hsz]; decide,
          by rw [canvasPixel, Nat.zero_mul]; rfl, rfl, by decide, rfl, ?_,
          C50_debug_panics .hue rfl _ _ _ (by decide) (by decide) plat hk⟩
        rw [imageColor, him, hd]
        simp only [stacked, imageBytes, hd]
        rfl
    | _ => exact hk.elim

/-- **C131.** For a frame that does not exist the panic is an index out of bounds. -/
theorem C131_render_missing (plat : Plat) (sel : LayerSelection) (k : Panic) :
    (∃ b f i t, AsepriteFile.load plat b = .ok f ∧ f.frames.length ≤ i ∧
      (f.renderFrame plat Zlib.inflate i sel t).1 = .panic k) ↔ k = .indexOutOfBounds := by
  constructor
  · rintro ⟨b, f, i, t, h, hi, hk⟩
    rw [renderFrame_eq, List.getElem?_eq_none hi] at hk
    split at hk
    · cases hk
    · cases hk; rfl
  · rintro rfl
    obtain ⟨b, f, h1, h2⟩ := stacked_loaded plat .rgba .normal 0 ⟨1, 1, [], false⟩ nofun nofun trivial (by decide) (by decide)
    refine ⟨b, f, f.frames.length, [0, 0, 0, 0], h1, Nat.le_refl _, ?_⟩
    have hs : f.size = (1, 1) := congrArg Sprite.size h2
    have ht : f.size.1.toNat * f.size.2.toNat * 4 ≤ [(0 : UInt8), 0, 0, 0].length := by rw [hs]; decide
    rw [renderFrame_eq, if_neg (show ¬ _ < canvasBytes f from Nat.not_lt.2 ht), List.getElem?_eq_none (Nat.le_refl _)]

/-- **C131.** `combined_frame_image` panics in the same ways. -/
theorem C131_combined (plat : Plat) (hash : List HashInput → UInt64) (k : Panic) :
    ((∃ b f i t, AsepriteFile.load plat b = .ok f ∧ i < f.frames.length ∧
      (f.combinedFrameImage plat Zlib.inflate hash i t).1 = .panic k) ↔ RenderPanics plat k) ∧
    ((∃ b f i t, AsepriteFile.load plat b = .ok f ∧ f.frames.length ≤ i ∧
      (f.combinedFrameImage plat Zlib.inflate hash i t).1 = .panic k) ↔ k = .indexOutOfBounds) := by
  simp only [(C52_combined plat Zlib.inflate hash _ _ _).2.2.1]
  refine ⟨?_, C131_render_missing plat .visible k⟩
  rw [C131_render]
  exact ⟨And.left, fun h => ⟨h, trivial⟩⟩

/-! ## Examples -/

-- a release build with 10000 levels of stack
example : ParsePanics ⟨false, 10000⟩ .stackOverflow ∧ ¬ ParsePanics ⟨false, 10000⟩ .overflow ∧
    ¬ ParsePanics ⟨false, 10000⟩ .unwrapOnErr := ⟨trivial, nofun, id⟩

-- no panic can be a division by zero or a failed assertion that release builds also check
example (plat : Plat) : ¬ RenderPanics plat .divByZero ∧ ¬ RenderPanics plat .assertFailed ∧
    ¬ RenderPanics plat .overflow := ⟨id, id, id⟩

-- a mask may take only the last layer a cel can be on
example : CanSelect (.mask (List.replicate 65535 false ++ [true])) ∧ ¬ CanSelect (.mask [false, false]) := by
  refine ⟨⟨65535, by decide, ?_⟩, ?_⟩
  · rw [List.getElem?_append_right (by rw [List.length_replicate]), List.length_replicate]
    rfl
  · rintro ⟨l, _, h⟩
    match l, h with
    | 0, h => cases h
    | 1, h => cases h
    | l + 2, h => simp at h

end Ase
