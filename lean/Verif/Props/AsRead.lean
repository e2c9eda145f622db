import Verif.Lemmas.AsRead
import Verif.Props.Reference

/-!
# C58, C59: what the crate renders for any file

`C58_picture_partial` and `C59_end_to_end_partial` are about files without the features the crate ignores.  Here is what
is rendered for all the others: the reference picture of `Doc.asRead p raw`, the file without these features.
-/

namespace Ase

open Spec

/-- **C58, for every file.** If rendering frame `i` with the layers chosen by `p` succeeds, every pixel of the canvas is the
one of the reference picture of the file without the features the crate ignores (`Doc.asRead`).  `Visible` and `All` are the
choices `(·.visible)` and `fun _ => true`. -/
theorem C58_as_read (plat : Plat) (b : Bytes) (raw : RawFile) (f : AsepriteFile)
    (hraw : parseRawFile plat b = .ok raw) (h : AsepriteFile.load plat b = .ok f) (inflate : Inflater) (i : Nat)
    (hi : i < raw.frames.length) (sel : LayerSelection) (p : LLayer → Bool)
    (hsel : sel = f.selectLayers p ∨ (sel = .visible ∧ p = (·.visible)) ∨ (sel = .all ∧ p = fun _ => true))
    (t t' : Bytes) (hok : f.renderFrame plat inflate i sel t = (.ok (), t')) (x y : Nat)
    (hx : x < raw.header.width.toNat) (hy : y < raw.header.height.toNat) :
    ∃ before after, pixel t (y * raw.header.width.toNat + x) = some before ∧
      pixel t' (y * raw.header.width.toNat + x) = some after ∧
      Doc.picture plat inflate (Doc.asRead p raw) i x y before = .ok after := by
  have hok : f.renderFrame plat inflate i (f.selectLayers p) t = (.ok (), t') := by
    rcases hsel with rfl | ⟨rfl, rfl⟩ | ⟨rfl, rfl⟩
    · exact hok
    · rw [← (C40_masks plat f inflate i t).1]; exact hok
    · rw [← (C40_masks plat f inflate i t).2]; exact hok
  obtain ⟨h1, h2⟩ := load_ok.1 h
  have hp := parsed_of_parse hraw h1
  have hlt : i < f.frames.length := by
    rw [(frames_of_load h2).1, hp.frames, List.length_map]
    exact hi
  have hlf := List.getElem?_eq_getElem hlt
  have hw : f.file.header = raw.header := hp.header
  obtain ⟨before, after, ha, hb, hc⟩ := C37_pixels plat b f h inflate i _ hlf _ t t' hok x y
    (by show x < f.file.header.width.toNat; rw [hw]; exact hx)
    (by show y < f.file.header.height.toNat; rw [hw]; exact hy)
  unfold canvasPixel at ha hb
  rw [hw] at ha hb
  exact ⟨before, after, ha, hb, by rw [← compose_asRead hraw h p hlf]; exact hc⟩

/-- **C59, for every consistent sprite.** Encoding it as the format document prescribes, loading the bytes and rendering any
frame with any choice of layers succeeds for every large enough buffer, if the images drawn are complete and the blend modes
cannot fail, and shows the reference picture of the sprite without the features the crate ignores.  (`_partial`: see C54 for
`Encodable`; the four HSL modes only in release builds, C50.) -/
theorem C59_as_read_partial (plat : Plat) (raw : RawFile) (henc : Doc.Encodable raw) (hcons : Doc.Consistent raw)
    (hstack : ∀ fr ∈ raw.frames, ∀ c ∈ fr.chunks, StackFor plat c) (inflate : Inflater) :
    ∃ f, AsepriteFile.load plat (fileBytes raw) = .ok f ∧
      ∀ i, i < raw.frames.length → ∀ p : LLayer → Bool,
        (∀ it ∈ Doc.items (Doc.asRead p raw) i, Doc.Complete inflate raw it.image ∧
          (isSeparable it.layer.blendMode = true ∨ (isHsl it.layer.blendMode = true ∧ plat.debug = false))) →
        ∀ t : Bytes, raw.header.width.toNat * raw.header.height.toNat * 4 ≤ t.length →
          ∃ t', f.renderFrame plat inflate i (f.selectLayers p) t = (.ok (), t') ∧ t'.length = t.length ∧
            ∀ x y, x < raw.header.width.toNat → y < raw.header.height.toNat →
              ∃ before after, pixel t (y * raw.header.width.toNat + x) = some before ∧
                pixel t' (y * raw.header.width.toNat + x) = some after ∧
                Doc.picture plat inflate (Doc.asRead p raw) i x y before = .ok after := by
  obtain ⟨f, h, -, -, -⟩ := C59_end_to_end_partial plat raw henc hcons hstack inflate
  have hraw := C54_round_trip_partial plat raw henc.fits henc.maps henc.flips hstack
  obtain ⟨h1, h2⟩ := load_ok.1 h
  have hpf := parsed_of_parse hraw h1
  have hw : f.file.header = raw.header := hpf.header
  refine ⟨f, h, ?_⟩
  intro i hi p hitems t ht
  have hlt : i < f.frames.length := by
    rw [(frames_of_load h2).1, hpf.frames, List.length_map]
    exact hi
  have hlf := List.getElem?_eq_getElem hlt
  obtain ⟨t', hr, hl, -⟩ := C38_anywhere plat _ f h inflate i _ hlf (f.selectLayers p) t
    (by show f.file.header.width.toNat * f.file.header.height.toNat * 4 ≤ t.length; rw [hw]; exact ht) (by
      intro c hc layer im hd him
      obtain ⟨it, hit, hm, himg⟩ := asRead_of_drawn hraw h hlf hc hd
      rw [himg] at him
      cases him
      obtain ⟨hcomp, hmode⟩ := hitems it hit
      rw [← hm]
      refine ⟨⟨by rw [hw]; exact hcons.depth, by rw [hw]; exact hcomp⟩, ?_, ?_⟩
      · rcases hmode with hs | ⟨hs, -⟩
        · simp only [isSeparable, Bool.and_eq_true] at hs
          exact hs.1
        · revert hs
          cases it.layer.blendMode <;> simp [isHsl, isKnown]
      · intro back front
        rcases hmode with hs | ⟨hs, hrel⟩
        · obtain ⟨c, hc⟩ := C47_total it.layer.blendMode hs back front layer.opacity
          exact ⟨c, hc plat⟩
        · obtain ⟨c, hc, -⟩ := C50_release_partial it.layer.blendMode hs back front layer.opacity plat hrel
          exact ⟨c, hc⟩)
  exact ⟨t', hr, hl, fun x y hx hy =>
    C58_as_read plat _ raw f hraw h inflate i hi _ p (.inl rfl) t t' hr x y hx hy⟩

/-! ## Examples -/

namespace Sample

/-- A tilemap layer below a normal one; both have cels. -/
def tilemapFirst : RawFile := ⟨rawHeader 1 1 .rgba, [⟨1, [rawLayer 1 .tilemap 0 255, rawLayer 1 .normal 0 200,
  rawCel 0 255 0 0 1 [10, 20, 30, 255], rawCel 1 255 0 0 1 [40, 50, 60, 255]]⟩]⟩

/-- What the crate renders for frame 0 of a file, and the reference picture of the file as it is read. -/
def bothRead (raw : RawFile) (sel : LayerSelection) (p : LLayer → Bool) : Option Bytes × Option Color :=
  (match AsepriteFile.load ⟨true, 1000⟩ (fileBytes raw) with
    | .ok f =>
      match f.renderFrame ⟨true, 1000⟩ Sample.inflate 0 sel [0, 0, 0, 0] with
      | (.ok (), t) => some t
      | _ => none
    | _ => none,
   match parseRawFile ⟨true, 1000⟩ (fileBytes raw) with
    | .ok raw =>
        match Doc.picture ⟨true, 1000⟩ Sample.inflate (Doc.asRead p raw) 0 0 0 ⟨0, 0, 0, 0⟩ with
        | .ok c => some c
        | _ => none
    | _ => none)

end Sample

-- the files with the ignored features load and render, and show the picture of the file without them
example : [Sample.celOpacity, Sample.zIndex, Sample.hiddenGroup, Sample.opacityInvalid, Sample.referenceLayer,
      Sample.background].map (Sample.bothRead · .visible (·.visible)) =
    [(some [10, 20, 30, 255], some ⟨10, 20, 30, 255⟩), (some [40, 50, 60, 255], some ⟨40, 50, 60, 255⟩),
     (some [10, 20, 30, 255], some ⟨10, 20, 30, 255⟩), (some [10, 20, 30, 100], some ⟨10, 20, 30, 100⟩),
     (some [10, 20, 30, 255], some ⟨10, 20, 30, 255⟩), (some [10, 20, 30, 0], some ⟨10, 20, 30, 0⟩)] := by decide +kernel

-- the cel of the tilemap layer is shown on the layer after it, and the cel of that layer not at all (C34)
example : Sample.bothRead Sample.tilemapFirst .all (fun _ => true) = (some [10, 20, 30, 200], some ⟨10, 20, 30, 200⟩) := by
  decide +kernel

/-- The hypotheses of `C59_as_read_partial` hold of a sprite, also with all its layers chosen. -/
example : Doc.Encodable Sample.scene ∧ Doc.Consistent Sample.scene ∧
    (∀ plat, ∀ fr ∈ Sample.scene.frames, ∀ c ∈ fr.chunks, StackFor plat c) ∧
    ∀ i ∈ List.range 2, ∀ it ∈ Doc.items (Doc.asRead (fun _ => true) Sample.scene) i, it.image.compressed = false ∧
      it.image.data.length = pixelCount it.image * 4 ∧ isSeparable it.layer.blendMode = true :=
  ⟨Sample.scene_encodable, Sample.scene_consistent,
    fun _ => by simp [Sample.scene, StackFor, Sample.rawLayer, Sample.rawCel], by decide +kernel⟩

-- with all layers chosen, the hidden layer of the sprite is seen
example : (Doc.items (Doc.asRead (fun _ => true) Sample.scene) 0).map (·.number) = [1, 3, 4] ∧
    (Doc.items (Doc.asRead (·.visible) Sample.scene) 0).map (·.number) = [1, 4] := by decide +kernel

end Ase
