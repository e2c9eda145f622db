import Verif.Lemmas.Reference
import Verif.Props.RoundTrip
import Verif.Props.BlendFloat

/-!
# C58, C59: the rendered frame is the picture the format document describes

`Spec.Doc.picture` composes a frame from the chunks of the file as the format document says.  The crate agrees with it,
except for the features it ignores.
-/

namespace Ase

open Spec

/-! ## C58 -/

/-- **C58 (partial).** If rendering frame `i` with `Visible` succeeds, every pixel of the canvas is the one of the
reference picture, provided that the frame is plain (`Doc.Plain`): the crate ignores cel opacities, z-indices, the
"layer opacity valid" flag, hidden groups, reference layers and the background layer, see `C58_cel_opacity_ignored`
and so on. -/
theorem C58_picture_partial (plat : Plat) (b : Bytes) (raw : RawFile) (f : AsepriteFile)
    (hraw : parseRawFile plat b = .ok raw) (h : AsepriteFile.load plat b = .ok f) (inflate : Inflater) (i : Nat)
    (hi : i < raw.frames.length) (hpl : Doc.Plain inflate raw i) (t t' : Bytes)
    (hok : f.renderFrame plat inflate i .visible t = (.ok (), t')) (x y : Nat) (hx : x < raw.header.width.toNat)
    (hy : y < raw.header.height.toNat) :
    ∃ before after, pixel t (y * raw.header.width.toNat + x) = some before ∧
      pixel t' (y * raw.header.width.toNat + x) = some after ∧
      Doc.picture plat inflate raw i x y before = .ok after := by
  obtain ⟨h1, h2⟩ := load_ok.1 h
  have hp := parsed_of_parse hraw h1
  have hlt : i < f.frames.length := by
    rw [(frames_of_load h2).1, hp.frames, List.length_map]
    exact hi
  have hlf := List.getElem?_eq_getElem hlt
  have hw : f.file.header = raw.header := hp.header
  obtain ⟨before, after, ha, hb, hc⟩ := C37_pixels plat b f h inflate i _ hlf .visible t t' hok x y
    (by show x < f.file.header.width.toNat; rw [hw]; exact hx)
    (by show y < f.file.header.height.toNat; rw [hw]; exact hy)
  unfold canvasPixel at ha hb
  rw [hw] at ha hb
  exact ⟨before, after, ha, hb, by rw [← compose_picture hraw h hpl hlf]; exact hc⟩

/-! ## A sprite -/

namespace Sample

/-- A layer. -/
def rawLayer (flags : UInt16) (type : LayerType) (level : UInt16) (opacity : UInt8) (mode : BlendMode := .normal) : Chunk :=
  .layer { flags := ⟨flags⟩, layerType := type, childLevel := level, blendMode := mode, opacity, name := "L",
           tilesetIndex := if type = .tilemap then some 0 else none, userData := none }

/-- A cel with an uncompressed image of one row. -/
def rawCel (layer : UInt16) (opacity : UInt8) (z : Int16) (x : Int16) (width : UInt16) (data : Bytes) : Chunk :=
  .cel { layerIndex := layer, x, y := 0, opacity, zIndex := z, content := .image ⟨width, 1, data, false⟩, userData := none }

/-- A header for a sprite of one row. -/
def rawHeader (flags : UInt32) (width : UInt16) (depth : ColorDepth) : Header :=
  { sample.header with flags, width, height := 1, colorDepth := depth }

/-- A group with a layer in it, a hidden group with a hidden layer in it, a layer multiplied onto the rest, and a
second frame linked to the first one. -/
def scene : RawFile where
  header := rawHeader 1 2 .rgba
  frames := [
    { duration := 100, chunks := [
        rawLayer 1 .group 0 255, rawLayer 1 .normal 1 200, rawLayer 0 .group 0 255, rawLayer 0 .normal 1 255,
        rawLayer 1 .normal 0 255 .multiply,
        rawCel 4 255 0 (-1) 2 [9, 9, 9, 255, 100, 50, 25, 255], rawCel 1 255 0 0 2 [200, 100, 50, 255, 1, 2, 3, 4],
        rawCel 3 255 0 0 1 [7, 7, 7, 255] ] },
    { duration := 100, chunks := [
        .cel { layerIndex := 1, x := 1, y := 0, opacity := 255, zIndex := 0, content := .linkedCel 0, userData := none } ] }]

/-- Sorted, as a check. -/
def sorted : List Doc.Item → Bool
  | [] => true
  | a :: as => as.all (Doc.below a) && sorted as

theorem pairwise_of_sorted (its : List Doc.Item) (h : sorted its = true) : its.Pairwise fun a b => Doc.below a b = true := by
  induction its with
  | nil => exact .nil
  | cons a as ih =>
    simp only [sorted, Bool.and_eq_true, List.all_eq_true] at h
    exact List.pairwise_cons.2 ⟨h.1, ih h.2⟩

theorem scene_checks : ∀ i ∈ List.range 2,
    (∀ l ∈ Doc.layers scene, l.layerType = .normal ∨ l.layerType = .group) ∧
    sorted (Doc.items scene i) = true ∧
    (∀ it ∈ Doc.items scene i, it.cel.opacity = 255 ∧ (scene.header.flags &&& 1 = 1 ∨ it.layer.opacity = 255)) ∧
    (∀ p ∈ (Doc.layers scene).zipIdx, p.1.layerType = .normal → (Doc.celOf scene i p.2).isSome = true →
      Doc.flag 1 p.1 = true → Doc.shown (Doc.layers scene) p.2 = true ∧ Doc.flag 64 p.1 = false) := by decide +kernel

theorem scene_plain (i : Nat) (hi : i < 2) : Doc.Plain Sample.inflate scene i := by
  obtain ⟨h2, h3, h4, h5⟩ := scene_checks i (List.mem_range.2 hi)
  exact ⟨by decide, h2, pairwise_of_sorted _ h3, h4, h5, fun h => by simp [scene, rawHeader] at h⟩

/-- What the crate renders for frame 0 on a transparent canvas, and what the reference picture is. -/
def both (raw : RawFile) (n : Nat) : Option Bytes × Option (List Color) :=
  (match AsepriteFile.load ⟨true, 1000⟩ (fileBytes raw) with
    | .ok f =>
      match f.renderFrame ⟨true, 1000⟩ Sample.inflate 0 .visible (List.replicate (4 * n) 0) with
      | (.ok (), t) => some t
      | _ => none
    | _ => none,
   match parseRawFile ⟨true, 1000⟩ (fileBytes raw) with
    | .ok raw => (List.range n).mapM fun x =>
        match Doc.picture ⟨true, 1000⟩ Sample.inflate raw 0 x 0 ⟨0, 0, 0, 0⟩ with
        | .ok c => some c
        | _ => none
    | _ => none)

end Sample

-- the layer in the group, multiplied by the topmost one at its left; the hidden layer is not seen
example : Sample.both Sample.scene 2 = (some [79, 21, 6, 255, 1, 2, 3, 3],
    some [⟨79, 21, 6, 255⟩, ⟨1, 2, 3, 3⟩]) := by decide +kernel

/-! ## Where the crate differs -/

namespace Sample

/-- One layer with one pixel; the cel is half transparent. -/
def celOpacity : RawFile := ⟨rawHeader 1 1 .rgba, [⟨1, [rawLayer 1 .normal 0 255, rawCel 0 128 0 0 1 [10, 20, 30, 255]]⟩]⟩

/-- Two layers; the cel of the lower one is moved to the front. -/
def zIndex : RawFile := ⟨rawHeader 1 1 .rgba, [⟨1, [rawLayer 1 .normal 0 255, rawLayer 1 .normal 0 255,
  rawCel 0 255 1 0 1 [10, 20, 30, 255], rawCel 1 255 0 0 1 [40, 50, 60, 255]]⟩]⟩

/-- A visible layer in a hidden group. -/
def hiddenGroup : RawFile := ⟨rawHeader 1 1 .rgba, [⟨1, [rawLayer 0 .group 0 255, rawLayer 1 .normal 1 255,
  rawCel 1 255 0 0 1 [10, 20, 30, 255]]⟩]⟩

/-- The header says that the layer opacity (100) is not valid. -/
def opacityInvalid : RawFile := ⟨rawHeader 0 1 .rgba, [⟨1, [rawLayer 1 .normal 0 100, rawCel 0 255 0 0 1 [10, 20, 30, 255]]⟩]⟩

/-- A reference layer. -/
def referenceLayer : RawFile := ⟨rawHeader 1 1 .rgba, [⟨1, [rawLayer 65 .normal 0 255, rawCel 0 255 0 0 1 [10, 20, 30, 255]]⟩]⟩

/-- An indexed sprite with a background layer where the transparent index (7) is used. -/
def background : RawFile := ⟨rawHeader 1 1 .indexed, [⟨1, [.palette ⟨7, 7, [⟨⟨10, 20, 30, 255⟩, none⟩]⟩,
  rawLayer 9 .normal 0 255, rawCel 0 255 0 0 1 [7]]⟩]⟩

end Sample

/-- The opacity of a cel is ignored. -/
theorem C58_cel_opacity_ignored : Sample.both Sample.celOpacity 1 = (some [10, 20, 30, 255], some [⟨10, 20, 30, 128⟩]) := by
  decide +kernel

/-- The z-index is ignored. -/
theorem C58_z_index_ignored : Sample.both Sample.zIndex 1 = (some [40, 50, 60, 255], some [⟨10, 20, 30, 255⟩]) := by
  decide +kernel

/-- A layer in a hidden group is drawn. -/
theorem C58_hidden_group_drawn : Sample.both Sample.hiddenGroup 1 = (some [10, 20, 30, 255], some [⟨0, 0, 0, 0⟩]) := by
  decide +kernel

/-- The opacity of a layer is used also if the header says that it is not valid. -/
theorem C58_invalid_opacity_used : Sample.both Sample.opacityInvalid 1 = (some [10, 20, 30, 100], some [⟨10, 20, 30, 255⟩]) := by
  decide +kernel

/-- Reference layers are drawn. -/
theorem C58_reference_layer_drawn : Sample.both Sample.referenceLayer 1 = (some [10, 20, 30, 255], some [⟨0, 0, 0, 0⟩]) := by
  decide +kernel

/-- The transparent index is transparent also on the background layer. -/
theorem C58_background_transparent : Sample.both Sample.background 1 = (some [10, 20, 30, 0], some [⟨10, 20, 30, 255⟩]) := by
  decide +kernel

/-! ## C59 -/

namespace Spec.Doc

/-- The pixels of an image are stored completely. -/
def Complete (inflate : Inflater) (raw : RawFile) (im : Image) : Prop :=
  let n := pixelCount im * bytesPerPixel raw.header.colorDepth
  if im.compressed then (inflate im.data n).1 = .streamEnd else im.data.length = n

/-- The sprite is consistent: colour depth and palette are known, every cel belongs to a layer and shows an image. -/
structure Consistent (raw : RawFile) : Prop where
  depth : ∀ n, raw.header.colorDepth ≠ .unknown n
  palette : raw.header.colorDepth = .indexed → paletteProblem (allChunks raw.frames) = none
  layer : ∀ fr ∈ raw.frames, ∀ c ∈ cels fr, c.layerIndex.toNat < (layers raw).length
  image : ∀ i l c, celOf raw i l = some c → (imageOf raw l c).isSome = true

/-- The sprite can be expressed in the format, and avoids what the crate does not read as documented (C54). -/
structure Encodable (raw : RawFile) : Prop where
  fits : FitsFile raw
  maps : ∀ fr ∈ raw.frames, ∀ c ∈ fr.chunks, NoNestedMaps c
  flips : ∀ fr ∈ raw.frames, ∀ c ∈ fr.chunks, NoFlips c

end Spec.Doc

/-- **C59 (partial).** From the sprite to its pixels and back: for every consistent sprite, encoding it as the format
document prescribes, loading the bytes and rendering a plain frame with `Visible` succeeds for every large enough buffer,
and shows the reference picture of that frame on what was in the buffer before.  (Limits: see C54 for `Encodable`, C58
for `Plain`; the four HSL modes only in release builds, C50.) -/
theorem C59_end_to_end_partial (plat : Plat) (raw : RawFile) (henc : Doc.Encodable raw) (hcons : Doc.Consistent raw)
    (hstack : ∀ fr ∈ raw.frames, ∀ c ∈ fr.chunks, StackFor plat c) (inflate : Inflater) :
    ∃ f, AsepriteFile.load plat (fileBytes raw) = .ok f ∧
      f.size = (raw.header.width, raw.header.height) ∧ f.frames.map (·.duration) = raw.frames.map (·.duration) ∧
      ∀ i, i < raw.frames.length → Doc.Plain inflate raw i →
        (∀ it ∈ Doc.items raw i, Doc.Complete inflate raw it.image ∧
          (isSeparable it.layer.blendMode = true ∨ (isHsl it.layer.blendMode = true ∧ plat.debug = false))) →
        ∀ t : Bytes, raw.header.width.toNat * raw.header.height.toNat * 4 ≤ t.length →
          ∃ t', f.renderFrame plat inflate i .visible t = (.ok (), t') ∧ t'.length = t.length ∧
            ∀ x y, x < raw.header.width.toNat → y < raw.header.height.toNat →
              ∃ before after, pixel t (y * raw.header.width.toNat + x) = some before ∧
                pixel t' (y * raw.header.width.toNat + x) = some after ∧
                Doc.picture plat inflate raw i x y before = .ok after := by
  have hraw := C54_round_trip_partial plat raw henc.fits henc.maps henc.flips hstack
  have hlen : (allLayers raw.frames).length = (Doc.layers raw).length := by
    have := congrArg List.length (allLayers_bare raw)
    simpa using this
  -- the file parses
  obtain ⟨p, hp⟩ : ∃ p, filePalette raw = .ok p := by
    rw [filePalette_eq]
    split
    · next hd => rw [hcons.palette hd]; exact ⟨_, rfl⟩
    · exact ⟨_, rfl⟩
  have hcels : ∀ c ∈ allCels raw.frames, c.layerIndex.toNat < (allLayers raw.frames).length := by
    intro c hc
    obtain ⟨fr, hfr, hc⟩ := List.mem_flatMap.1 hc
    have hmem : bareCel c ∈ (Doc.cels fr).map bareCel := by
      rw [show (Doc.cels fr).map bareCel = (celsOf fr.chunks).map bareCel from (celsOf_bare fr.chunks).symm]
      exact List.mem_map_of_mem hc
    obtain ⟨d, hd, he⟩ := List.mem_map.1 hmem
    have : (bareCel d).layerIndex = (bareCel c).layerIndex := by rw [he]
    have hi : d.layerIndex = c.layerIndex := this
    rw [hlen, ← hi]
    exact hcons.layer fr hfr d hd
  have hparse : ∃ file, parseFile plat (fileBytes raw) = .ok file := by
    rw [parseFile_eq hraw]
    exact ⟨_, (assembleFile_ok (fresh hraw)).2 ⟨p, hp, hcels, rfl⟩⟩
  obtain ⟨file, hfile⟩ := hparse
  have hpar := parsed_of_parse hraw hfile
  -- and loads
  obtain ⟨f, h⟩ : ∃ f, AsepriteFile.load plat (fileBytes raw) = .ok f := by
    refine (C33_load_succeeds plat (fileBytes raw)).1.2 ⟨file, hfile, ?_⟩
    intro i l c hc
    obtain ⟨d, hd, hcd⟩ := map_bareCel_some (hpar.celAt i l) hc
    have := hcons.image i l d hd
    unfold Doc.imageOf at this
    rw [← bareCel_content hcd] at this
    unfold Resolvable
    cases hk : c.content with
    | image im => trivial
    | linkedCel j =>
      rw [hk] at this
      show (imageAt file j.toNat l).isSome = true
      rw [hpar.imageAt]
      exact this
    | compressedTilemap => rw [hk] at this; cases this
    | unknown => rw [hk] at this; cases this
  obtain ⟨h1, h2⟩ := load_ok.1 h
  have hpf := parsed_of_parse hraw h1
  have hw : f.file.header = raw.header := hpf.header
  refine ⟨f, h, ?_, ?_, ?_⟩
  · show (f.file.header.width, f.file.header.height) = _
    rw [hw]
  · rw [(C30_frames_and_tags plat _ f h).1, hpf.frames, List.map_map]
    rfl
  intro i hi hpl hitems t ht
  have hlt : i < f.frames.length := by
    rw [(frames_of_load h2).1, hpf.frames, List.length_map]
    exact hi
  have hlf := List.getElem?_eq_getElem hlt
  obtain ⟨t', hr, hl, -⟩ := C38_anywhere plat _ f h inflate i _ hlf .visible t
    (by show f.file.header.width.toNat * f.file.header.height.toNat * 4 ≤ t.length; rw [hw]; exact ht) (by
      intro c hc layer im hd him
      obtain ⟨it, hit, hlay, himg⟩ := item_of_drawn hraw h hpl hlf hc hd
      rw [himg] at him
      cases him
      obtain ⟨hcomp, hmode⟩ := hitems it hit
      have hm : layer.blendMode = it.layer.blendMode := by rw [← hlay]; rfl
      rw [hm]
      refine ⟨⟨by rw [hw]; exact hcons.depth, by rw [hw]; exact hcomp⟩, ?_, ?_⟩
      · rcases hmode with hs | ⟨hs, -⟩
        · simp only [isSeparable, Bool.and_eq_true] at hs
          exact hs.1
        · revert hs
          cases it.layer.blendMode <;> simp [isHsl, isKnown]
      · intro back front
        rcases hmode with hs | ⟨hs, hrel⟩
        · obtain ⟨c, hc⟩ := C47_total it.layer.blendMode hs back front layer.opacity
          exact ⟨c, hc plat⟩
        · obtain ⟨c, hc, -⟩ := C50_release_partial it.layer.blendMode hs back front layer.opacity plat hrel
          exact ⟨c, hc⟩)
  refine ⟨t', hr, hl, ?_⟩
  intro x y hx hy
  exact C58_picture_partial plat _ raw f hraw h inflate i hi hpl t t' hr x y hx hy

/-! ## The hypotheses are met -/

theorem Sample.scene_encodable : Doc.Encodable Sample.scene := by
  have len : ∀ fr ∈ Sample.scene.frames, (frameBytes fr).length < 2 ^ 32 := by decide +kernel
  have clen : ∀ fr ∈ Sample.scene.frames, ∀ c ∈ fr.chunks, (chunkBytes c).length < 2 ^ 32 := by decide +kernel
  have hL : ∀ flags type level opacity mode, flags ≤ 0x7F → type = .normal ∨ type = .group → FitsBlendMode mode →
      FitsContent (Sample.rawLayer flags type level opacity mode) := by
    intro flags type level opacity mode h1 h2 h3
    refine ⟨h1, ?_, h3, (by decide +kernel : FitsStr "L"), ?_, rfl⟩
    · rcases h2 with rfl | rfl <;> trivial
    · rcases h2 with rfl | rfl <;> simp
  have hC : ∀ l o z x w d, FitsContent (Sample.rawCel l o z x w d) := by
    intro l o z x w d
    exact ⟨by simp, rfl⟩
  refine ⟨⟨trivial, by simp [Sample.scene], fun fr hfr => ⟨fun c hc => ⟨?_, clen fr hfr c hc⟩, len fr hfr⟩⟩, ?_, ?_⟩
  · simp only [Sample.scene, List.mem_cons, List.not_mem_nil, or_false] at hfr
    rcases hfr with rfl | rfl
    · simp only [List.mem_cons, List.not_mem_nil, or_false] at hc
      rcases hc with rfl | rfl | rfl | rfl | rfl | rfl | rfl | rfl
      · exact hL _ _ _ _ _ (by decide) (.inr rfl) trivial
      · exact hL _ _ _ _ _ (by decide) (.inl rfl) trivial
      · exact hL _ _ _ _ _ (by decide) (.inr rfl) trivial
      · exact hL _ _ _ _ _ (by decide) (.inl rfl) trivial
      · exact hL _ _ _ _ _ (by decide) (.inl rfl) trivial
      · exact hC _ _ _ _ _ _
      · exact hC _ _ _ _ _ _
      · exact hC _ _ _ _ _ _
    · simp only [List.mem_cons, List.not_mem_nil, or_false] at hc
      subst hc
      exact ⟨by simp, rfl⟩
  · intro fr hfr c hc
    simp only [Sample.scene, List.mem_cons, List.not_mem_nil, or_false] at hfr
    rcases hfr with rfl | rfl <;> simp only [List.mem_cons, List.not_mem_nil, or_false] at hc
    · rcases hc with rfl | rfl | rfl | rfl | rfl | rfl | rfl | rfl <;> exact trivial
    · subst hc; exact trivial
  · simp [Sample.scene, NoFlips, Sample.rawLayer, Sample.rawCel]

theorem Sample.scene_consistent : Doc.Consistent Sample.scene := by
  refine ⟨by simp [Sample.scene, Sample.rawHeader], by simp [Sample.scene, Sample.rawHeader], by decide +kernel, ?_⟩
  have hcels : ∀ i ∈ List.range 2, ∀ l ∈ List.range 5, (Doc.celOf Sample.scene i l).all
      fun c => (Doc.imageOf Sample.scene l c).isSome := by decide +kernel
  intro i l c hc
  have hi : i < 2 := by
    refine Nat.lt_of_not_le fun h => ?_
    unfold Doc.celOf at hc
    rw [List.getElem?_eq_none (by simpa [Sample.scene] using h)] at hc
    cases hc
  have hl : l < 5 := by
    unfold Doc.celOf at hc
    obtain ⟨fr, hfr, hc⟩ := Option.bind_eq_some_iff.1 hc
    have hmem := List.mem_of_getLast? hc
    rw [List.mem_filter] at hmem
    have := (by decide +kernel : ∀ fr ∈ Sample.scene.frames, ∀ c ∈ Doc.cels fr, c.layerIndex.toNat < 5) fr
      (List.mem_of_getElem? hfr) c hmem.1
    have h2 := hmem.2
    simp only [decide_eq_true_eq] at h2
    omega
  have := hcels i (List.mem_range.2 hi) l (List.mem_range.2 hl)
  rw [hc] at this
  simpa using this

/-- The hypotheses of `C59_end_to_end_partial` (and so those of `C58_picture_partial`) hold of the sample sprite. -/
example : Doc.Encodable Sample.scene ∧ Doc.Consistent Sample.scene ∧
    (∀ plat, ∀ fr ∈ Sample.scene.frames, ∀ c ∈ fr.chunks, StackFor plat c) ∧
    Sample.scene.frames.length = 2 ∧ (∀ i, i < 2 → Doc.Plain Sample.inflate Sample.scene i) ∧
    ∀ i ∈ List.range 2, ∀ it ∈ Doc.items Sample.scene i, it.image.compressed = false ∧
      it.image.data.length = pixelCount it.image * 4 ∧ isSeparable it.layer.blendMode = true :=
  ⟨Sample.scene_encodable, Sample.scene_consistent,
    fun _ => by simp [Sample.scene, StackFor, Sample.rawLayer, Sample.rawCel], rfl, Sample.scene_plain, by decide +kernel⟩

end Ase
