import Verif.Spec.ColorMode
import Verif.Props.Storage

/-!
# C87: the colour mode does not matter
-/

namespace Ase

open Spec

/-! ## Images -/

theorem ext_pixels {k : Nat} : ∀ {a b : Bytes}, a.length = k * 4 → b.length = k * 4 →
    (∀ p, p < k → pixel a p = pixel b p) → a = b := by
  induction k with
  | zero =>
    intro a b ha hb _
    rw [List.length_eq_zero_iff.1 (by omega : a.length = 0), List.length_eq_zero_iff.1 (by omega : b.length = 0)]
  | succ k ih =>
    intro a b ha hb h
    obtain ⟨r, g, bl, al, a', rfl, ha'⟩ := four_of_length (t := a) (n := k * 4) (by omega)
    obtain ⟨r', g', bl', al', b', rfl, hb'⟩ := four_of_length (t := b) (n := k * 4) (by omega)
    have h0 := h 0 (by omega)
    simp only [pixel, Nat.mul_zero, List.drop_zero, Option.some.injEq, Color.mk.injEq] at h0
    obtain ⟨rfl, rfl, rfl, rfl⟩ := h0
    rw [ih ha' hb' fun p hp => by have := h (p + 1) (by omega); rwa [pixel_cons4, pixel_cons4] at this]

theorem loadImage_colors {f g : AsepriteFile} {pal pal' : Palette} (hf : GoodPalette f.file pal)
    (hg : GoodPalette g.file pal') {inflate : Inflater} {i j : Nat} {im im' : Image} (hi : f.images[i]? = some im)
    (hj : g.images[j]? = some im') (h : ShowSame inflate f g im im') :
    f.loadImage inflate i = g.loadImage inflate j := by
  funext t
  obtain ⟨hw, hh, hn, hn', raw, raw', hl, hl', hs, hs', hc⟩ := h
  have hp : pixelCount im' = pixelCount im := by rw [pixelCount, ← hw, ← hh]; rfl
  rw [loadImage_eq hi, loadImage_eq hj, hp]
  by_cases ht : t.length < pixelCount im * 4
  · rw [if_pos ht, if_pos ht]
  · rw [if_neg ht, if_neg ht]
    have htl : (t.take (pixelCount im * 4)).length = pixelCount im * 4 := by rw [List.length_take]; omega
    rw [decodeImage_stored hf htl hn hl (hl ▸ hs), decodeImage_stored hg (hp ▸ htl) hn' hl' (hl' ▸ hs')]
    have : toRgba f.file.header.colorDepth pal raw = toRgba g.file.header.colorDepth pal' raw' := by
      refine ext_pixels (toRgba_length hn pal hl) (toRgba_length hn' pal' (hp ▸ hl')) fun p hp => ?_
      obtain ⟨c, h1, h2⟩ := hc p hp
      rw [pixel_toRgba hf, pixel_toRgba hg, h1, h2]
    rw [this]

/-- **C87, one image.** If image `i` of one sprite and image `j` of another show the same colours, in whichever colour
modes and with whichever palettes, then `load_image` returns the same for both and leaves the same bytes, for every
buffer. -/
theorem C87_load_image (p p' : Plat) (b b' : Bytes) (f g : AsepriteFile) (hf : AsepriteFile.load p b = .ok f)
    (hg : AsepriteFile.load p' b' = .ok g) (inflate : Inflater) (i j : Nat) (im im' : Image)
    (hi : f.images[i]? = some im) (hj : g.images[j]? = some im') (h : ShowSame inflate f g im im') (t : Bytes) :
    f.loadImage inflate i t = g.loadImage inflate j t := by
  obtain ⟨pal, h1⟩ := goodPalette_of_load hf
  obtain ⟨pal', h2⟩ := goodPalette_of_load hg
  rw [loadImage_colors h1 h2 hi hj h]

/-! ## Rendering -/

/-- **C87, rendering.** Two sprites of the same size with the same layers may have different colour modes and palettes: if
two frames have cels on the same layers, at the same places, with images that show the same colours, then `render_frame`
gives the same result and leaves the same bytes, for every selection and buffer. -/
theorem C87_render (p p' : Plat) (b b' : Bytes) (f g : AsepriteFile) (hf : AsepriteFile.load p b = .ok f)
    (hg : AsepriteFile.load p' b' = .ok g) (hsize : f.size = g.size) (hlayers : f.layers = g.layers)
    (inflate : Inflater) (i j : Nat) (lf lg : LFrame) (hi : f.frames[i]? = some lf) (hj : g.frames[j]? = some lg)
    (hc : Pairwise₂ (fun c d => c.origin = d.origin ∧ c.layerIndex = d.layerIndex ∧
      ∃ im im', f.images[c.imageIndex]? = some im ∧ g.images[d.imageIndex]? = some im' ∧ ShowSame inflate f g im im')
      lf.cels lg.cels) (plat : Plat) (sel : LayerSelection) (t : Bytes) :
    f.renderFrame plat inflate i sel t = g.renderFrame plat inflate j sel t := by
  obtain ⟨pal, h1⟩ := goodPalette_of_load hf
  obtain ⟨pal', h2⟩ := goodPalette_of_load hg
  refine renderFrame_alike hsize hi hj ⟨hc.1, fun k c d hk hk' => ?_⟩ t
  obtain ⟨ho, hl, im, im', hi', hj', him⟩ := hc.2 k c d hk hk'
  obtain ⟨a, ha, hz⟩ := celsOk_of_load hf hi c (List.mem_of_getElem? hk)
  obtain ⟨a', ha', hz'⟩ := celsOk_of_load hg hj d (List.mem_of_getElem? hk')
  rw [hi'] at ha
  cases ha
  rw [hj'] at ha'
  cases ha'
  have hz2 : c.size = d.size := by
    rw [hz, hz', him.width, him.height]
  have hw : f.file.header.width = g.file.header.width := congrArg Prod.fst hsize
  have hh : f.file.header.height = g.file.header.height := congrArg Prod.snd hsize
  unfold AsepriteFile.renderCel
  rw [hlayers, hl, hz2, loadImage_colors h1 h2 hi' hj' him]
  have h3 : ∀ layer fn t y, f.renderPixel plat c layer fn t y = g.renderPixel plat d layer fn t y := by
    intro layer fn t y
    funext x
    unfold AsepriteFile.renderPixel
    rw [ho, hz2, hw, hh]
  simp only [h3]

/-! ## Whole files -/

theorem withoutPixels_eq (c : Chunk) : withoutPixels c = blankChunk c := by
  cases c with
  | cel c =>
    obtain ⟨_, _, _, _, _, co, _⟩ := c
    cases co <;> rfl
  | _ => rfl

theorem layersOf_uncolored (cs : List Chunk) : layersOf cs =
    (uncolored cs).filterMap fun | (.layer l, us) => some { l with userData := us.head? } | _ => none := by
  rw [layersOf, uncolored, List.filterMap_filterMap]
  congr 1
  funext p
  obtain ⟨c, us⟩ := p
  cases c <;> simp [withoutPixels_eq, blankChunk]

theorem slicesOf_uncolored (cs : List Chunk) : slicesOf cs =
    (uncolored cs).filterMap fun | (.slice s, us) => some { s with userData := us.head? } | _ => none := by
  rw [slicesOf, uncolored, List.filterMap_filterMap]
  congr 1
  funext p
  obtain ⟨c, us⟩ := p
  cases c <;> simp [withoutPixels_eq, blankChunk]

theorem celsOf_uncolored (cs : List Chunk) : (celsOf cs).map blankCel =
    (uncolored cs).filterMap fun | (.cel c, us) => some { c with userData := us.head? } | _ => none := by
  rw [celsOf, uncolored, List.filterMap_filterMap, List.map_filterMap]
  congr 1
  funext p
  obtain ⟨c, us⟩ := p
  cases c <;> simp [withoutPixels_eq, blankChunk, blankCel_userData]

theorem tagsOf_uncolored (cs : List Chunk) : tagsOf cs =
    (uncolored cs).flatMap fun
      | (.tags t, us) => t.tags.mapIdx fun i tag => { tag with userData := us[i]? }
      | _ => [] := by
  rw [tagsOf, uncolored]
  induction owned cs with
  | nil => rfl
  | cons p ps ih =>
    obtain ⟨c, us⟩ := p
    cases c <;> simp [withoutPixels_eq, blankChunk, ih]

/-- What is the same in the parsed files. -/
theorem parsed_uncolored {plat plat' : Plat} {b b' : Bytes} {raw raw' : RawFile} (hb : parseRawFile plat b = .ok raw)
    (hb' : parseRawFile plat' b' = .ok raw') (h : SameButColors raw raw') {f g : File} (hf : parseFile plat b = .ok f)
    (hg : parseFile plat' b' = .ok g) :
    f.header.width = g.header.width ∧ f.header.height = g.header.height ∧ f.layers = g.layers ∧ f.tags = g.tags ∧
    f.slices = g.slices ∧ (blankParsed f).frames = (blankParsed g).frames := by
  obtain ⟨r, hr, ha⟩ := parseFile_ok.1 hf
  rw [hb] at hr
  cases hr
  obtain ⟨p, _, _, rfl⟩ := (assembleFile_ok (fresh hb)).1 ha
  obtain ⟨r, hr, ha⟩ := parseFile_ok.1 hg
  rw [hb'] at hr
  cases hr
  obtain ⟨p', _, _, rfl⟩ := (assembleFile_ok (fresh hb')).1 ha
  have key : ∀ {α : Type} (k : UInt16 × List (Chunk × List UserDataChunk) → α),
      (raw.frames.map fun f => k (f.duration, uncolored f.chunks)) =
        raw'.frames.map fun f => k (f.duration, uncolored f.chunks) := by
    intro α k
    have := congrArg (List.map k) h.frames
    simpa [List.map_map, Function.comp_def] using this
  have hl : allLayers raw.frames = allLayers raw'.frames := by
    simp only [allLayers, List.flatMap_def, layersOf_uncolored]
    rw [key fun p => p.2.filterMap _]
  refine ⟨h.width, h.height, hl, ?_, ?_, ?_⟩
  · simp only [tagsOf_uncolored]
    rw [List.flatMap_def, List.flatMap_def, key fun p => p.2.flatMap _]
  · simp only [List.flatMap_def, slicesOf_uncolored]
    rw [key fun p => p.2.filterMap _]
  · simp only [blankParsed, List.map_map, Function.comp_def, hl, ← slots_blank, celsOf_uncolored]
    exact key fun p => (⟨p.1, slots _ (p.2.filterMap _)⟩ : Frame)

/-- **C87.** Whether a sprite is stored in RGBA, grayscale or indexed colours, and with which palette, does not matter:
take two files with canvases of the same size and the same frames, except for palettes and the pixels of images, in any
colour modes.  If the palettes of both are accepted, then loading gives the same error, or both load.  Then layers, frames,
tags and slices are the same, and image `k` of one corresponds to image `k` of the other, with the same size.  If two
corresponding images show the same colours, `load_image` gives the same for them.  If this is so for all images of a frame,
then rendering this frame gives the same, for every selection and buffer. -/
theorem C87_color_mode (plat plat' : Plat) (b b' : Bytes) (raw raw' : RawFile) (hb : parseRawFile plat b = .ok raw)
    (hb' : parseRawFile plat' b' = .ok raw') (h : SameButColors raw raw')
    (hp : ∃ file, parseFile plat b = .ok file) (hp' : ∃ file, parseFile plat' b' = .ok file) :
    (∀ e, AsepriteFile.load plat b = .err e ↔ AsepriteFile.load plat' b' = .err e) ∧
    ((∃ f, AsepriteFile.load plat b = .ok f) ↔ ∃ g, AsepriteFile.load plat' b' = .ok g) ∧
    ∀ f g, AsepriteFile.load plat b = .ok f → AsepriteFile.load plat' b' = .ok g →
      f.layers = g.layers ∧ f.frames = g.frames ∧ f.tags = g.tags ∧ f.slices = g.slices ∧ f.size = g.size ∧
      Pairwise₂ (fun im im' => im.width = im'.width ∧ im.height = im'.height) f.images g.images ∧
      (∀ inflate (k : Nat) im im', f.images[k]? = some im → g.images[k]? = some im' →
        ShowSame inflate f g im im' → ∀ t, f.loadImage inflate k t = g.loadImage inflate k t) ∧
      (∀ inflate i lf, f.frames[i]? = some lf →
        (∀ c ∈ lf.cels, ∀ im im', f.images[c.imageIndex]? = some im → g.images[c.imageIndex]? = some im' →
          ShowSame inflate f g im im') →
        ∀ plat sel t, f.renderFrame plat inflate i sel t = g.renderFrame plat inflate i sel t) := by
  obtain ⟨file, hf⟩ := hp
  obtain ⟨file', hg⟩ := hp'
  obtain ⟨hw, hh, hl, ht, hs, hfr⟩ := parsed_uncolored hb hb' h hf hg
  have e : ((AsepriteFile.ofFile file).bind fun f => .ok (f.layers, f.frames, f.tags, f.images.map blankImage)) =
      (AsepriteFile.ofFile file').bind fun f => .ok (f.layers, f.frames, f.tags, f.images.map blankImage) := by
    have q : ∀ x : File, ((AsepriteFile.ofFile x).bind fun f => .ok (f.layers, f.frames, f.tags, f.images.map blankImage)) =
        (AsepriteFile.ofFile (blankParsed x)).bind fun f => .ok (f.layers, f.frames, f.tags, f.images) := by
      intro x
      rw [ofFile_blank]
      cases AsepriteFile.ofFile x <;> rfl
    rw [q, q, ofFile_eq, ofFile_eq]
    unfold fileImages
    rw [hfr, show (blankParsed file).layers = (blankParsed file').layers from hl,
      show (blankParsed file).tags = (blankParsed file').tags from ht]
    cases mapO _ _ <;> rfl
  have l1 : AsepriteFile.load plat b = AsepriteFile.ofFile file := by
    simp only [AsepriteFile.load, hf]; rfl
  have l2 : AsepriteFile.load plat' b' = AsepriteFile.ofFile file' := by
    simp only [AsepriteFile.load, hg]; rfl
  rw [l1, l2]
  refine ⟨?_, ?_, ?_⟩
  · intro x
    cases h1 : AsepriteFile.ofFile file <;> cases h2 : AsepriteFile.ofFile file' <;> simp_all [Outcome.bind]
  · cases h1 : AsepriteFile.ofFile file <;> cases h2 : AsepriteFile.ofFile file' <;> simp_all [Outcome.bind]
  · intro f g h1 h2
    have hf' := l1.trans h1
    have hg' := l2.trans h2
    have ef := (load_ok.1 hf').1
    rw [hf] at ef
    cases ef
    have eg := (load_ok.1 hg').1
    rw [hg] at eg
    cases eg
    rw [h1, h2] at e
    simp only [Outcome.bind, Outcome.ok.injEq, Prod.mk.injEq] at e
    obtain ⟨e2, e3, e4, e5⟩ := e
    have hsize : f.size = g.size := by
      simp only [AsepriteFile.size, Prod.mk.injEq]
      exact ⟨hw, hh⟩
    have hlen : f.images.length = g.images.length := by simpa using congrArg List.length e5
    refine ⟨e2, e3, e4, hs, hsize, ⟨hlen, ?_⟩, ?_, ?_⟩
    · intro k im im' h1 h2
      have := congrArg (·[k]?) e5
      simp only [List.getElem?_map, h1, h2, Option.map_some, Option.some.injEq, blankImage, Image.mk.injEq] at this
      exact ⟨this.1, this.2.1⟩
    · intro inflate k im im' h1 h2 hs t
      exact C87_load_image plat plat' b b' f g hf' hg' inflate k k im im' h1 h2 hs t
    · intro inflate i lf hi hs p sel t
      have hj : g.frames[i]? = some lf := by rw [← e3]; exact hi
      refine C87_render plat plat' b b' f g hf' hg' hsize e2 inflate i i lf lf hi hj ⟨rfl, ?_⟩ p sel t
      intro k c d hk hk'
      rw [hk] at hk'
      cases hk'
      have hm := List.mem_of_getElem? hk
      obtain ⟨im, h1, _⟩ := celsOk_of_load hf' hi c hm
      obtain ⟨im', h2, _⟩ := celsOk_of_load hg' hj c hm
      exact ⟨rfl, rfl, im, im', h1, h2, hs c hm im im' h1 h2⟩

/-! ## Conversions -/

theorem convertRgba_pixels {depth : ColorDepth} {palette : Option Palette} {raw : Bytes} (n : Nat)
    (h : ∀ p, p < n → (storedPixel depth palette raw p).isSome = true) :
    (convertRgba depth palette n raw).length = n * 4 ∧
    ∀ p, p < n → pixel (convertRgba depth palette n raw) p = storedPixel depth palette raw p := by
  induction n with
  | zero => exact ⟨rfl, fun p hp => absurd hp (by omega)⟩
  | succ n ih =>
    obtain ⟨hl, hp⟩ := ih fun p hp => h p (by omega)
    obtain ⟨c, hc⟩ := Option.isSome_iff_exists.1 (h n (by omega))
    have e : convertRgba depth palette (n + 1) raw = convertRgba depth palette n raw ++ [c.r, c.g, c.b, c.a] := by
      simp only [convertRgba, List.range_succ, List.flatMap_append, List.flatMap_cons, hc, List.flatMap_nil,
        List.append_nil]
    rw [e]
    refine ⟨by simp only [List.length_append, List.length_cons, List.length_nil]; omega, fun p hp' => ?_⟩
    by_cases hpn : p < n
    · rw [pixel_append_left (by omega)]
      exact hp p hpn
    · obtain rfl : p = n := by omega
      rw [hc, pixel, show 4 * p = (convertRgba depth palette p raw).length by omega, List.drop_left]

theorem storedPixel_isSome {file : File} {pal : Palette} (h : GoodPalette file pal) {raw : Bytes} {n : Nat}
    (hn : ∀ k, file.header.colorDepth ≠ .unknown k) (hl : raw.length = n * bytesPerPixel file.header.colorDepth) (p : Nat)
    (hp : p < n) : (storedPixel file.header.colorDepth file.palette raw p).isSome = true := by
  rw [← pixel_toRgba h]
  apply pixel_isSome
  rw [toRgba_length hn pal hl]
  omega

/-- **C87, to RGBA.** Converting an image of a loaded sprite, in any colour mode, to RGBA, and storing it in a sprite in
RGBA colours, gives an image that shows the same colours. -/
theorem C87_to_rgba (plat : Plat) (b : Bytes) (f g : AsepriteFile) (hf : AsepriteFile.load plat b = .ok f)
    (inflate : Inflater) (im : Image) (raw : Bytes) (hn : ∀ n, f.file.header.colorDepth ≠ .unknown n)
    (hraw : raw.length = pixelCount im * bytesPerPixel f.file.header.colorDepth) (hs : Stored inflate im raw.length raw)
    (hg : g.file.header.colorDepth = .rgba) :
    ShowSame inflate f g im
      ⟨im.width, im.height, convertRgba f.file.header.colorDepth f.file.palette (pixelCount im) raw, false⟩ := by
  obtain ⟨pal, h⟩ := goodPalette_of_load hf
  have hsome := storedPixel_isSome h hn hraw
  obtain ⟨hl, hp⟩ := convertRgba_pixels (pixelCount im) hsome
  refine ⟨rfl, rfl, hn, (by rw [hg]; intro n h; cases h), raw, _, hraw, ?_, hs, rfl, ?_⟩
  · rw [hl, hg]; rfl
  · intro p hp'
    obtain ⟨c, hc⟩ := Option.isSome_iff_exists.1 (hsome p hp')
    refine ⟨c, hc, ?_⟩
    rw [hg, ← hc, ← hp p hp']
    rfl

/-- **C87, another palette.** Rearranging the palette of an indexed sprite, and replacing every index in the pixels by an
index where the other palette has the same colour, gives images that show the same colours. -/
theorem C87_palette (plat : Plat) (b : Bytes) (f g : AsepriteFile) (hf : AsepriteFile.load plat b = .ok f)
    (hd : f.file.header.colorDepth = .indexed) (hd' : g.file.header.colorDepth = .indexed) (pal pal' : Palette)
    (hp : f.file.palette = some pal) (hp' : g.file.palette = some pal') (inflate : Inflater) (im : Image) (raw : Bytes)
    (hraw : raw.length = pixelCount im) (hs : Stored inflate im raw.length raw) (index : UInt8 → UInt8)
    (hi : ∀ i ∈ raw, pal'.colors[(index i).toNat]? = pal.colors[i.toNat]?) :
    ShowSame inflate f g im ⟨im.width, im.height, raw.map index, false⟩ := by
  obtain ⟨pal₁, h⟩ := goodPalette_of_load hf
  have hn : ∀ n, f.file.header.colorDepth ≠ .unknown n := by rw [hd]; intro n h; cases h
  have hraw' : raw.length = pixelCount im * bytesPerPixel f.file.header.colorDepth := by
    rw [hd, hraw]; exact (Nat.mul_one _).symm
  have hsome := storedPixel_isSome h hn hraw'
  refine ⟨rfl, rfl, hn, (by rw [hd']; intro n h; cases h), raw, _, hraw', ?_, hs, rfl, ?_⟩
  · rw [List.length_map, hraw, hd']; exact (Nat.mul_one _).symm
  · intro p hpx
    obtain ⟨c, hc⟩ := Option.isSome_iff_exists.1 (hsome p hpx)
    refine ⟨c, hc, ?_⟩
    rw [← hc, hd, hd', hp, hp']
    have hlt : p < raw.length := by omega
    simp only [storedPixel, List.getElem?_map, List.getElem?_eq_getElem hlt, Option.map_some, Option.bind_eq_bind,
      Option.bind_some, hi raw[p] (List.getElem_mem hlt)]

/-! ## An indexed sprite, the same with another palette, and the same in RGBA -/

def Sample.chunksOf (palette : List Bytes) (pixels : Bytes) : Bytes := Sample.frame 100
  ([Sample.layer 1 0 0 255 [65]] ++ palette ++ [Sample.cel 0 1 0 1 2 pixels])

/-- An indexed sprite. -/
def Sample.inIndexed : Bytes := Sample.header 2 2 8 ++
  Sample.chunksOf [Sample.palette 0 [[9, 10, 11, 12], [1, 2, 3, 4], [5, 6, 7, 8]]] [1, 2]

/-- The same with another palette. -/
def Sample.reindexed : Bytes := Sample.header 2 2 8 ++
  Sample.chunksOf [Sample.palette 0 [[9, 10, 11, 12], [5, 6, 7, 8], [1, 2, 3, 4]]] [2, 1]

/-- The same in RGBA colours. -/
def Sample.inRgba : Bytes := Sample.header 2 2 32 ++ Sample.chunksOf [] [1, 2, 3, 4, 5, 6, 7, 8]

/-- The hypotheses of `C87_color_mode` and of the other theorems hold of an indexed sprite and the same sprite in RGBA. -/
example :
    (∃ raw raw', parseRawFile ⟨true, 10⟩ Sample.inIndexed = .ok raw ∧ parseRawFile ⟨true, 10⟩ Sample.inRgba = .ok raw' ∧
      SameButColors raw raw') ∧
    ∃ f g, AsepriteFile.load ⟨true, 10⟩ Sample.inIndexed = .ok f ∧ AsepriteFile.load ⟨true, 10⟩ Sample.inRgba = .ok g ∧
      f.file.header.colorDepth = .indexed ∧ g.file.header.colorDepth = .rgba ∧
      f.images = [⟨1, 2, [1, 2], false⟩] ∧ g.images = [⟨1, 2, [1, 2, 3, 4, 5, 6, 7, 8], false⟩] ∧
      ShowSame Sample.inflate f g ⟨1, 2, [1, 2], false⟩ ⟨1, 2, [1, 2, 3, 4, 5, 6, 7, 8], false⟩ ∧
      f.renderFrame ⟨true, 10⟩ Sample.inflate 0 .visible (List.replicate 16 0) =
        (.ok (), [0, 0, 0, 0, 1, 2, 3, 4, 0, 0, 0, 0, 5, 6, 7, 8]) := by
  constructor
  · have h : (match parseRawFile ⟨true, 10⟩ Sample.inIndexed, parseRawFile ⟨true, 10⟩ Sample.inRgba with
        | .ok ⟨h, [⟨d, [.layer l, .palette _, .cel c]⟩]⟩, .ok ⟨h', [⟨d', [.layer l', .cel c']⟩]⟩ =>
          decide (h.width = h'.width ∧ h.height = h'.height ∧ d = d') && Sample.alike (.layer l) (.layer l') &&
            Sample.alike (.cel c) (.cel c')
        | _, _ => false) = true := by decide +kernel
    split at h
    · next h1 h2 =>
      simp only [Bool.and_eq_true, decide_eq_true_eq] at h
      refine ⟨_, _, h1, h2, h.1.1.1, h.1.1.2.1, ?_⟩
      simp only [uncolored, owned, run, List.map_cons, List.map_nil, List.filterMap_cons, List.filterMap_nil,
        withoutPixels_eq, Sample.alike_blank h.1.2, Sample.alike_blank h.2, h.1.1.2.2]
    · cases h
  · have h : (match AsepriteFile.load ⟨true, 10⟩ Sample.inIndexed, AsepriteFile.load ⟨true, 10⟩ Sample.inRgba with
      | .ok f, .ok g => decide (f.file.header.colorDepth = .indexed) && decide (g.file.header.colorDepth = .rgba) &&
          decide (f.images = [⟨1, 2, [1, 2], false⟩]) && decide (g.images = [⟨1, 2, [1, 2, 3, 4, 5, 6, 7, 8], false⟩]) &&
          decide (f.renderFrame ⟨true, 10⟩ Sample.inflate 0 .visible (List.replicate 16 0) =
            (.ok (), [0, 0, 0, 0, 1, 2, 3, 4, 0, 0, 0, 0, 5, 6, 7, 8])) &&
          decide (convertRgba f.file.header.colorDepth f.file.palette 2 [1, 2] = [1, 2, 3, 4, 5, 6, 7, 8])
      | _, _ => false) = true := by decide +kernel
    split at h
    · next f g hf hg =>
      simp only [Bool.and_eq_true, decide_eq_true_eq] at h
      obtain ⟨⟨⟨⟨⟨h1, h2⟩, h3⟩, h4⟩, h5⟩, h6⟩ := h
      have key := C87_to_rgba _ _ f g hf Sample.inflate ⟨1, 2, [1, 2], false⟩ [1, 2] (by rw [h1]; intro n h; cases h)
        (by rw [h1]; rfl) rfl h2
      rw [show pixelCount ⟨1, 2, [1, 2], false⟩ = 2 from rfl, h6] at key
      exact ⟨f, g, hf, hg, h1, h2, h3, h4, key, h5⟩
    · cases h

/-- The hypotheses of `C87_palette` hold of an indexed sprite and the same sprite with another palette. -/
example :
    (match AsepriteFile.load ⟨true, 10⟩ Sample.inIndexed, AsepriteFile.load ⟨true, 10⟩ Sample.reindexed with
      | .ok f, .ok g =>
        match f.file.palette, g.file.palette with
        | some p, some p' => decide (f.images = [⟨1, 2, [1, 2], false⟩]) && decide (g.images = [⟨1, 2, [2, 1], false⟩]) &&
          ([1, 2] : Bytes).all fun i => decide (p'.colors[(if i = 1 then 2 else 1 : UInt8).toNat]? = p.colors[i.toNat]?)
        | _, _ => false
      | _, _ => false) = true := by decide +kernel

end Ase
