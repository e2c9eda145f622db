import Verif.Props.Access
import Verif.Lemmas.Inflate

/-!
# C68: how an image is stored does not matter
-/

namespace Ase

open Spec

/-! ## Specification -/

/-- Two stored forms of the same image: same size, and the same bytes, exactly as many as there are pixels, whether
they are stored as they are or as a zlib stream. -/
structure Spec.SameImage (inflate : Inflater) (depth : ColorDepth) (im im' : Image) : Prop where
  width : im.width = im'.width
  height : im.height = im'.height
  bytes : ∃ raw, raw.length = pixelCount im * bytesPerPixel depth ∧
    Stored inflate im (pixelCount im * bytesPerPixel depth) raw ∧
    Stored inflate im' (pixelCount im * bytesPerPixel depth) raw

/-- The image without its data. -/
def Spec.blankImage (im : Image) : Image := { im with data := [], compressed := false }

/-- The cel without the data of its image. -/
def Spec.blankCel (c : CelChunk) : CelChunk :=
  match c.content with
  | .image im => { c with content := .image (blankImage im) }
  | _ => c

/-- The chunk without the data of the image, if it is a cel with an image. -/
def Spec.blankChunk : Chunk → Chunk
  | .cel c => .cel (blankCel c)
  | c => c

/-- The file without the data of the images, and without the size of the file in its header. -/
def Spec.blankFile (f : RawFile) : RawFile :=
  { header := { f.header with fileSize := 0 },
    frames := f.frames.map fun fr => { fr with chunks := fr.chunks.map blankChunk } }

/-! ## Decoding -/

theorem decodeImage_stored {f : AsepriteFile} {pal : Palette} (hpal : GoodPalette f.file pal) {inflate : Inflater}
    {im : Image} {raw t : Bytes} (ht : t.length = pixelCount im * 4)
    (hn : ∀ n, f.file.header.colorDepth ≠ .unknown n)
    (hl : raw.length = pixelCount im * bytesPerPixel f.file.header.colorDepth)
    (hs : Stored inflate im (pixelCount im * bytesPerPixel f.file.header.colorDepth) raw) :
    f.decodeImage inflate im t = (.ok (), toRgba f.file.header.colorDepth pal raw) := by
  rw [decodeImage_known hpal rfl hn inflate im t ht]
  unfold Stored at hs
  cases hc : im.compressed with
  | true =>
    simp only [hc, if_true] at hs ⊢
    rw [hs.1, if_pos rfl]
    have : ∀ base : Bytes, base.length = raw.length → overwrite raw base = raw := by
      intro base hb
      unfold overwrite
      rw [List.take_of_length_le (by omega), List.drop_of_length_le (by omega), List.append_nil]
    rw [this]
    by_cases hr : f.file.header.colorDepth = .rgba
    · rw [if_pos hr, hl, ht, hr]; rfl
    · rw [if_neg hr, List.length_replicate, hl]
  | false =>
    simp only [hc, Bool.false_eq_true, if_false] at hs ⊢
    subst hs
    rw [if_pos hl]

theorem loadImage_stored {f g : AsepriteFile} {pal : Palette} (hf : GoodPalette f.file pal)
    (hg : GoodPalette g.file pal) (hd : f.file.header.colorDepth = g.file.header.colorDepth)
    {inflate : Inflater} {i j : Nat} {im im' : Image} (hi : f.images[i]? = some im) (hj : g.images[j]? = some im')
    (h : SameImage inflate f.file.header.colorDepth im im') : f.loadImage inflate i = g.loadImage inflate j := by
  funext t
  obtain ⟨hw, hh, raw, hl, hs, hs'⟩ := h
  have hp : pixelCount im' = pixelCount im := by rw [pixelCount, ← hw, ← hh]; rfl
  rw [loadImage_eq hi, loadImage_eq hj, hp]
  by_cases ht : t.length < pixelCount im * 4
  · rw [if_pos ht, if_pos ht]
  · rw [if_neg ht, if_neg ht]
    have htl : (t.take (pixelCount im * 4)).length = pixelCount im * 4 := by rw [List.length_take]; omega
    have : f.decodeImage inflate im (t.take (pixelCount im * 4)) =
        g.decodeImage inflate im' (t.take (pixelCount im * 4)) := by
      rcases known_or_unknown f.file.header.colorDepth with ⟨n, hn⟩ | hn
      · rw [decodeImage_unknown hn, decodeImage_unknown (hd ▸ hn)]
      · rw [decodeImage_stored hf htl hn hl hs, decodeImage_stored hg (hp ▸ htl) (hd ▸ hn) (by rw [hp, ← hd]; exact hl)
          (by rw [hp, ← hd]; exact hs'), hd]
    rw [this]

/-- One palette for both files. -/
theorem goodPalette_shared {p p' : Plat} {b b' : Bytes} {f g : AsepriteFile} (hf : AsepriteFile.load p b = .ok f)
    (_hg : AsepriteFile.load p' b' = .ok g) (hs : SameSetting f g) :
    ∃ pal, GoodPalette f.file pal ∧ GoodPalette g.file pal := by
  obtain ⟨pal, h1, h2⟩ := goodPalette_of_load hf
  exact ⟨pal, ⟨h1, h2⟩, h1, fun h => by rw [← hs.depth] at h; rw [← hs.palette h]; exact h2 h⟩

/-- **C68, one image.** `load_image` does not show how an image is stored: if image `i` of one sprite and image `j` of
another, of the same colour depth and palette, are stored forms of the same pixels, then `load_image` returns the same
for both and leaves the same bytes, for every buffer. -/
theorem C68_load_image (p p' : Plat) (b b' : Bytes) (f g : AsepriteFile) (hf : AsepriteFile.load p b = .ok f)
    (hg : AsepriteFile.load p' b' = .ok g) (hs : SameSetting f g) (inflate : Inflater) (i j : Nat) (im im' : Image)
    (hi : f.images[i]? = some im) (hj : g.images[j]? = some im')
    (h : SameImage inflate f.file.header.colorDepth im im') (t : Bytes) :
    f.loadImage inflate i t = g.loadImage inflate j t := by
  obtain ⟨pal, h1, h2⟩ := goodPalette_shared hf hg hs
  rw [loadImage_stored h1 h2 hs.depth hi hj h]

/-! ## Rendering -/

/-- Two cels that show the same image at the same place on the same layer. -/
structure Spec.SameCel (inflate : Inflater) (f g : AsepriteFile) (c d : FrameCel) : Prop where
  origin : c.origin = d.origin
  layer : c.layerIndex = d.layerIndex
  image : ∃ im im', f.images[c.imageIndex]? = some im ∧ g.images[d.imageIndex]? = some im' ∧
    SameImage inflate f.file.header.colorDepth im im'

/-- The lists have the same length and their members are related one by one. -/
def Spec.Pairwise₂ {α β : Type} (R : α → β → Prop) (as : List α) (bs : List β) : Prop :=
  as.length = bs.length ∧ ∀ (i : Nat) a b, as[i]? = some a → bs[i]? = some b → R a b

theorem renderFrame_alike {f g : AsepriteFile} (hs : f.size = g.size) {plat : Plat} {inflate : Inflater}
    {sel : LayerSelection} {i j : Nat} {lf lg : LFrame} (hi : f.frames[i]? = some lf) (hj : g.frames[j]? = some lg)
    (hc : Pairwise₂ (fun c d => f.renderCel plat inflate sel c = g.renderCel plat inflate sel d) lf.cels lg.cels)
    (t : Bytes) : f.renderFrame plat inflate i sel t = g.renderFrame plat inflate j sel t := by
  have hcb : canvasBytes f = canvasBytes g := by
    simp only [canvasBytes]
    rw [show f.file.header.width = g.file.header.width from congrArg Prod.fst hs,
      show f.file.header.height = g.file.header.height from congrArg Prod.snd hs]
  rw [renderFrame_eq, renderFrame_eq, hcb, hi, hj]
  by_cases ht : t.length < canvasBytes g
  · rw [if_pos ht, if_pos ht]
  · rw [if_neg ht, if_neg ht]
    dsimp only
    generalize lf.cels = cs at hc
    generalize lg.cels = ds at hc
    clear ht
    induction cs generalizing ds t with
    | nil =>
      cases ds with
      | nil => rfl
      | cons d ds => have := hc.1; simp at this
    | cons c cs ih =>
      cases ds with
      | nil => have := hc.1; simp at this
      | cons d ds =>
        rw [forEach_cons, forEach_cons, hc.2 0 c d rfl rfl]
        rcases g.renderCel plat inflate sel d t with ⟨_ | _ | _, t'⟩
        · exact ih t' ds ⟨by simpa using hc.1, fun i a b ha hb => hc.2 (i + 1) a b (by simpa using ha) (by simpa using hb)⟩
        · rfl
        · rfl

/-- **C68, rendering.** A rendered frame does not show how its images are stored: if two frames have the same cels, up to
the stored form of their images, then for every selection and buffer `render_frame` gives the same result and leaves the
same bytes. -/
theorem C68_render (p p' : Plat) (b b' : Bytes) (f g : AsepriteFile) (hf : AsepriteFile.load p b = .ok f)
    (hg : AsepriteFile.load p' b' = .ok g) (hs : SameSetting f g) (inflate : Inflater) (i j : Nat) (lf lg : LFrame)
    (hi : f.frames[i]? = some lf) (hj : g.frames[j]? = some lg)
    (hc : Pairwise₂ (SameCel inflate f g) lf.cels lg.cels) (plat : Plat) (sel : LayerSelection) (t : Bytes) :
    f.renderFrame plat inflate i sel t = g.renderFrame plat inflate j sel t := by
  obtain ⟨pal, h1, h2⟩ := goodPalette_shared hf hg hs
  refine renderFrame_alike hs.size hi hj ⟨hc.1, fun k c d hk hk' => ?_⟩ t
  obtain ⟨ho, hl, im, im', hi', hj', him⟩ := hc.2 k c d hk hk'
  obtain ⟨a, ha, hz⟩ := celsOk_of_load hf hi c (List.mem_of_getElem? hk)
  obtain ⟨a', ha', hz'⟩ := celsOk_of_load hg hj d (List.mem_of_getElem? hk')
  rw [hi'] at ha
  cases ha
  rw [hj'] at ha'
  cases ha'
  have hz2 : c.size = d.size := by
    rw [hz, hz', him.width, him.height]
  have hw : f.file.header.width = g.file.header.width := congrArg Prod.fst hs.size
  have hh : f.file.header.height = g.file.header.height := congrArg Prod.snd hs.size
  unfold AsepriteFile.renderCel
  rw [hs.layers, hl, hz2, loadImage_stored h1 h2 hs.depth hi' hj' him]
  have h3 : ∀ layer fn t y, f.renderPixel plat c layer fn t y = g.renderPixel plat d layer fn t y := by
    intro layer fn t y
    funext x
    unfold AsepriteFile.renderPixel
    rw [ho, hz2, hw, hh]
  simp only [h3]

/-! ## Whole files -/

/-- The parsed file without the data of the images and the size of the file. -/
def blankParsed (f : File) : File :=
  { f with header := { f.header with fileSize := 0 },
           frames := f.frames.map fun fr => { fr with cels := fr.cels.map (Option.map blankCel) } }

/-- The loaded sprite without the data of the images and the size of the file. -/
def blankLoaded (f : AsepriteFile) : AsepriteFile :=
  { f with file := blankParsed f.file, images := f.images.map blankImage }

theorem blankCel_layerIndex (c : CelChunk) : (blankCel c).layerIndex = c.layerIndex := by
  unfold blankCel; split <;> rfl

theorem blankCel_userData (c : CelChunk) (u : Option UserDataChunk) :
    { blankCel c with userData := u } = blankCel { c with userData := u } := by
  obtain ⟨_, _, _, _, _, co, _⟩ := c
  cases co <;> rfl

theorem run_blank (cs : List Chunk) : run (cs.map blankChunk) = run cs := by
  induction cs with
  | nil => rfl
  | cons c cs ih => cases c <;> simp_all [run, blankChunk]

theorem owned_blank (cs : List Chunk) :
    owned (cs.map blankChunk) = (owned cs).map fun p => (blankChunk p.1, p.2) := by
  induction cs with
  | nil => rfl
  | cons c cs ih => cases c <;> simp [owned, blankChunk, ih, run_blank]

theorem layersOf_blank (cs : List Chunk) : layersOf (cs.map blankChunk) = layersOf cs := by
  rw [layersOf, owned_blank, List.filterMap_map, layersOf]
  congr 1
  funext p
  obtain ⟨c, us⟩ := p
  cases c <;> rfl

theorem slicesOf_blank (cs : List Chunk) : slicesOf (cs.map blankChunk) = slicesOf cs := by
  rw [slicesOf, owned_blank, List.filterMap_map, slicesOf]
  congr 1
  funext p
  obtain ⟨c, us⟩ := p
  cases c <;> rfl

theorem tagsOf_blank (cs : List Chunk) : tagsOf (cs.map blankChunk) = tagsOf cs := by
  rw [tagsOf, owned_blank, List.flatMap_map, tagsOf]
  congr 1
  funext p
  obtain ⟨c, us⟩ := p
  cases c <;> rfl

theorem spriteUserData_blank (cs : List Chunk) : spriteUserData (cs.map blankChunk) = spriteUserData cs := by
  rw [spriteUserData, owned_blank, List.findSome?_map, spriteUserData]
  congr 1
  funext p
  obtain ⟨c, us⟩ := p
  cases c <;> rfl

theorem celsOf_blank (cs : List Chunk) : celsOf (cs.map blankChunk) = (celsOf cs).map blankCel := by
  rw [celsOf, owned_blank, List.filterMap_map, celsOf, List.map_filterMap]
  congr 1
  funext p
  obtain ⟨c, us⟩ := p
  cases c with
  | cel c => simp [blankChunk, blankCel_userData]
  | _ => rfl

theorem palettes_blank (cs : List Chunk) : newPalettes (cs.map blankChunk) = newPalettes cs ∧
    oldPalettes4 (cs.map blankChunk) = oldPalettes4 cs ∧ oldPalettes11 (cs.map blankChunk) = oldPalettes11 cs := by
  induction cs with
  | nil => exact ⟨rfl, rfl, rfl⟩
  | cons c cs ih => cases c <;> simp_all [newPalettes, oldPalettes4, oldPalettes11, blankChunk]

theorem slots_blank (n : Nat) (cels : List CelChunk) : slots n (cels.map blankCel) = (slots n cels).map (Option.map blankCel) := by
  rw [slots, slots, List.map_map]
  apply List.map_congr_left
  intro i _
  simp only [slot, Function.comp_def, List.filter_map, blankCel_layerIndex]
  rw [List.getLast?_map]

theorem badCel_blank (n : Nat) (cels : List CelChunk) : badCel n (cels.map blankCel) = (badCel n cels).map blankCel := by
  simp [badCel, List.find?_map, Function.comp_def, blankCel_layerIndex]

theorem assembleFile_blank {raw : RawFile} (h : FreshFrames raw.frames) :
    assembleFile (blankFile raw) = (assembleFile raw).bind fun f => .ok (blankParsed f) := by
  have hb : FreshFrames (blankFile raw).frames := by
    intro fr hfr c hc
    obtain ⟨fr', hfr', rfl⟩ := List.mem_map.1 hfr
    obtain ⟨c', hc', rfl⟩ := List.mem_map.1 hc
    have := h fr' hfr' c' hc'
    cases c' <;> first | exact this | trivial
  have hl : allLayers (blankFile raw).frames = allLayers raw.frames := by
    simp only [allLayers, blankFile, List.flatMap_map, layersOf_blank]
  have hc : allCels (blankFile raw).frames = (allCels raw.frames).map blankCel := by
    simp only [allCels, blankFile, List.flatMap_map, celsOf_blank, List.map_flatMap]
  have hch : allChunks (blankFile raw).frames = (allChunks raw.frames).map blankChunk := by
    simp only [allChunks, blankFile, List.flatMap_map, List.map_flatMap]
  have hp : filePalette (blankFile raw) = filePalette raw := by
    obtain ⟨q1, q2, q3⟩ := palettes_blank (allChunks raw.frames)
    have q := paletteProblem_congr q1 q2 q3
    rw [filePalette_eq, filePalette_eq, hch, q.1, q.2]
    rfl
  rw [assembleFile_eq _ hb, assembleFile_eq _ h, hp, hl, hc, badCel_blank]
  cases filePalette raw with
  | err e => rfl
  | panic k => rfl
  | ok pal =>
    simp only [Outcome.bind]
    cases hbad : badCel (allLayers raw.frames).length (allCels raw.frames) with
    | some c =>
      simp only [Option.map_some, rejectCel, blankCel_layerIndex]
      split <;> rfl
    | none =>
      simp only [Option.map_none, blankParsed, Outcome.ok.injEq, File.mk.injEq, blankFile, List.map_map,
        Function.comp_def, celsOf_blank, slots_blank, List.flatMap_map, tagsOf_blank, slicesOf_blank, List.head?_map,
        true_and]
      cases raw.frames.head? with
      | none => rfl
      | some fr => simp [spriteUserData_blank]

theorem filterMap_blank (cs : List (Option CelChunk)) :
    (cs.map (Option.map blankCel)).filterMap id = (cs.filterMap id).map blankCel := by
  induction cs with
  | nil => rfl
  | cons c cs ih => cases c <;> simp_all

theorem ownImage_blank (c : CelChunk) : ownImage (blankCel c) = (ownImage c).map blankImage := by
  obtain ⟨_, _, _, _, _, co, _⟩ := c
  cases co <;> rfl

theorem keyed_blank (i : Nat) (fs : List Frame) :
    keyed i (fs.map fun fr => { fr with cels := fr.cels.map (Option.map blankCel) }) =
      (keyed i fs).map fun p => (p.1, blankImage p.2) := by
  induction fs generalizing i with
  | nil => rfl
  | cons f fs ih =>
    simp only [keyed, List.map_cons, ih, List.map_append, List.append_cancel_right_eq]
    rw [filterMap_blank, frameKeyed, frameKeyed, List.filterMap_map, List.map_filterMap]
    congr 1
    funext c
    simp [ownImage_blank, blankCel_layerIndex, Function.comp_def]

theorem mapOf_blank (n : Nat) (ks : List ((Nat × Nat) × Image)) :
    mapOf n (ks.map fun p => (p.1, blankImage p.2)) = mapOf n ks := by
  simp [mapOf, List.zipIdx_map, Function.comp_def]

theorem imageIndexOf_blank (m : ImageMap) (i : Nat) (c : CelChunk) : imageIndexOf m i (blankCel c) = imageIndexOf m i c := by
  obtain ⟨_, _, _, _, _, co, _⟩ := c
  cases co <;> rfl

theorem toFrameCel_blank (images : List Image) (m : ImageMap) (i : Nat) (c : CelChunk) :
    toFrameCel (images.map blankImage) m i (blankCel c) = toFrameCel images m i c := by
  unfold toFrameCel
  rw [imageIndexOf_blank, blankCel_layerIndex]
  have hx : (blankCel c).x = c.x ∧ (blankCel c).y = c.y := by unfold blankCel; split <;> exact ⟨rfl, rfl⟩
  congr 1
  funext k
  rw [List.getElem?_map, hx.1, hx.2]
  cases images[k]? <;> rfl

theorem toFrameCels_blank (images : List Image) (m : ImageMap) (i : Nat) (cs : List CelChunk) :
    toFrameCels (images.map blankImage) m i (cs.map blankCel) = toFrameCels images m i cs := by
  induction cs with
  | nil => rfl
  | cons c cs ih => simp only [List.map_cons, toFrameCels, toFrameCel_blank, ih]

theorem toLFrames_blank (images : List Image) (m : ImageMap) (i : Nat) (fs : List Frame) :
    toLFrames (images.map blankImage) m i (fs.map fun fr => { fr with cels := fr.cels.map (Option.map blankCel) }) =
      toLFrames images m i fs := by
  induction fs generalizing i with
  | nil => rfl
  | cons f fs ih => simp only [List.map_cons, toLFrames, filterMap_blank, toFrameCels_blank, ih]

theorem ofFile_blank (file : File) :
    AsepriteFile.ofFile (blankParsed file) = (AsepriteFile.ofFile file).bind fun f => .ok (blankLoaded f) := by
  have hk : keyed 0 (blankParsed file).frames = (keyed 0 file.frames).map fun p => (p.1, blankImage p.2) :=
    keyed_blank 0 _
  have hi : fileImages (blankParsed file) = (fileImages file).map blankImage := by
    simp [fileImages, hk, Function.comp_def]
  rw [ofFile_eq, ofFile_eq, hk, hi, mapOf_blank, ← toLFrames_eq, ← toLFrames_eq]
  rw [show toLFrames ((fileImages file).map blankImage) (mapOf 0 (keyed 0 file.frames)) 0 (blankParsed file).frames =
    toLFrames (fileImages file) (mapOf 0 (keyed 0 file.frames)) 0 file.frames from toLFrames_blank _ _ _ _]
  cases toLFrames (fileImages file) (mapOf 0 (keyed 0 file.frames)) 0 file.frames with
  | err e => rfl
  | panic k => rfl
  | ok x =>
    simp only [Outcome.bind, blankLoaded, blankParsed]

theorem load_blank {plat : Plat} {b : Bytes} {raw : RawFile} (h : parseRawFile plat b = .ok raw) :
    ((assembleFile (blankFile raw)).mapErr .parse).bind AsepriteFile.ofFile =
      (AsepriteFile.load plat b).bind fun f => .ok (blankLoaded f) := by
  rw [assembleFile_blank (fresh h), AsepriteFile.load, parseFile_eq h]
  cases assembleFile raw with
  | err e => rfl
  | panic k => rfl
  | ok file =>
    simp only [Outcome.bind, Outcome.mapErr, outcome_bind_def]
    exact ofFile_blank file

/-- **C68.** Storing the images of a file in another way (compressed, not compressed, compressed by another program)
changes nothing: take two files that are equal except for the data of their images and the file size noted in the
header.  They give the same error or panic, or both load.  Then layers, frames, tags and slices are the same, and image
`k` of one corresponds to image `k` of the other, with the same size.  If the data of two corresponding images stands for
the same pixels, `load_image` gives the same for them.  If this is so for all images of a frame, then rendering this
frame gives the same, for every selection and buffer. -/
theorem C68_storage (plat : Plat) (b b' : Bytes) (raw raw' : RawFile) (hb : parseRawFile plat b = .ok raw)
    (hb' : parseRawFile plat b' = .ok raw') (h : blankFile raw = blankFile raw') :
    (∀ e, AsepriteFile.load plat b = .err e ↔ AsepriteFile.load plat b' = .err e) ∧
    (∀ k, AsepriteFile.load plat b = .panic k ↔ AsepriteFile.load plat b' = .panic k) ∧
    ((∃ f, AsepriteFile.load plat b = .ok f) ↔ ∃ g, AsepriteFile.load plat b' = .ok g) ∧
    ∀ f g, AsepriteFile.load plat b = .ok f → AsepriteFile.load plat b' = .ok g →
      f.layers = g.layers ∧ f.frames = g.frames ∧ f.tags = g.tags ∧ f.slices = g.slices ∧ f.size = g.size ∧
      Pairwise₂ (fun im im' => im.width = im'.width ∧ im.height = im'.height) f.images g.images ∧
      (∀ inflate (k : Nat) im im', f.images[k]? = some im → g.images[k]? = some im' →
        SameImage inflate raw.header.colorDepth im im' → ∀ t, f.loadImage inflate k t = g.loadImage inflate k t) ∧
      (∀ inflate i lf, f.frames[i]? = some lf →
        (∀ c ∈ lf.cels, ∀ im im', f.images[c.imageIndex]? = some im → g.images[c.imageIndex]? = some im' →
          SameImage inflate raw.header.colorDepth im im') →
        ∀ plat sel t, f.renderFrame plat inflate i sel t = g.renderFrame plat inflate i sel t) := by
  have e := load_blank hb
  rw [h, load_blank hb'] at e
  refine ⟨?_, ?_, ?_, ?_⟩
  · intro x
    cases h1 : AsepriteFile.load plat b <;> cases h2 : AsepriteFile.load plat b' <;>
      simp_all [Outcome.bind]
  · intro x
    cases h1 : AsepriteFile.load plat b <;> cases h2 : AsepriteFile.load plat b' <;>
      simp_all [Outcome.bind]
  · cases h1 : AsepriteFile.load plat b <;> cases h2 : AsepriteFile.load plat b' <;>
      simp_all [Outcome.bind]
  · intro f g hf hg
    rw [hf, hg] at e
    simp only [Outcome.bind, Outcome.ok.injEq, blankLoaded, AsepriteFile.mk.injEq] at e
    obtain ⟨e1, e2, e3, e4, e5⟩ := e
    have e1 := e1.symm
    have hdr : ({ f.file.header with fileSize := 0 } : Header) = { g.file.header with fileSize := 0 } := congrArg File.header e1
    have hpal : f.file.palette = g.file.palette := (congrArg File.palette e1 :)
    have hsl : f.file.slices = g.file.slices := (congrArg File.slices e1 :)
    have hd : f.file.header.colorDepth = raw.header.colorDepth := by
      obtain ⟨r, hr, hh, _⟩ := C26_collected plat b f.file (load_ok.1 hf).1
      rw [hb] at hr
      cases hr
      rw [hh]
    have hsize : f.size = g.size := by
      simp only [AsepriteFile.size, Prod.mk.injEq]
      exact ⟨by simpa using congrArg Header.width hdr, by simpa using congrArg Header.height hdr⟩
    have hset : SameSetting f g :=
      ⟨hsize, by simpa using congrArg Header.colorDepth hdr, fun _ => hpal, e2.symm⟩
    have him : ∀ (k : Nat) im im', f.images[k]? = some im → g.images[k]? = some im' → blankImage im = blankImage im' := by
      intro k im im' h1 h2
      have := congrArg (·[k]?) e5
      simpa [h1, h2] using this.symm
    have hlen : f.images.length = g.images.length := by simpa using (congrArg List.length e5).symm
    refine ⟨e2.symm, e3.symm, e4.symm, hsl, hsize, ⟨hlen, ?_⟩, ?_, ?_⟩
    · intro k im im' h1 h2
      have := him k im im' h1 h2
      simp only [blankImage, Image.mk.injEq] at this
      exact ⟨this.1, this.2.1⟩
    · intro inflate k im im' h1 h2 hs t
      exact C68_load_image plat plat b b' f g hf hg hset inflate k k im im' h1 h2 (hd ▸ hs) t
    · intro inflate i lf hi hs p sel t
      have hj : g.frames[i]? = some lf := by rw [e3]; exact hi
      refine C68_render plat plat b b' f g hf hg hset inflate i i lf lf hi hj ⟨rfl, ?_⟩ p sel t
      intro k c d hk hk'
      rw [hk] at hk'
      cases hk'
      have hm := List.mem_of_getElem? hk
      obtain ⟨im, h1, _⟩ := celsOk_of_load hf hi c hm
      obtain ⟨im', h2, _⟩ := celsOk_of_load hg hj c hm
      exact ⟨rfl, rfl, im, im', h1, h2, hd ▸ hs c hm im im' h1 h2⟩

/-- A check of two chunks that implies that they are equal except for the data of an image. -/
def Sample.alike : Chunk → Chunk → Bool
  | .layer a, .layer b => decide (a.flags = b.flags ∧ a.layerType = b.layerType ∧ a.childLevel = b.childLevel ∧
      a.blendMode = b.blendMode ∧ a.opacity = b.opacity ∧ a.name = b.name ∧ a.tilesetIndex = b.tilesetIndex) &&
      a.userData.isNone && b.userData.isNone
  | .cel a, .cel b => decide ((a.layerIndex, a.x, a.y, a.opacity, a.zIndex, (blankCel a).content) =
      (b.layerIndex, b.x, b.y, b.opacity, b.zIndex, (blankCel b).content)) && a.userData.isNone && b.userData.isNone
  | _, _ => false

theorem Sample.alike_blank {c d : Chunk} (h : Sample.alike c d = true) : blankChunk c = blankChunk d := by
  unfold Sample.alike at h
  split at h
  · next a b =>
    obtain ⟨⟨_⟩, _, _, _, _, _, _, _⟩ := a
    obtain ⟨⟨_⟩, _, _, _, _, _, _, _⟩ := b
    simp_all [blankChunk]
  · next a b =>
    have key : blankCel a = blankCel b := by
      obtain ⟨_, _, _, _, _, co, _⟩ := a
      obtain ⟨_, _, _, _, _, co', _⟩ := b
      cases co <;> cases co' <;> simp_all [blankCel]
    rw [blankChunk, blankChunk, key]
  · cases h

def Sample.plain : Bytes := Sample.header 2 1 32 ++ Sample.frame 100
  [Sample.layer 1 0 0 255 [65], Sample.cel 0 1 0 1 1 [9, 10, 11, 12]]

def Sample.squeezed : Bytes := Sample.header 2 1 32 ++ Sample.frame 100
  [Sample.layer 1 0 0 255 [65], Sample.zcel 0 1 0 1 1 (Sample.deflate [9, 10, 11, 12])]

/-- The hypotheses of `C68_storage` hold of a sprite with its image stored as it is and the same sprite with its image
stored as a zlib stream. -/
example :
    (∃ raw raw', parseRawFile ⟨true, 10⟩ Sample.plain = .ok raw ∧ parseRawFile ⟨true, 10⟩ Sample.squeezed = .ok raw' ∧
      blankFile raw = blankFile raw') ∧
    (match AsepriteFile.load ⟨true, 10⟩ Sample.plain, AsepriteFile.load ⟨true, 10⟩ Sample.squeezed with
      | .ok f, .ok g => decide (f.images = [⟨1, 1, [9, 10, 11, 12], false⟩]) &&
          decide (g.images = [⟨1, 1, Sample.deflate [9, 10, 11, 12], true⟩]) && decide (f.frames = g.frames)
      | _, _ => false) = true ∧
    SameImage Sample.inflate .rgba ⟨1, 1, [9, 10, 11, 12], false⟩ ⟨1, 1, Sample.deflate [9, 10, 11, 12], true⟩ := by
  refine ⟨?_, by decide +kernel, rfl, rfl, [9, 10, 11, 12], by decide +kernel, ?_, ?_⟩
  · have h : (match parseRawFile ⟨true, 10⟩ Sample.plain, parseRawFile ⟨true, 10⟩ Sample.squeezed with
        | .ok ⟨h, [⟨d, [c1, c2]⟩]⟩, .ok ⟨h', [⟨d', [c1', c2']⟩]⟩ =>
          decide ({ h with fileSize := 0 } = { h' with fileSize := 0 } ∧ d = d') && Sample.alike c1 c1' &&
            Sample.alike c2 c2'
        | _, _ => false) = true := by decide +kernel
    split at h
    · next h1 h2 =>
      simp only [Bool.and_eq_true, decide_eq_true_eq] at h
      refine ⟨_, _, h1, h2, ?_⟩
      simp only [blankFile, List.map_cons, List.map_nil, Sample.alike_blank h.1.2, Sample.alike_blank h.2, h.1.1.1, h.1.1.2]
    · cases h
  · unfold Stored; decide +kernel
  · unfold Stored; decide +kernel

/-! ## A real decoder -/

/-- The decoder of RFC 1950 and RFC 1951 (`Model/Inflate.lean`) meets what the theorems about images assume of zlib. -/
theorem C68_fits : Fits Zlib.inflate := Zlib.inflate_fits

/-- `zlib` holds the bytes `raw` in stored blocks (RFC 1951, 3.2.4) of less than 64 KiB each, with the header and the
checksum of RFC 1950; there may be further bytes after the stream. -/
def Spec.InStoredBlocks (raw zlib : Bytes) : Prop :=
  ∃ (ds : List Bytes) (rest : Bytes), ds.flatten = raw ∧ (∀ d ∈ ds, d.length < 65536) ∧ zlib = Zlib.storedStream ds ++ rest

/-- **C68 for the decoder of RFC 1950 and RFC 1951**: an image stored as it is, and the same image as a zlib stream of
stored blocks, cut into blocks in any way, are stored forms of the same pixels; so `C68_storage` applies to them. -/
theorem C68_stored_blocks (depth : ColorDepth) (w h : UInt16) (raw zlib : Bytes)
    (hraw : raw.length = w.toNat * h.toNat * bytesPerPixel depth) (hz : InStoredBlocks raw zlib) :
    SameImage Zlib.inflate depth ⟨w, h, raw, false⟩ ⟨w, h, zlib, true⟩ := by
  obtain ⟨ds, rest, rfl, hd, rfl⟩ := hz
  refine ⟨rfl, rfl, ds.flatten, hraw, rfl, ?_⟩
  unfold Stored
  rw [if_pos rfl]
  exact ⟨Zlib.inflate_storedStream ds hd rest _ (Nat.le_of_eq hraw), Nat.le_of_eq hraw⟩

/-- Two bytes in one block: the stream Python's `zlib.compress(b"ab", 0)` writes. -/
example : Zlib.storedStream [[97, 98]] = [0x78, 0x01, 0x01, 2, 0, 0xfd, 0xff, 97, 98, 0x01, 0x26, 0x00, 0xc4] ∧
    Zlib.inflate [0x78, 0x01, 0x01, 2, 0, 0xfd, 0xff, 97, 98, 0x01, 0x26, 0x00, 0xc4] 2 = (.streamEnd, [97, 98]) := by
  decide +kernel

/-- A file with an image in two stored blocks, decoded by the decoder of RFC 1950 and RFC 1951. -/
example : (match AsepriteFile.load ⟨true, 10⟩ (Sample.header 2 1 32 ++ Sample.frame 100
      [Sample.layer 1 0 0 255 [65], Sample.zcel 0 1 0 1 1 (Zlib.storedStream [[9], [10, 11, 12]] ++ [7])]) with
    | .ok f => decide (f.loadImage Zlib.inflate 0 [0, 0, 0, 0, 5] = (.ok (), [9, 10, 11, 12, 5]))
    | _ => false) = true := by decide +kernel

end Ase
