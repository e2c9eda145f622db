import Verif.Props.Render

/-!
# C63, C64, C65, C67: the image table, what a rendering depends on, appended frames, tag ranges
-/

namespace Ase

open Spec

/-! ## C63: images and slices -/

theorem keyed_images (i : Nat) (fs : List Frame) :
    (keyed i fs).map (·.2) = fs.flatMap fun fr => fr.cels.filterMap (·.bind ownImage) := by
  induction fs generalizing i with
  | nil => rfl
  | cons f fs ih =>
    rw [keyed, List.map_append, ih, List.flatMap_cons]
    congr 1
    induction f.cels with
    | nil => rfl
    | cons c cs ih2 =>
      cases c with
      | none => simpa [frameKeyed] using ih2
      | some c =>
        simp only [List.filterMap_cons, id_eq, frameKeyed, Option.bind_some] at ih2 ⊢
        cases ownImage c with
        | none => exact ih2
        | some im => simp only [Option.map_some, List.map_cons, ih2]

/-- **C63.** The images of a loaded sprite are exactly the images stored in its cels, in the order of frames and then
layers: `image_count()` is the number of cels that store an image, and image number `k` is the `k`-th of them.  Each
image number is used by a cel of the frame storing the image.  `slices()` are the slices of all frames in file order with
their user data. -/
theorem C63_images (plat : Plat) (b : Bytes) (f : AsepriteFile) (h : AsepriteFile.load plat b = .ok f) :
    f.images = (f.file.frames.flatMap fun fr => fr.cels.filterMap (·.bind ownImage)) ∧
    f.imageCount = (f.file.frames.map fun fr => fr.cels.countP fun c => (c.bind ownImage).isSome).sum ∧
    (∀ k, k < f.imageCount → ∃ (i : Nat) (lf : LFrame) (fc : FrameCel), f.frames[i]? = some lf ∧ fc ∈ lf.cels ∧
      fc.imageIndex = k ∧ f.images[k]? = imageAt f.file i fc.layerIndex) ∧
    ∃ raw, parseRawFile plat b = .ok raw ∧ f.slices = raw.frames.flatMap (slicesOf ·.chunks) := by
  obtain ⟨h1, h2⟩ := load_ok.1 h
  have hs := slotsOk_of_parse h1
  have himg := (ofFile_ok h2).2.2.2.1
  have e : f.images = (f.file.frames.flatMap fun fr => fr.cels.filterMap (·.bind ownImage)) := by
    rw [himg, fileImages, keyed_images]
  refine ⟨e, ?_, ?_, ?_⟩
  · rw [AsepriteFile.imageCount, e, List.length_flatMap]
    congr 1
    apply List.map_congr_left
    intro fr _
    rw [List.length_filterMap_eq_countP]
  · intro k hk
    rw [AsepriteFile.imageCount, himg, fileImages, List.length_map] at hk
    obtain ⟨⟨j, l⟩, im⟩ : (Nat × Nat) × Image := (keyed 0 f.file.frames)[k]
    have hk' : ∃ j l im, (keyed 0 f.file.frames)[k]? = some ((j, l), im) :=
      ⟨_, _, _, List.getElem?_eq_getElem hk⟩
    obtain ⟨j, l, im, hk2⟩ := hk'
    have hat := (mem_keyed_file hs).1 (List.mem_of_getElem? hk2)
    obtain ⟨c, hc, hci⟩ : ∃ c, celAt f.file j l = some c ∧ ownImage c = some im := by
      simpa [imageAt, Option.bind_eq_some_iff] using hat
    obtain ⟨hl, lf, fc, h3, h4, h5⟩ := shown_of_cel hs h2 hc
    have hsrc : sourceFrame j c = j := by
      unfold ownImage at hci
      unfold sourceFrame
      split at hci
      · next hcon => rw [hcon]
      · cases hci
    obtain ⟨im', h6, h7⟩ := h5.image
    refine ⟨j, lf, fc, h3, h4, ?_, ?_⟩
    · rw [hsrc, hl] at h6
      have a := (map_lookup hs (j, l) k).2 ⟨im, hk2⟩
      have b := (map_lookup hs (j, l) fc.imageIndex).2 ⟨im', h6⟩
      rw [a] at b
      exact (Option.some.inj b).symm
    · rw [h5.layer, hl, hat, himg, fileImages, List.getElem?_map, hk2]
      rfl
  · obtain ⟨raw, hraw, _, _, _, hsl, _⟩ := C26_collected plat b f.file h1
    exact ⟨raw, hraw, hsl⟩

example : (match AsepriteFile.load ⟨true, 10⟩ Sample.twoFrames with
    | .ok f => f.imageCount == 2 && f.slices.length == 0 && f.images.map (·.data) == [[1, 2, 3, 4, 5, 6, 7, 8], [9, 10, 11, 12]]
    | _ => false) = true := by decide +kernel

/-! ## C64: what a rendering depends on -/

/-- What rendering uses of a cel: position, size, layer and the image itself. -/
def Spec.celFacts (f : AsepriteFile) (c : FrameCel) : (Int16 × Int16) × (UInt16 × UInt16) × Nat × Option Image :=
  (c.origin, c.size, c.layerIndex, f.images[c.imageIndex]?)

/-- The two sprites have the same size, colour depth and layers, and the same palette if they are indexed. -/
structure Spec.SameSetting (f g : AsepriteFile) : Prop where
  size : f.size = g.size
  depth : f.file.header.colorDepth = g.file.header.colorDepth
  palette : f.file.header.colorDepth = .indexed → f.file.palette = g.file.palette
  layers : f.layers = g.layers

theorem loadImage_local {f g : AsepriteFile} (hs : SameSetting f g) (inflate : Inflater) {i j : Nat}
    (h : f.images[i]? = g.images[j]?) : f.loadImage inflate i = g.loadImage inflate j := by
  unfold AsepriteFile.loadImage
  rw [h]
  cases g.images[j]? with
  | none => rfl
  | some im =>
    have : f.decodeImage inflate im = g.decodeImage inflate im := by
      have hp := hs.palette
      have hd := hs.depth
      unfold AsepriteFile.decodeImage AsepriteFile.paletteOrErr
      rw [← hd]
      cases hdep : f.file.header.colorDepth with
      | indexed => rw [hp hdep]
      | _ => cases im.compressed <;> rfl
    simp only [this]

theorem renderCel_local {f g : AsepriteFile} (hs : SameSetting f g) (plat : Plat) (inflate : Inflater)
    (sel : LayerSelection) {c d : FrameCel} (h : celFacts f c = celFacts g d) :
    f.renderCel plat inflate sel c = g.renderCel plat inflate sel d := by
  simp only [celFacts, Prod.mk.injEq] at h
  obtain ⟨ho, hz, hl, hi⟩ := h
  have hw : f.file.header.width = g.file.header.width := congrArg Prod.fst hs.size
  have hh : f.file.header.height = g.file.header.height := congrArg Prod.snd hs.size
  unfold AsepriteFile.renderCel
  rw [hs.layers, hl, hz, loadImage_local hs inflate hi]
  have h2 : ∀ layer fn t y, f.renderPixel plat c layer fn t y = g.renderPixel plat d layer fn t y := by
    intro layer fn t y
    funext x
    unfold AsepriteFile.renderPixel
    rw [ho, hz, hw, hh]
  simp only [h2]

/-- **C64.** A rendering depends on nothing but the size, the colour depth, the palette (of an indexed sprite), the
layers, and the positions, sizes, layers and images of the cels of that frame: if two sprites agree in these, then for
every selection and buffer they give the same result and leave the same buffer.  In particular other frames, tags,
slices, user data and durations do not matter, nor does the number of the frame or of its images. -/
theorem C64_local (f g : AsepriteFile) (hs : SameSetting f g) (i j : Nat) (lf lg : LFrame)
    (hi : f.frames[i]? = some lf) (hj : g.frames[j]? = some lg)
    (hc : lf.cels.map (celFacts f) = lg.cels.map (celFacts g))
    (plat : Plat) (inflate : Inflater) (sel : LayerSelection) (t : Bytes) :
    f.renderFrame plat inflate i sel t = g.renderFrame plat inflate j sel t := by
  have hcb : canvasBytes f = canvasBytes g := by
    simp only [canvasBytes]
    rw [show f.file.header.width = g.file.header.width from congrArg Prod.fst hs.size,
      show f.file.header.height = g.file.header.height from congrArg Prod.snd hs.size]
  rw [renderFrame_eq, renderFrame_eq, hcb, hi, hj]
  by_cases ht : t.length < canvasBytes g
  · rw [if_pos ht, if_pos ht]
  · rw [if_neg ht, if_neg ht]
    dsimp only
    generalize lf.cels = cs at hc
    generalize lg.cels = ds at hc
    clear ht
    induction cs generalizing ds t with
    | nil =>
      cases ds with
      | nil => rfl
      | cons d ds => simp at hc
    | cons c cs ih =>
      cases ds with
      | nil => simp at hc
      | cons d ds =>
        simp only [List.map_cons, List.cons.injEq] at hc
        rw [forEach_cons, forEach_cons, renderCel_local hs plat inflate sel hc.1]
        rcases g.renderCel plat inflate sel d t with ⟨_ | _ | _, t'⟩
        · exact ih t' ds hc.2
        · rfl
        · rfl

-- two different files, frames with different numbers, same picture
example :
    let layers := [Sample.layer 1 0 0 255 [65], Sample.layer 1 0 0 200 [66]]
    let one := Sample.header 2 1 32 ++ Sample.frame 100 (layers ++ [Sample.cel 1 1 0 1 1 [9, 10, 11, 12]])
    let two := Sample.header 2 1 32 ++ Sample.frame 7 (layers ++ [Sample.cel 0 0 0 1 1 [1, 2, 3, 4],
      Sample.tags [Sample.tag 0 1 0 2 84]]) ++ Sample.frame 50 [Sample.cel 1 1 0 1 1 [9, 10, 11, 12]]
    (match AsepriteFile.load ⟨true, 10⟩ one, AsepriteFile.load ⟨true, 10⟩ two with
      | .ok f, .ok g => f.size == g.size && f.layers == g.layers &&
          decide (f.file.header.colorDepth = .rgba ∧ g.file.header.colorDepth = .rgba) &&
          (match f.frames[0]?, g.frames[1]? with
            | some lf, some lg => decide (lf.cels.map (celFacts f) = lg.cels.map (celFacts g)) && lf.cels.length == 1
            | _, _ => false)
      | _, _ => false) = true := by decide +kernel

/-! ## C65: appended frames -/

/-- A chunk that changes neither the layers nor the palette of the sprite. -/
def Spec.isFrameLocal : Chunk → Bool
  | .layer _ | .palette _ | .palette0004 _ | .palette0011 _ => false
  | _ => true

theorem layersOf_local {cs : List Chunk} (h : ∀ c ∈ cs, isFrameLocal c = true) : layersOf cs = [] := by
  induction cs with
  | nil => rfl
  | cons c cs ih =>
    have hc := h c List.mem_cons_self
    have ih := ih fun c hc => h c (List.mem_cons_of_mem _ hc)
    cases c <;> simp_all [layersOf, owned, isFrameLocal]

theorem palettes_local {cs ds : List Chunk} (h : ∀ c ∈ ds, isFrameLocal c = true) :
    newPalettes (cs ++ ds) = newPalettes cs ∧ oldPalettes (cs ++ ds) = oldPalettes cs := by
  have h1 : newPalettes ds = [] ∧ oldPalettes4 ds = [] ∧ oldPalettes11 ds = [] := by
    induction ds with
    | nil => exact ⟨rfl, rfl, rfl⟩
    | cons c ds ih =>
      have hc := h c List.mem_cons_self
      have ih := ih fun c hc => h c (List.mem_cons_of_mem _ hc)
      cases c <;> simp_all [newPalettes, oldPalettes4, oldPalettes11, isFrameLocal]
  have h2 : newPalettes (cs ++ ds) = newPalettes cs := by
    rw [← List.append_nil (newPalettes cs), ← h1.1]
    exact List.filterMap_append
  have h3 : oldPalettes4 (cs ++ ds) = oldPalettes4 cs := by
    rw [← List.append_nil (oldPalettes4 cs), ← h1.2.1]
    exact List.filterMap_append
  have h4 : oldPalettes11 (cs ++ ds) = oldPalettes11 cs := by
    rw [← List.append_nil (oldPalettes11 cs), ← h1.2.2]
    exact List.filterMap_append
  exact ⟨h2, by simp only [oldPalettes, h3, h4]⟩

theorem keyed_append (i : Nat) (fs gs : List Frame) : keyed i (fs ++ gs) = keyed i fs ++ keyed (i + fs.length) gs := by
  induction fs generalizing i with
  | nil => rfl
  | cons f fs ih =>
    rw [List.cons_append, keyed, keyed, ih, List.append_assoc, List.length_cons]
    congr 3
    omega

/-- Loading a file with more frames. -/
theorem ofFile_append {file file' : File} (hs : SlotsOk file) (hs' : SlotsOk file') {more : List Frame}
    (hf : file'.frames = file.frames ++ more) {f g : AsepriteFile}
    (h : AsepriteFile.ofFile file = .ok f) (h' : AsepriteFile.ofFile file' = .ok g) :
    f.images <+: g.images ∧ f.frames <+: g.frames := by
  have hk : keyed 0 file'.frames = keyed 0 file.frames ++ keyed (0 + file.frames.length) more := by
    rw [hf, keyed_append]
  constructor
  · rw [(ofFile_ok h).2.2.2.1, (ofFile_ok h').2.2.2.1, fileImages, fileImages, hk, List.map_append]
    exact List.prefix_append _ _
  · obtain ⟨hlen, hfr⟩ := frames_of_load h
    obtain ⟨hlen', hfr'⟩ := frames_of_load h'
    rw [List.prefix_iff_eq_take]
    apply List.ext_getElem?
    intro i
    rw [List.getElem?_take]
    by_cases hi : i < f.frames.length
    · rw [if_pos hi]
      have hi1 : i < file.frames.length := by omega
      have hi2 : i < g.frames.length := by rw [hlen', hf, List.length_append]; omega
      have e1 : file.frames[i]? = some file.frames[i] := List.getElem?_eq_getElem hi1
      have e1' : file'.frames[i]? = some file.frames[i] := by rw [hf, List.getElem?_append_left hi1, e1]
      have e2 : f.frames[i]? = some f.frames[i] := List.getElem?_eq_getElem hi
      have e3 : g.frames[i]? = some g.frames[i] := List.getElem?_eq_getElem hi2
      rw [e2, e3]
      obtain ⟨d1, o1, -⟩ := hfr i _ _ e1 e2
      obtain ⟨d2, o2, -⟩ := hfr' i _ _ e1' e3
      obtain ⟨l1, a1⟩ := shows_of_load hs h e1 e2
      obtain ⟨l2, a2⟩ := shows_of_load hs' h' e1' e3
      have hcels : f.frames[i].cels = g.frames[i].cels := by
        apply List.ext_getElem (by omega)
        intro n h1 h2
        have hn : n < (file.frames[i].cels.filterMap id).length := by omega
        have s1 := a1 n _ _ (List.getElem?_eq_getElem hn) (List.getElem?_eq_getElem h1)
        have s2 := a2 n _ _ (List.getElem?_eq_getElem hn) (List.getElem?_eq_getElem h2)
        obtain ⟨im, k1, z1⟩ := s1.image
        obtain ⟨im', k2, z2⟩ := s2.image
        have k0 : (keyed 0 file'.frames)[(f.frames[i].cels[n]).imageIndex]?
            = (keyed 0 file.frames)[(f.frames[i].cels[n]).imageIndex]? := by
          rw [hk, List.getElem?_append_left (List.getElem?_eq_some_iff.1 k1).1]
        have k1' := k0.trans k1
        have m1 := (map_lookup hs' _ _).2 ⟨im, k1'⟩
        have m2 := (map_lookup hs' _ _).2 ⟨im', k2⟩
        rw [m1] at m2
        have hidx := Option.some.inj m2
        have him : im = im' := by
          rw [← hidx, k1'] at k2
          simpa using k2
        have t1 := s1.origin
        have t2 := s2.origin
        have u1 := s1.layer
        have u2 := s2.layer
        generalize f.frames[i].cels[n] = fc at *
        generalize g.frames[i].cels[n] = gc at *
        cases fc
        cases gc
        simp_all
      generalize f.frames[i] = lf at *
      generalize g.frames[i] = lg at *
      cases lf
      cases lg
      simp_all
    · rw [if_neg hi, List.getElem?_eq_none (by omega)]

/-- **C65.** Appending frames that contain no layer and no palette chunks leaves the sprite as it was: same size, same
layers, the old images and frames first and unchanged, and every old frame is rendered as before.  (`b` is the old file,
`b'` the new one; the headers may differ in everything that is not size, colour depth or transparent index, so the frame
count and file size in it may be updated or not.) -/
theorem C65_appended (plat : Plat) (b b' : Bytes) (raw raw' : RawFile) (hr : parseRawFile plat b = .ok raw)
    (hr' : parseRawFile plat b' = .ok raw') (more : List RawFrame) (hm : raw'.frames = raw.frames ++ more)
    (hloc : ∀ fr ∈ more, ∀ c ∈ fr.chunks, isFrameLocal c = true)
    (hw : raw'.header.width = raw.header.width) (hh : raw'.header.height = raw.header.height)
    (hd : raw'.header.colorDepth = raw.header.colorDepth)
    (ht : raw'.header.transparentIndex = raw.header.transparentIndex)
    (f g : AsepriteFile) (hf : AsepriteFile.load plat b = .ok f) (hg : AsepriteFile.load plat b' = .ok g) :
    g.size = f.size ∧ g.layers = f.layers ∧ g.file.palette = f.file.palette ∧ f.images <+: g.images ∧
    f.frames <+: g.frames ∧ g.frames.length = f.frames.length + more.length ∧
    ∀ i, i < f.frames.length → ∀ (inflate : Inflater) (sel : LayerSelection) (t : Bytes),
      g.renderFrame plat inflate i sel t = f.renderFrame plat inflate i sel t := by
  obtain ⟨p1, o1⟩ := load_ok.1 hf
  obtain ⟨p2, o2⟩ := load_ok.1 hg
  have s1 := slotsOk_of_parse p1
  have s2 := slotsOk_of_parse p2
  rw [parseFile_eq hr] at p1
  rw [parseFile_eq hr'] at p2
  obtain ⟨pal, hp1, -, e1⟩ := (assembleFile_ok (fresh hr)).1 p1
  obtain ⟨pal', hp2, -, e2⟩ := (assembleFile_ok (fresh hr')).1 p2
  have hlay : allLayers raw'.frames = allLayers raw.frames := by
    rw [hm, allLayers, List.flatMap_append]
    have : (more.flatMap fun f => layersOf f.chunks) = [] := by
      rw [List.flatMap_eq_nil_iff]
      exact fun fr hfr => layersOf_local (hloc fr hfr)
    rw [this, List.append_nil]
    rfl
  have hpal : pal' = pal := by
    have hloc' : ∀ c ∈ allChunks more, isFrameLocal c = true := by
      intro c hc
      obtain ⟨fr, h1, h2⟩ := List.mem_flatMap.1 hc
      exact hloc fr h1 c h2
    have hall : allChunks raw'.frames = allChunks raw.frames ++ allChunks more := by
      rw [hm]
      exact List.flatMap_append
    obtain ⟨q1, q2⟩ := palettes_local (cs := allChunks raw.frames) hloc'
    rw [filePalette_eq] at hp1 hp2
    have q3 : paletteWrites (allChunks raw'.frames) = paletteWrites (allChunks raw.frames) := by
      simp only [paletteWrites, hall, q1, q2]
    have q4 : paletteProblem (allChunks raw'.frames) = paletteProblem (allChunks raw.frames) := by
      simp only [paletteProblem, q3]
      simp only [hall, q1, q2]
    rw [hd, ht, q3, q4, hp1] at hp2
    cases hp2
    rfl
  have hframes : g.file.frames = f.file.frames ++
      more.map fun fr => ⟨fr.duration, slots (allLayers raw.frames).length (celsOf fr.chunks)⟩ := by
    rw [e1, e2]
    dsimp only
    rw [hlay, hm, List.map_append]
  obtain ⟨hi, hfr⟩ := ofFile_append s1 s2 hframes o1 o2
  have hsz : g.size = f.size := by
    simp only [AsepriteFile.size, e1, e2, hw, hh]
  have hl : g.layers = f.layers := by
    rw [(ofFile_ok o1).2.1, (ofFile_ok o2).2.1, e1, e2, hlay]
  have hpl : g.file.palette = f.file.palette := by rw [e1, e2, hpal]
  refine ⟨hsz, hl, hpl, hi, hfr, ?_, ?_⟩
  · rw [(frames_of_load o1).1, (frames_of_load o2).1, hframes, List.length_append, List.length_map]
  · intro i hlt inflate sel t
    have a1 : f.frames[i]? = some f.frames[i] := List.getElem?_eq_getElem hlt
    have a2 : g.frames[i]? = some f.frames[i] := by
      obtain ⟨rest, hrest⟩ := hfr
      rw [← hrest, List.getElem?_append_left hlt, a1]
    refine C64_local g f ⟨hsz, by rw [e1, e2, hd], fun _ => hpl, hl⟩ i i _ _ a2 a1 ?_ plat inflate sel t
    apply List.map_congr_left
    intro c hc
    obtain ⟨im, him, -⟩ := celsOk_of_load hf a1 c hc
    obtain ⟨rest, hrest⟩ := hi
    simp only [celFacts]
    rw [← hrest, List.getElem?_append_left (List.getElem?_eq_some_iff.1 him).1]

/-- The conditions are met by a file and the same file with a frame more that links to the first frame and has an image
of its own. -/
example :
    let old := Sample.header 2 1 32 ++ Sample.frame 100 [Sample.layer 1 0 0 255 [65], Sample.layer 1 0 0 200 [66],
      Sample.cel 1 1 0 1 1 [9, 10, 11, 12]]
    let new := old ++ Sample.frame 50 [Sample.link 1 0, Sample.cel 0 1 0 1 1 [1, 2, 3, 4]]
    (match parseRawFile ⟨true, 10⟩ old, parseRawFile ⟨true, 10⟩ new with
      | .ok r, .ok r' => r'.frames.length == 2 && r.frames.length == 1 &&
          (r'.frames.drop 1).all fun fr => fr.chunks.all isFrameLocal
      | _, _ => false) = true ∧
    (match AsepriteFile.load ⟨true, 10⟩ old, AsepriteFile.load ⟨true, 10⟩ new with
      | .ok f, .ok g => f.images.length == 1 && g.images.length == 2 && f.frames.length == 1 && g.frames.length == 2
      | _, _ => false) = true := by decide +kernel

/-! ## C67: tag ranges -/

/-- **C67, as far as it is true.** The range of every tag of a loaded sprite is not empty: its end is not before its
start.  Missing: that it ends within the sprite (see `C67_beyond_the_last_frame`). -/
theorem C67_ranges_partial (plat : Plat) (b : Bytes) (f : AsepriteFile) (h : AsepriteFile.load plat b = .ok f) :
    ∀ t ∈ f.tags, t.rangeStart ≤ t.rangeEnd := by
  obtain ⟨h1, h2⟩ := load_ok.1 h
  intro t ht
  rw [(ofFile_ok h2).2.2.1] at ht
  obtain ⟨tag, hm, rfl⟩ := List.mem_map.1 ht
  exact UInt16.le_iff_toNat_le.2 (C13_file_tags plat b f.file h1 tag hm)

/-- A file of one frame with a tag that ends behind the last frame and a tag that starts behind it. -/
def Sample.farTags : Bytes :=
  Sample.header 1 1 32 ++ Sample.frame 100 [Sample.tags [Sample.tag 0 5 0 0 84, Sample.tag 3 4 0 0 85]]

/-- A tag may reach beyond the last frame, or lie behind it completely, without being rejected. -/
theorem C67_beyond_the_last_frame : ∃ f, AsepriteFile.load ⟨true, 0⟩ Sample.farTags = .ok f ∧
    f.frames.length = 1 ∧ f.tags.map (fun t => (t.rangeStart, t.rangeEnd)) = [(0, 5), (3, 4)] := by
  have h : (match AsepriteFile.load ⟨true, 0⟩ Sample.farTags with
      | .ok f => decide (f.frames.length = 1 ∧ f.tags.map (fun t => (t.rangeStart, t.rangeEnd)) = [(0, 5), (3, 4)])
      | _ => false) = true := by decide +kernel
  split at h
  · next f hf => exact ⟨f, hf, of_decide_eq_true h⟩
  · cases h

end Ase
