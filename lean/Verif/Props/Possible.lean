import Verif.Lemmas.Possible

/-!
# C129: which sprites can be loaded

`Spec.Possible` lists what every loaded sprite satisfies.  The list is complete: whatever satisfies it, and is not too
large for a file, is what some file is loaded as.
-/

namespace Ase
open Spec

/-! ## Every loaded sprite -/

theorem layer_read {plat : Plat} {b : Bytes} {f : AsepriteFile} (h : AsepriteFile.load plat b = .ok f) :
    ∀ l ∈ f.layers, (l.layerType = .normal ∨ l.layerType = .group) ∧ ModeRead l.blendMode ∧ FitsStr l.name := by
  obtain ⟨h1, h2⟩ := C29_layers plat b f h
  obtain ⟨raw, hraw, ha⟩ := parseFile_ok.1 h1
  obtain ⟨p, -, -, e⟩ := (assembleFile_ok (fresh hraw)).1 ha
  intro l hl
  rw [h2, List.mem_map] at hl
  obtain ⟨c, hc, rfl⟩ := hl
  obtain ⟨hc, hd⟩ := List.mem_filter.1 hc
  refine ⟨by simpa [isDrawn, asLayer] using hd, ?_⟩
  rw [e] at hc
  obtain ⟨fr, hfr, hc⟩ := List.mem_flatMap.1 hc
  obtain ⟨⟨ch, us⟩, hm, hc⟩ := List.mem_filterMap.1 hc
  cases ch with
  | layer x =>
    cases hc
    obtain ⟨_, _, _, -, ⟨-, _, _, hx, -⟩, -⟩ := chunk_of_parse hraw hfr (mem_of_owned hm)
    obtain ⟨_, _, _, _, w, _, _, -, hn, -, -, hb, -, -, -⟩ := hx
    exact ⟨(modeRead_iff _).2 ⟨w, hb⟩, hn⟩
  | _ => cases hc

theorem tag_read {plat : Plat} {b : Bytes} {f : AsepriteFile} (h : AsepriteFile.load plat b = .ok f) :
    ∀ t ∈ f.tags, t.rangeStart ≤ t.rangeEnd ∧ t.repeats ≠ some 0 ∧ DirectionRead t.direction ∧ FitsStr t.name := by
  obtain ⟨h1, h2⟩ := load_ok.1 h
  obtain ⟨raw, hraw, ha⟩ := parseFile_ok.1 h1
  obtain ⟨p, -, -, e⟩ := (assembleFile_ok (fresh hraw)).1 ha
  intro t ht
  refine ⟨C67_ranges_partial plat b f h t ht, ?_⟩
  rw [(ofFile_ok h2).2.2.1, List.mem_map] at ht
  obtain ⟨x, hx, rfl⟩ := ht
  constructor
  · simp only [toLTag]
    split
    · rename_i hp
      intro h0
      rw [Option.some.inj h0] at hp
      exact absurd hp (by decide)
    · nofun
  rw [e] at hx
  obtain ⟨fr, hfr, hx⟩ := List.mem_flatMap.1 hx
  obtain ⟨⟨ch, us⟩, hm, hx⟩ := List.mem_flatMap.1 hx
  cases ch with
  | tags y =>
    simp only [List.mem_mapIdx] at hx
    obtain ⟨i, hi, rfl⟩ := hx
    obtain ⟨_, _, _, -, ⟨-, _, _, ⟨_, _, -, -, hs, -⟩, -⟩, -⟩ := chunk_of_parse hraw hfr (mem_of_owned hm)
    obtain ⟨_, ⟨w, _, _, -, hn, -, hd, -, -⟩, -⟩ := seq_mem hs (List.getElem_mem hi)
    exact ⟨(directionRead_iff _).2 ⟨w, hd⟩, hn⟩
  | _ => cases hx

/-- **C129.** What every loaded sprite satisfies. -/
theorem C129_possible (plat : Plat) (b : Bytes) (f : AsepriteFile) (h : AsepriteFile.load plat b = .ok f) :
    Possible (spriteOf f) := by
  obtain ⟨h1, h2⟩ := load_ok.1 h
  have hs := slotsOk_of_parse h1
  obtain ⟨-, -, -, him, -⟩ := ofFile_ok h2
  have href := C31_references plat b f h
  refine ⟨?_, ?_, ?_, layer_read h, tag_read h, ?_, (C30_frames_and_tags plat b f h).2.1,
    fun fr hfr => (href fr hfr).2, ?_, fun fr hfr c hc => ((href fr hfr).1 c hc).2, ?_⟩
  · obtain ⟨raw, hraw, ha⟩ := parseFile_ok.1 h1
    obtain ⟨p, -, -, e⟩ := (assembleFile_ok (fresh hraw)).1 ha
    obtain ⟨_, _, ⟨w, _, _, -, -, hw, -⟩, -, -, -⟩ := parseRawFile_ok.1 hraw
    rw [depth_read]
    show FitsColorDepth f.file.header.colorDepth
    rw [e]
    show FitsColorDepth raw.header.colorDepth
    rw [hw]
    exact colorDepth_read w
  · intro hi
    obtain ⟨raw, hraw, ha⟩ := parseFile_ok.1 h1
    obtain ⟨p, hp, -, e⟩ := (assembleFile_ok (fresh hraw)).1 ha
    have hh : f.file.header = raw.header := by rw [e]
    obtain ⟨q, hq, hlen, hcol⟩ := (C21_palette plat b raw hraw (by rw [← hh]; exact hi)).1 _ h1
    have := hcol _ raw.header.transparentIndex.toNat_lt
    rw [if_pos rfl] at this
    exact ⟨q, _, hq, hlen, by rw [show (spriteOf f).transparent = raw.header.transparentIndex from congrArg Header.transparentIndex hh]; exact this, rfl⟩
  · intro hi
    have := C22_palette_iff_indexed plat b _ h1
    cases hpal : f.file.palette with
    | none => exact hpal
    | some q => exact absurd (this.1 (by rw [hpal]; rfl)) hi
  · intro h0
    obtain ⟨raw, hraw, ha⟩ := parseFile_ok.1 h1
    obtain ⟨p, -, -, e⟩ := (assembleFile_ok (fresh hraw)).1 ha
    obtain ⟨-, -, -, hne, -, -⟩ := parseRawFile_ok.1 hraw
    have hl := (frames_of_load h2).1
    rw [show f.frames = [] from h0, e] at hl
    exact hne (List.length_eq_zero_iff.1 (by simpa using hl.symm))
  · intro fr hfr c hc
    obtain ⟨i, hi⟩ := List.mem_iff_getElem?.1 hfr
    obtain ⟨x, hx⟩ := shows_of_mem hs h2 hi hc
    rw [hx.layer]
    exact x.layerIndex.toNat_lt
  · refine ⟨(keyed 0 f.file.frames).map (·.1), ?_, ?_, ?_, ?_⟩
    · show _ = f.images.length
      rw [him, fileImages, List.length_map, List.length_map]
    · rw [List.pairwise_map]
      exact keyed_sorted _ _ hs.index
    · intro k i l hk
      rw [List.getElem?_map, Option.map_eq_some_iff] at hk
      obtain ⟨⟨_, im⟩, hk, rfl⟩ := hk
      have hat := (mem_keyed_file hs).1 (List.mem_of_getElem? hk)
      obtain ⟨c, hc, hown⟩ := Option.bind_eq_some_iff.1 hat
      obtain ⟨hl, lf, fc, hlf, hfc, hsh⟩ := shown_of_cel hs h2 hc
      refine ⟨lf, fc, hlf, hfc, hsh.layer.trans hl, ?_⟩
      obtain ⟨im', h3, -⟩ := hsh.image
      have hsrc : sourceFrame i c = i := by
        unfold ownImage at hown
        unfold sourceFrame
        cases hcon : c.content <;> rw [hcon] at hown <;> first | rfl | cases hown
      rw [hsrc, hl] at h3
      have a := (map_lookup hs (i, l) k).2 ⟨im, hk⟩
      have b := (map_lookup hs (i, l) fc.imageIndex).2 ⟨im', h3⟩
      rw [a] at b
      exact (Option.some.inj b).symm
    · intro i fr c hfr hc
      obtain ⟨x, hx⟩ := shows_of_mem hs h2 hfr hc
      obtain ⟨im, h3, -⟩ := hx.image
      refine ⟨sourceFrame i x, by rw [List.getElem?_map, h3, hx.layer]; rfl, ?_⟩
      unfold sourceFrame
      split
      · exact .inr (UInt16.toNat_lt _)
      · exact .inl rfl

/-! ## A file for every such sprite -/

/-- A layer. -/
def layerFor (l : LLayer) : LayerChunk :=
  { flags := ⟨if l.visible then 1 else 0⟩, layerType := l.layerType, childLevel := 0, blendMode := l.blendMode,
    opacity := l.opacity, name := l.name, tilesetIndex := none, userData := none }

/-- A tilemap layer: `layers()` does not show it. -/
def unseenLayer : LayerChunk :=
  { flags := ⟨0⟩, layerType := .tilemap, childLevel := 0, blendMode := .normal, opacity := 0, name := "",
    tilesetIndex := some 0, userData := none }

/-- A tag. -/
def tagFor (t : LTag) : Tag :=
  { framesStart := t.rangeStart, framesEnd := t.rangeEnd, animationDirection := t.direction,
    animationRepeat := t.repeats.getD 0, color := (0, 0, 0), name := t.name, userData := none }

/-- A cel of frame `i`: it stores its image if it is at home there, and links to the image's home otherwise. -/
def celFor (s : Sprite) (home : List (Nat × Nat)) (i : Nat) (c : FrameCel) : CelChunk :=
  { layerIndex := UInt16.ofNat c.layerIndex, x := c.origin.1, y := c.origin.2, opacity := 255, zIndex := 0,
    content :=
      match home[c.imageIndex]?, s.images[c.imageIndex]? with
      | some p, some im => if p.1 = i then .image im else .linkedCel (UInt16.ofNat p.1)
      | _, _ => .linkedCel 0,
    userData := none }

/-- The palette, the layers and the tags. -/
def headFor (s : Sprite) : List Chunk :=
  s.palette.toList.map (fun p => .palette (paletteFor p)) ++ s.layers.map (fun l => .layer (layerFor l)) ++ List.replicate (2 ^ 16) (.layer unseenLayer)
    ++ s.tags.map (fun t => .tags ⟨[tagFor t]⟩)

/-- A frame. -/
def frameFor (s : Sprite) (home : List (Nat × Nat)) (p : LFrame × Nat) : RawFrame :=
  ⟨p.1.duration, (if p.2 = 0 then headFor s else []) ++ p.1.cels.map fun c => .cel (celFor s home p.2 c)⟩

/-- The file. -/
def rawFor (s : Sprite) (home : List (Nat × Nat)) : RawFile where
  header := { fileSize := 0, frames := 0, width := s.size.1, height := s.size.2, colorDepth := s.depth, flags := 1,
              speed := 0, transparentIndex := s.transparent, colorCount := 0, pixelWidth := 1, pixelHeight := 1, gridX := 0,
              gridY := 0, gridWidth := 0, gridHeight := 0 }
  frames := s.frames.zipIdx.map (frameFor s home)

section
variable {s : Sprite} {home : List (Nat × Nat)}

theorem rawFor_cons {fr : LFrame} {frs : List LFrame} (h : s.frames = fr :: frs) :
    (rawFor s home).frames = frameFor s home (fr, 0) :: (frs.zipIdx 1).map (frameFor s home) := by
  simp [rawFor, h]

theorem frameFor_later {p : LFrame × Nat} (h : p.2 ≠ 0) :
    (frameFor s home p).chunks = p.1.cels.map fun c => .cel (celFor s home p.2 c) := by
  simp [frameFor, h]

theorem frameFor_plain (p : LFrame × Nat) : ∀ c ∈ (frameFor s home p).chunks, ∀ u, c ≠ .userData u := by
  intro c hc u
  simp only [frameFor, List.mem_append, List.mem_map] at hc
  rcases hc with hc | ⟨_, -, rfl⟩
  · split at hc
    · simp only [headFor, List.mem_append, List.mem_map, List.mem_replicate] at hc
      rcases hc with ((⟨_, -, rfl⟩ | ⟨_, -, rfl⟩) | ⟨-, rfl⟩) | ⟨_, -, rfl⟩ <;> nofun
    · cases hc
  · nofun

/-- A cel chunk, without user data. -/
def celOnly : Chunk → Option CelChunk
  | .cel c => some { c with userData := none }
  | _ => none

/-- A layer chunk, without user data. -/
def layerOnly : Chunk → Option LayerChunk
  | .layer c => some { c with userData := none }
  | _ => none

theorem celsOf_plain {cs : List Chunk} (h : ∀ c ∈ cs, ∀ u, c ≠ .userData u) : celsOf cs = cs.filterMap celOnly := by
  rw [celsOf, owned_plain h, List.filterMap_map]
  congr 1
  funext c
  cases c <;> rfl

theorem layersOf_plain {cs : List Chunk} (h : ∀ c ∈ cs, ∀ u, c ≠ .userData u) : layersOf cs = cs.filterMap layerOnly := by
  rw [layersOf, owned_plain h, List.filterMap_map]
  congr 1
  funext c
  cases c <;> rfl

theorem celsOf_frameFor (p : LFrame × Nat) : celsOf (frameFor s home p).chunks = p.1.cels.map (celFor s home p.2) := by
  rw [celsOf_plain (frameFor_plain p)]
  simp only [frameFor, List.filterMap_append, List.filterMap_map]
  have : ((if p.2 = 0 then headFor s else []) : List Chunk).filterMap celOnly = [] := by
    rw [List.filterMap_eq_nil_iff]
    intro c hc
    split at hc
    · simp only [headFor, List.mem_append, List.mem_map, List.mem_replicate] at hc
      rcases hc with ((⟨_, -, rfl⟩ | ⟨_, -, rfl⟩) | ⟨-, rfl⟩) | ⟨_, -, rfl⟩ <;> rfl
    · cases hc
  rw [this, List.nil_append, ← List.filterMap_eq_map]
  rfl

theorem layersOf_frameFor (p : LFrame × Nat) : layersOf (frameFor s home p).chunks =
    if p.2 = 0 then s.layers.map layerFor ++ List.replicate (2 ^ 16) unseenLayer else [] := by
  rw [layersOf_plain (frameFor_plain p)]
  simp only [frameFor, List.filterMap_append]
  have nil : (p.1.cels.map fun c => Chunk.cel (celFor s home p.2 c)).filterMap layerOnly = [] := by
    rw [List.filterMap_eq_nil_iff]
    simp [layerOnly]
  have nil' : (s.tags.map fun t => Chunk.tags ⟨[tagFor t]⟩).filterMap layerOnly = [] := by
    rw [List.filterMap_eq_nil_iff]
    simp [layerOnly]
  have nil'' : (s.palette.toList.map fun p => Chunk.palette (paletteFor p)).filterMap layerOnly = [] := by
    rw [List.filterMap_eq_nil_iff]
    simp [layerOnly]
  rw [nil, List.append_nil]
  split
  · rw [headFor, List.filterMap_append, List.filterMap_append, List.filterMap_append, nil', nil'', List.append_nil,
      List.nil_append, List.filterMap_map, ← List.filterMap_eq_map, List.filterMap_replicate]
    rfl
  · rfl

theorem tagsOf_frameFor (p : LFrame × Nat) : tagsOf (frameFor s home p).chunks =
    if p.2 = 0 then s.tags.map tagFor else [] := by
  rw [tagsOf, owned_plain (frameFor_plain p), List.flatMap_map]
  simp only [frameFor, List.flatMap_append]
  rw [show (p.1.cels.map fun c => Chunk.cel (celFor s home p.2 c)).flatMap _ = [] from
    List.flatMap_eq_nil_iff.2 (by simp), List.append_nil]
  split
  · rw [headFor, List.flatMap_append, List.flatMap_append, List.flatMap_append]
    rw [show (s.palette.toList.map fun p => Chunk.palette (paletteFor p)).flatMap _ = [] from
      List.flatMap_eq_nil_iff.2 (by simp), show (s.layers.map fun l => Chunk.layer (layerFor l)).flatMap _ = [] from List.flatMap_eq_nil_iff.2 (by simp),
      show (List.replicate (2 ^ 16) (Chunk.layer unseenLayer)).flatMap _ = [] from
        List.flatMap_eq_nil_iff.2 (by intro x hx; rw [List.eq_of_mem_replicate hx])]
    simp only [List.nil_append, List.flatMap_map]
    rw [List.map_eq_flatMap]
    rfl
  · rfl

/-- Only the first frame contributes. -/
theorem flatMap_first {β : Type} (g : LFrame × Nat → List β) (x : List β) (h0 : ∀ p : LFrame × Nat, g p = if p.2 = 0 then x else [])
    (hne : s.frames ≠ []) : s.frames.zipIdx.flatMap g = x := by
  obtain ⟨fr, frs, h⟩ := List.exists_cons_of_ne_nil hne
  rw [h, List.zipIdx_cons, List.flatMap_cons, h0, if_pos rfl,
    show ((frs.zipIdx (0 + 1)).flatMap g) = [] from List.flatMap_eq_nil_iff.2 (by
      rintro ⟨q, n⟩ hq
      rw [h0, if_neg]
      have := List.le_snd_of_mem_zipIdx hq
      simp at this ⊢
      omega), List.append_nil]

theorem allLayers_rawFor (hne : s.frames ≠ []) :
    allLayers (rawFor s home).frames = s.layers.map layerFor ++ List.replicate (2 ^ 16) unseenLayer := by
  rw [allLayers, rawFor, List.flatMap_map]
  exact flatMap_first _ _ (fun p => layersOf_frameFor p) hne

theorem tags_rawFor (hne : s.frames ≠ []) :
    (rawFor s home).frames.flatMap (tagsOf ·.chunks) = s.tags.map tagFor := by
  rw [rawFor, List.flatMap_map]
  exact flatMap_first _ _ (fun p => tagsOf_frameFor p) hne

theorem newPalettes_frameFor (p : LFrame × Nat) : newPalettes (frameFor s home p).chunks =
    if p.2 = 0 then s.palette.toList.map paletteFor else [] := by
  simp only [newPalettes, frameFor, List.filterMap_append]
  rw [show (p.1.cels.map fun c => Chunk.cel (celFor s home p.2 c)).filterMap _ = [] from
    List.filterMap_eq_nil_iff.2 (by simp), List.append_nil]
  split
  · rw [headFor, List.filterMap_append, List.filterMap_append, List.filterMap_append]
    rw [show (s.layers.map fun l => Chunk.layer (layerFor l)).filterMap _ = [] from List.filterMap_eq_nil_iff.2 (by simp),
      show (List.replicate (2 ^ 16) (Chunk.layer unseenLayer)).filterMap _ = [] from
        List.filterMap_eq_nil_iff.2 (by intro x hx; rw [List.eq_of_mem_replicate hx]),
      show (s.tags.map fun t => Chunk.tags ⟨[tagFor t]⟩).filterMap _ = [] from List.filterMap_eq_nil_iff.2 (by simp)]
    cases s.palette <;> rfl
  · rfl

theorem newPalettes_rawFor (hne : s.frames ≠ []) :
    newPalettes (allChunks (rawFor s home).frames) = s.palette.toList.map paletteFor := by
  rw [newPalettes, allChunks, List.filterMap_flatMap, rawFor, List.flatMap_map]
  exact flatMap_first _ _ (fun p => newPalettes_frameFor p) hne

theorem filePalette_rawFor (hp : Possible s) : filePalette (rawFor s home) = .ok s.palette := by
  rw [filePalette_eq]
  show (if s.depth = .indexed then _ else _) = _
  split
  · rename_i hi
    obtain ⟨p, c, h1, h2, h3, h4⟩ := hp.palette hi
    have hnew := newPalettes_rawFor (home := home) hp.frames
    rw [h1] at hnew
    simp only [Option.toList_some, List.map_cons, List.map_nil] at hnew
    have hw : paletteWrites (allChunks (rawFor s home).frames) = newWrites (paletteFor p) := by
      unfold paletteWrites
      rw [if_pos (by rw [hnew]; simp), hnew, List.flatMap_singleton]
    have hne : newWrites (paletteFor p) ≠ [] := by
      rw [newWrites_paletteFor h2]
      intro h0
      have := congrArg List.length h0
      simp [writesAt, h2] at this
    have : paletteProblem (allChunks (rawFor s home).frames) = none := by
      unfold paletteProblem
      rw [if_neg (by rw [hnew]; simp), if_neg (by rw [hnew]; simp), if_neg (by rw [hw]; exact hne)]
    rw [this, hw]
    dsimp only
    rw [h1]
    exact congrArg (fun x => Outcome.ok (some x)) (paletteOf_paletteFor h2 h3 h4)
  · rename_i hi
    rw [hp.noPalette hi]

/-! ### The file can be written -/

theorem content_paletteFor {U : UserDataChunk → Bytes → Prop} {p : Palette} (h : p.colors.length = 256) :
    ∃ code body, IsContent U (.palette (paletteFor p)) code body ∧ 6 + body.length ≤ chunkRoom (.palette (paletteFor p)) := by
  have hlen : (paletteFor p).entries.length = 256 := by simp [paletteFor, h]
  have hb : ∀ es : List PaletteEntry, (∀ e ∈ es, e.name = none) → (es.flatMap paletteEntryBytes).length = 6 * es.length := by
    intro es
    induction es with
    | nil => intro _; rfl
    | cons e es ih =>
      intro h
      have h1 := h e (by simp)
      rw [List.flatMap_cons, List.length_append, ih fun x hx => h x (by simp [hx]), List.length_cons, paletteEntryBytes, h1]
      simp [le16, leBytes, color]
      omega
  refine ⟨0x2019, _, ⟨rfl, _, [], isPalette_bytes ⟨by rw [hlen]; decide, by show 0 ≤ 255; omega, ?_⟩, rfl⟩, ?_⟩
  · simp [paletteFor]
  · have := hb (paletteFor p).entries (by simp [paletteFor])
    simp only [chunkRoom, paletteBytes, List.length_append, this, hlen, List.length_nil]
    simp [leNat32, leBytes, zeros]

theorem content_layerFor {U : UserDataChunk → Bytes → Prop} {l : LLayer}
    (h : (l.layerType = .normal ∨ l.layerType = .group) ∧ ModeRead l.blendMode ∧ FitsStr l.name) :
    ∃ code body, IsContent U (.layer (layerFor l)) code body ∧ 6 + body.length ≤ chunkRoom (.layer (layerFor l)) := by
  obtain ⟨ht, hm, hn⟩ := h
  obtain ⟨w, hw⟩ := (modeRead_iff _).1 hm
  have ⟨t, ht1, ht2⟩ : ∃ t : UInt16, l.layerType = layerTypeOf t ∧ t ≠ 2 := by
    rcases ht with ht | ht
    · exact ⟨0, by rw [ht]; rfl, by decide⟩
    · exact ⟨1, by rw [ht]; rfl, by decide⟩
  refine ⟨0x2004, _, ⟨rfl, _, [], ⟨if l.visible then 1 else 0, t, 0, 0, w, [0, 0, 0], [], rfl, hn, ?_, ht1, hw,
    ⟨by simp [ht2], rfl⟩, rfl, rfl⟩, rfl⟩, ?_⟩
  · simp only [layerFor]
    split <;> rfl
  · simp [layerFor, chunkRoom, le16, leBytes, str, leNat16]
    omega

theorem content_unseen {U : UserDataChunk → Bytes → Prop} :
    ∃ code body, IsContent U (.layer unseenLayer) code body ∧ 6 + body.length ≤ chunkRoom (.layer unseenLayer) := by
  refine ⟨0x2004, _, ⟨rfl, _, [], isLayer_bytes ?_, rfl⟩, by decide +kernel⟩
  exact ⟨by decide, trivial, trivial, by decide +kernel, by decide, rfl⟩

theorem content_tagFor {U : UserDataChunk → Bytes → Prop} {t : LTag}
    (h : t.rangeStart ≤ t.rangeEnd ∧ t.repeats ≠ some 0 ∧ DirectionRead t.direction ∧ FitsStr t.name) :
    ∃ code body, IsContent U (.tags ⟨[tagFor t]⟩) code body ∧ 6 + body.length ≤ chunkRoom (.tags ⟨[tagFor t]⟩) := by
  obtain ⟨h1, -, h3, h4⟩ := h
  obtain ⟨w, hw⟩ := (directionRead_iff _).1 h3
  refine ⟨0x2018, _, ⟨rfl, _, [], ⟨zeros 8, _, rfl, by simp, .cons ⟨w, 0, zeros 6, rfl, h4,
    UInt16.le_iff_toNat_le.1 h1, hw, rfl, rfl⟩ .nil, rfl⟩, rfl⟩, ?_⟩
  simp [tagFor, chunkRoom, le16, leBytes, str, leNat16, zeros]
  omega

theorem content_celFor {U : UserDataChunk → Bytes → Prop} (i : Nat) (c : FrameCel) :
    ∃ code body, IsContent U (.cel (celFor s home i c)) code body ∧
      6 + body.length ≤ chunkRoom (.cel (celFor s home i c)) := by
  have hne : ∀ t d, (celFor s home i c).content ≠ .unknown t d := by
    intro t d
    simp only [celFor]
    split
    · split <;> nofun
    · nofun
  have hsw : swapFlips (celFor s home i c).content = (celFor s home i c).content := by
    simp only [celFor]
    split
    · split <;> rfl
    · rfl
  refine ⟨0x2005, celBytes (celFor s home i c), ⟨rfl, ?_⟩, ?_⟩
  · rw [hsw]
    exact isCel_bytes ⟨fun t d h => absurd h (hne t d), rfl⟩
  · simp only [celFor, chunkRoom, celBytes, ownImage]
    split
    · split
      · simp [celContentBytes, le16, les16, leBytes, zeros]; omega
      · simp [celContentBytes, le16, les16, leBytes, zeros]
    · simp [celContentBytes, le16, les16, leBytes, zeros]

theorem room_celFor (i : Nat) (c : FrameCel) :
    chunkRoom (.cel (celFor s home i c)) ≤ 64 + dataLength s c.imageIndex := by
  simp only [celFor, chunkRoom, ownImage, dataLength]
  cases home[c.imageIndex]? with
  | none => simp
  | some p =>
    cases s.images[c.imageIndex]? with
    | none => simp
    | some im =>
      by_cases h : p.1 = i <;> simp [h]

theorem content_frameFor (hp : Possible s) {U : UserDataChunk → Bytes → Prop} (p : LFrame × Nat) :
    ∀ c ∈ (frameFor s home p).chunks, ∃ code body, IsContent U c code body ∧ 6 + body.length ≤ chunkRoom c := by
  intro c hc
  simp only [frameFor, List.mem_append, List.mem_map] at hc
  rcases hc with hc | ⟨x, -, rfl⟩
  · split at hc
    · simp only [headFor, List.mem_append, List.mem_map, List.mem_replicate] at hc
      rcases hc with ((⟨q, hq, rfl⟩ | ⟨l, hl, rfl⟩) | ⟨-, rfl⟩) | ⟨t, ht, rfl⟩
      · refine content_paletteFor ?_
        by_cases hi : s.depth = .indexed
        · obtain ⟨q', -, h1, h2, -⟩ := hp.palette hi
          rw [h1] at hq
          simp only [Option.toList_some, List.mem_singleton] at hq
          rw [hq]
          exact h2
        · rw [hp.noPalette hi] at hq
          cases hq
      · exact content_layerFor (hp.layers l hl)
      · exact content_unseen
      · exact content_tagFor (hp.tags t ht)
    · cases hc
  · exact content_celFor _ x

theorem sum_map_le {α : Type} {xs : List α} {g k : α → Nat} (h : ∀ x ∈ xs, g x ≤ k x) : (xs.map g).sum ≤ (xs.map k).sum := by
  induction xs with
  | nil => simp
  | cons x xs ih =>
    have h1 := h x (by simp)
    have h2 := ih fun y hy => h y (by simp [hy])
    simp only [List.map_cons, List.sum_cons]
    omega

theorem room_frameFor (hp : Possible s) (hs : Small s) {p : LFrame × Nat} (h : p.1 ∈ s.frames) :
    16 + ((frameFor s home p).chunks.map chunkRoom).sum < 2 ^ 32 := by
  have h1 := hs p.1 h
  have h2 : ((p.1.cels.map fun c => Chunk.cel (celFor s home p.2 c)).map chunkRoom).sum ≤
      (p.1.cels.map fun c => 64 + dataLength s c.imageIndex).sum := by
    rw [List.map_map]
    exact sum_map_le fun c _ => room_celFor p.2 c
  have h5 : ((s.palette.toList.map fun p => Chunk.palette (paletteFor p)).map chunkRoom).sum ≤ 2 ^ 15 := by
    by_cases hi : s.depth = .indexed
    · obtain ⟨q', -, h1, h2, -⟩ := hp.palette hi
      rw [h1]
      simp [chunkRoom, paletteFor, h2]
    · rw [hp.noPalette hi]
      simp
  have h3 : ((headFor s).map chunkRoom).sum ≤ 2 ^ 15 + (s.layers.map fun l => 64 + (utf8 l.name).length).sum + 2 ^ 22
      + (s.tags.map fun t => 64 + (utf8 t.name).length).sum := by
    have e1 : ((s.layers.map fun l => Chunk.layer (layerFor l)).map chunkRoom).sum =
        (s.layers.map fun l => 64 + (utf8 l.name).length).sum := by rw [List.map_map]; rfl
    have e2 : ((s.tags.map fun t => Chunk.tags ⟨[tagFor t]⟩).map chunkRoom).sum =
        (s.tags.map fun t => 64 + (utf8 t.name).length).sum := by rw [List.map_map]; rfl
    have e3 : ((List.replicate (2 ^ 16) (Chunk.layer unseenLayer)).map chunkRoom).sum = 2 ^ 22 := by
      rw [List.map_replicate, List.sum_replicate_nat]
      rfl
    simp only [headFor, List.map_append, List.sum_append, e1, e2, e3]
    omega
  have h4 : (((if p.2 = 0 then headFor s else []) : List Chunk).map chunkRoom).sum ≤ ((headFor s).map chunkRoom).sum := by
    split
    · exact Nat.le_refl _
    · simp
  simp only [frameFor, List.map_append, List.sum_append]
  omega

/-- A file that is read as wanted. -/
theorem rawFor_written (plat : Plat) (hp : Possible s) (hs : Small s) :
    ∃ b, parseRawFile plat b = .ok (rawFor s home) := by
  obtain ⟨l, hl⟩ := write_seq (G := IsFrame (readsUserData plat)) (xs := (rawFor s home).frames) (by
    intro fr hfr
    obtain ⟨q, hq, rfl⟩ := List.mem_map.1 hfr
    exact write_frame (content_frameFor hp q) (room_frameFor hp hs (List.fst_mem_of_mem_zipIdx hq)))
  refine ⟨_, parseRawFile_ok.2 ⟨headerBytes (rawFor s home).header, l, isHeader_bytes (depth_read.1 hp.depth), ?_, hl, rfl⟩⟩
  simpa [rawFor] using hp.frames

/-! ### And it is loaded as wanted -/

theorem ofNat_index (hp : Possible s) {i : Nat} {fr : LFrame} (hfr : s.frames[i]? = some fr) {c : FrameCel}
    (hc : c ∈ fr.cels) : (celFor s home i c).layerIndex.toNat = c.layerIndex := by
  have := hp.layerIndex fr (List.mem_of_getElem? hfr) c hc
  show (UInt16.ofNat c.layerIndex).toNat = _
  rw [UInt16.toNat_ofNat_of_lt' this]

theorem cels_filterMap (hp : Possible s) {i : Nat} {fr : LFrame} (hfr : s.frames[i]? = some fr) {n : Nat}
    (hn : 2 ^ 16 ≤ n) : (slots n (fr.cels.map (celFor s home i))).filterMap id = fr.cels.map (celFor s home i) := by
  apply slots_filterMap
  · have h1 := hp.sorted fr (List.mem_of_getElem? hfr)
    rw [List.pairwise_map] at h1 ⊢
    rw [List.pairwise_iff_getElem] at h1 ⊢
    intro a b ha hb hab
    rw [ofNat_index hp hfr (List.getElem_mem ha), ofNat_index hp hfr (List.getElem_mem hb)]
    exact h1 a b ha hb hab
  · intro c hc
    have := c.layerIndex.toNat_lt
    omega

/-- The parsed file. -/
def fileFor (s : Sprite) (home : List (Nat × Nat)) : File where
  header := (rawFor s home).header
  palette := s.palette
  layers := allLayers (rawFor s home).frames
  frames := (rawFor s home).frames.map fun f => ⟨f.duration, slots (allLayers (rawFor s home).frames).length (celsOf f.chunks)⟩
  tags := (rawFor s home).frames.flatMap (tagsOf ·.chunks)
  slices := (rawFor s home).frames.flatMap (slicesOf ·.chunks)
  userData := (rawFor s home).frames.head?.bind (spriteUserData ·.chunks)

theorem fileFor_parsed (hp : Possible s) {plat : Plat} {b : Bytes} (h : parseRawFile plat b = .ok (rawFor s home)) :
    parseFile plat b = .ok (fileFor s home) := by
  refine parseFile_ok.2 ⟨_, h, (assembleFile_ok (fresh h)).2 ⟨s.palette, filePalette_rawFor hp, ?_, rfl⟩⟩
  · intro c _
    rw [allLayers_rawFor hp.frames, List.length_append, List.length_replicate]
    have := c.layerIndex.toNat_lt
    omega

theorem fileFor_frame (hp : Possible s) {i : Nat} {fr : LFrame} (hfr : s.frames[i]? = some fr) :
    ∃ g, (fileFor s home).frames[i]? = some g ∧ g.duration = fr.duration ∧
      g.cels.filterMap id = fr.cels.map (celFor s home i) := by
  refine ⟨⟨fr.duration, slots (allLayers (rawFor s home).frames).length (celsOf (frameFor s home (fr, i)).chunks)⟩,
    ?_, rfl, ?_⟩
  · simp only [fileFor]
    rw [List.getElem?_map, show (rawFor s home).frames = s.frames.zipIdx.map (frameFor s home) from rfl,
      List.getElem?_map, List.getElem?_zipIdx, hfr]
    simp [frameFor]
  · rw [celsOf_frameFor]
    refine cels_filterMap hp hfr ?_
    rw [allLayers_rawFor hp.frames, List.length_append, List.length_replicate]
    omega

theorem fileFor_celAt (hp : Possible s) (hs : SlotsOk (fileFor s home)) {i l : Nat} {x : CelChunk} :
    celAt (fileFor s home) i l = some x ↔
      ∃ fr c, s.frames[i]? = some fr ∧ c ∈ fr.cels ∧ c.layerIndex = l ∧ x = celFor s home i c := by
  constructor
  · intro h
    obtain ⟨g, hg, hx⟩ := celAt_eq.1 h
    have hl := hs.index g (List.mem_of_getElem? hg) l x hx
    have hi : i < s.frames.length := by
      have := (List.getElem?_eq_some_iff.1 hg).1
      simpa [fileFor, rawFor] using this
    obtain ⟨g', hg', -, hc⟩ := fileFor_frame (home := home) hp (List.getElem?_eq_getElem hi)
    rw [hg] at hg'
    cases hg'
    have := mem_filterMap_id.2 (List.mem_of_getElem? hx)
    rw [hc, List.mem_map] at this
    obtain ⟨c, hc, rfl⟩ := this
    exact ⟨_, c, List.getElem?_eq_getElem hi, hc, (ofNat_index hp (List.getElem?_eq_getElem hi) hc).symm.trans hl, rfl⟩
  · rintro ⟨fr, c, hfr, hc, rfl, rfl⟩
    obtain ⟨g, hg, -, he⟩ := fileFor_frame (home := home) hp hfr
    have := (mem_cels_iff hs hg).1 (by rw [he]; exact List.mem_map_of_mem hc)
    rw [ofNat_index hp hfr hc] at this
    exact this

theorem content_of_home (hn : Numbered s home) {i : Nat} {fr : LFrame} (hfr : s.frames[i]? = some fr) {c : FrameCel}
    (hc : c ∈ fr.cels) : ∃ j im, home[c.imageIndex]? = some (j, c.layerIndex) ∧ s.images[c.imageIndex]? = some im ∧
      (j = i ∨ j < 2 ^ 16) ∧ (celFor s home i c).content = if j = i then .image im else .linkedCel (UInt16.ofNat j) := by
  obtain ⟨j, hj, hlt⟩ := hn.shown i fr c hfr hc
  have hk : c.imageIndex < s.images.length := by
    rw [← hn.count]
    exact (List.getElem?_eq_some_iff.1 hj).1
  refine ⟨j, s.images[c.imageIndex], hj, List.getElem?_eq_getElem hk, hlt, ?_⟩
  simp only [celFor, hj, List.getElem?_eq_getElem hk]

theorem source_of_home (hn : Numbered s home) {i : Nat} {fr : LFrame} (hfr : s.frames[i]? = some fr) {c : FrameCel}
    (hc : c ∈ fr.cels) : home[c.imageIndex]? = some (sourceFrame i (celFor s home i c), c.layerIndex) := by
  obtain ⟨j, im, h1, -, hlt, h3⟩ := content_of_home hn hfr hc
  rw [h1, sourceFrame, h3]
  by_cases hj : j = i
  · rw [if_pos hj, hj]
  · rw [if_neg hj]
    dsimp only
    rw [UInt16.toNat_ofNat_of_lt' (hlt.resolve_left hj)]

theorem fileFor_imageAt (hp : Possible s) (hn : Numbered s home) (hs : SlotsOk (fileFor s home)) {i l : Nat} {im : Image} :
    imageAt (fileFor s home) i l = some im ↔ ∃ k : Nat, home[k]? = some (i, l) ∧ s.images[k]? = some im := by
  rw [imageAt, Option.bind_eq_some_iff]
  constructor
  · rintro ⟨x, hx, hown⟩
    obtain ⟨fr, c, hfr, hc, rfl, rfl⟩ := (fileFor_celAt hp hs).1 hx
    obtain ⟨j, im', h1, h2, -, h3⟩ := content_of_home hn hfr hc
    rw [ownImage, h3] at hown
    by_cases hj : j = i
    · rw [if_pos hj] at hown
      cases hown
      exact ⟨_, by rw [h1, hj], h2⟩
    · rw [if_neg hj] at hown
      cases hown
  · rintro ⟨k, hk, him⟩
    obtain ⟨fr, c, hfr, hc, rfl, rfl⟩ := hn.stored k i l hk
    refine ⟨_, (fileFor_celAt hp hs).2 ⟨fr, c, hfr, hc, rfl, rfl⟩, ?_⟩
    obtain ⟨j, im', h1, h2, -, h3⟩ := content_of_home hn hfr hc
    rw [hk] at h1
    cases h1
    rw [him] at h2
    cases h2
    rw [ownImage, h3, if_pos rfl]

theorem fileFor_keyed (hp : Possible s) (hn : Numbered s home) (hs : SlotsOk (fileFor s home)) :
    keyed 0 (fileFor s home).frames = home.zip s.images := by
  refine sorted_unique (R := fun a b => Earlier a.1 b.1) (fun _ => earlier_irrefl _)
    (fun _ _ _ => earlier_trans _ _ _) (keyed_sorted _ _ hs.index) ?_ ?_
  · rw [List.pairwise_iff_getElem]
    intro a b ha hb hab
    rw [List.getElem_zip, List.getElem_zip]
    exact List.pairwise_iff_getElem.1 hn.ascending a b _ _ hab
  · rintro ⟨⟨i, l⟩, im⟩
    rw [mem_keyed_file hs, fileFor_imageAt hp hn hs, List.mem_iff_getElem?]
    simp only [List.getElem?_zip_eq_some]

/-- The layers, as `layers()` shows them. -/
theorem layers_back (hp : Possible s) : (allLayers (rawFor s home).frames).filterMap toLLayer = s.layers := by
  rw [allLayers_rawFor hp.frames, List.filterMap_append, List.filterMap_replicate, List.filterMap_map]
  have h0 : ∀ l ∈ s.layers, toLLayer (layerFor l) = some l := by
    intro l hl
    have := (hp.layers l hl).1
    unfold toLLayer
    rw [if_pos (show (layerFor l).layerType = .normal ∨ (layerFor l).layerType = .group from this)]
    have hv : ∀ v : Bool, (LayerFlags.mk (if v then 1 else 0)).contains LayerFlags.VISIBLE = v := by decide
    simp only [layerFor, hv]
  have h1 : ∀ ls : List LLayer, (∀ l ∈ ls, toLLayer (layerFor l) = some l) → ls.filterMap (toLLayer ∘ layerFor) = ls := by
    intro ls
    induction ls with
    | nil => intro _; rfl
    | cons l ls ih =>
      intro h
      rw [List.filterMap_cons_some (f := toLLayer ∘ layerFor) (h l (by simp)), ih fun x hx => h x (by simp [hx])]
  rw [h1 _ h0]
  show s.layers ++ [] = s.layers
  rw [List.append_nil]

theorem tags_back (hp : Possible s) : ((rawFor s home).frames.flatMap (tagsOf ·.chunks)).map toLTag = s.tags := by
  rw [tags_rawFor hp.frames, List.map_map]
  have : s.tags.map (toLTag ∘ tagFor) = s.tags.map id := by
    apply List.map_congr_left
    intro t ht
    have h0 := (hp.tags t ht).2.1
    cases t with
    | mk name a b d r =>
      cases r with
      | none => rfl
      | some r =>
        have hr : r > 0 := by
          rw [gt_iff_lt, UInt16.lt_iff_toNat_lt]
          rcases Nat.eq_zero_or_pos r.toNat with h | h
          · exact absurd (congrArg some (UInt16.toNat_inj.1 h)) h0
          · exact h
        simp [toLTag, tagFor, hr]
  rw [this, List.map_id]

end

/-- **C129.** The list is complete: every sprite with these properties is what some file is loaded as, unless it is too
large. -/
theorem C129_every (plat : Plat) (s : Sprite) (hp : Possible s) (hsmall : Small s) :
    ∃ b f, AsepriteFile.load plat b = .ok f ∧ spriteOf f = s := by
  obtain ⟨home, hn⟩ := hp.numbered
  obtain ⟨b, hb⟩ := rawFor_written (home := home) plat hp hsmall
  have hfile := fileFor_parsed hp hb
  have hs := slotsOk_of_parse hfile
  obtain ⟨f, hf⟩ := (ofFile_exists hs).2 (by
    intro i l x hx
    obtain ⟨fr, c, hfr, hc, rfl, rfl⟩ := (fileFor_celAt hp hs).1 hx
    obtain ⟨j, im, h1, h2, hlt, h3⟩ := content_of_home hn hfr hc
    rw [Resolvable, h3]
    by_cases hj : j = i
    · rw [if_pos hj]
      trivial
    · rw [if_neg hj]
      dsimp only
      rw [UInt16.toNat_ofNat_of_lt' (hlt.resolve_left hj), (fileFor_imageAt hp hn hs).2 ⟨_, h1, h2⟩]
      rfl)
  obtain ⟨e1, e2, e3, e4, -⟩ := ofFile_ok hf
  refine ⟨b, f, load_ok.2 ⟨by rw [e1]; exact hfile, by rw [e1]; exact hf⟩, ?_⟩
  have himg : f.images = s.images := by
    rw [e4, fileImages, fileFor_keyed hp hn hs, List.map_snd_zip (by rw [hn.count]; omega)]
  have hframes : f.frames = s.frames := by
    have hlen : f.frames.length = s.frames.length := by
      rw [(frames_of_load hf).1]
      simp [fileFor, rawFor]
    apply List.ext_getElem hlen
    intro i hi hi'
    have hlf := List.getElem?_eq_getElem hi
    have hfr := List.getElem?_eq_getElem hi'
    obtain ⟨g, hg, hd, hc⟩ := fileFor_frame (home := home) hp hfr
    obtain ⟨h1, h2, -⟩ := (frames_of_load hf).2 i g _ hg hlf
    obtain ⟨h3, h4⟩ := shows_of_load hs hf hg hlf
    have hcels : f.frames[i].cels = s.frames[i].cels := by
      rw [hc, List.length_map] at h3
      apply List.ext_getElem h3
      intro n hn1 hn2
      have hmem := List.getElem_mem hn2
      have := h4 n _ _ (by rw [hc, List.getElem?_map, List.getElem?_eq_getElem hn2]; rfl) (List.getElem?_eq_getElem hn1)
      obtain ⟨-, -, ho, hl, im, hk, hsz⟩ := this
      rw [ofNat_index hp hfr hmem] at hl hk
      rw [fileFor_keyed hp hn hs, List.getElem?_zip_eq_some] at hk
      have hidx := ascending_inj hn.ascending hk.1 (source_of_home hn hfr hmem)
      obtain ⟨im', h5, h6⟩ := hp.size _ (List.getElem_mem hi') _ hmem
      have h7 := hk.2
      rw [hidx, h5] at h7
      cases h7
      generalize f.frames[i].cels[n] = x at *
      generalize s.frames[i].cels[n] = y at *
      cases x
      cases y
      simp only at ho hl hsz hidx h6
      subst hl hidx
      rw [ho, hsz, h6]
      rfl
    have horigin := hp.origin _ (List.getElem_mem hi')
    rw [hd] at h1
    generalize f.frames[i] = x at *
    generalize s.frames[i] = y at *
    cases x
    cases y
    simp only at h1 h2 hcels horigin
    rw [h1, h2, hcels, horigin]
  have hlayers : f.layers = s.layers := by rw [e2]; exact layers_back hp
  have htags : f.tags = s.tags := by rw [e3]; exact tags_back hp
  have hsize : f.size = s.size := by
    show (f.file.header.width, f.file.header.height) = s.size
    rw [e1]
    rfl
  have hh : f.file.header = (rawFor s home).header := by rw [e1]; rfl
  have hpal : f.file.palette = s.palette := by rw [e1]; rfl
  simp only [spriteOf, himg, hframes, hlayers, htags, hsize, hh, hpal]
  rfl

/-- **C129.** So these are exactly the sprites that can be loaded. -/
theorem C129_exactly (plat : Plat) (s : Sprite) (hsmall : Small s) :
    (∃ b f, AsepriteFile.load plat b = .ok f ∧ spriteOf f = s) ↔ Possible s := by
  constructor
  · rintro ⟨b, f, h, rfl⟩
    exact C129_possible plat b f h
  · intro hp
    exact C129_every plat s hp hsmall

/-! ## Examples -/

/-- 256 greys, the fourth of them transparent. -/
def Sample.greyPalette256 : Palette :=
  ⟨(List.range 256).map fun i => ⟨UInt8.ofNat i, UInt8.ofNat i, UInt8.ofNat i, if i = 3 then 0 else 255⟩⟩

/-- A group and a hidden layer in it, two frames: the first one shows an image that is stored in the second one. -/
def Sample.linkedSprite : Sprite where
  size := (2, 1)
  depth := .indexed
  transparent := 3
  palette := some Sample.greyPalette256
  layers := [⟨"G", 255, .normal, true, .group⟩, ⟨"A", 200, .unknown 0, false, .normal⟩]
  frames := [⟨100, (0, 0), [⟨(5, -3), (1, 1), 1, 1⟩, ⟨(0, 0), (2, 1), 7, 0⟩]⟩, ⟨50, (0, 0), [⟨(0, 0), (1, 1), 1, 1⟩]⟩]
  tags := [⟨"T", 3, 9, .pingPong, some 2⟩, ⟨"U", 0, 0, .unknown 200, none⟩]
  images := [⟨2, 1, [1, 2, 3, 4, 5, 6, 7, 8], false⟩, ⟨1, 1, [], true⟩]

theorem Sample.linkedSprite_possible : Possible Sample.linkedSprite := by
  refine ⟨by simp [linkedSprite], fun _ => ⟨Sample.greyPalette256, ⟨3, 3, 3, 0⟩, rfl, by decide +kernel, by decide +kernel, rfl⟩, by simp [linkedSprite], ?_, ?_,
    by simp [linkedSprite], by decide +kernel, by decide +kernel, by decide +kernel, ?_, [(0, 7), (1, 1)], ?_⟩
  · intro l hl
    simp only [linkedSprite, List.mem_cons, List.not_mem_nil, or_false] at hl
    rcases hl with rfl | rfl
    · exact ⟨.inr rfl, trivial, by decide +kernel⟩
    · exact ⟨.inl rfl, .inl rfl, by decide +kernel⟩
  · intro t ht
    simp only [linkedSprite, List.mem_cons, List.not_mem_nil, or_false] at ht
    rcases ht with rfl | rfl
    · exact ⟨by decide, by decide, trivial, by decide +kernel⟩
    · exact ⟨by decide, by decide, .inr (by decide), by decide +kernel⟩
  · intro fr hfr c hc
    simp only [linkedSprite, List.mem_cons, List.not_mem_nil, or_false] at hfr
    rcases hfr with rfl | rfl <;> simp only [List.mem_cons, List.not_mem_nil, or_false] at hc
    · rcases hc with rfl | rfl
      · exact ⟨_, rfl, rfl⟩
      · exact ⟨_, rfl, rfl⟩
    · subst hc
      exact ⟨_, rfl, rfl⟩
  · refine ⟨rfl, by simp [Earlier], ?_, ?_⟩
    · intro k i l hk
      match k, hk with
      | 0, hk => cases hk; exact ⟨_, _, rfl, .tail _ (.head _), rfl, rfl⟩
      | 1, hk => cases hk; exact ⟨_, _, rfl, .head _, rfl, rfl⟩
      | k + 2, hk => simp at hk
    · intro i fr c hfr hc
      match i, hfr with
      | 0, hfr =>
        cases hfr
        simp only [List.mem_cons, List.not_mem_nil, or_false] at hc
        rcases hc with rfl | rfl
        · exact ⟨1, rfl, .inr (by decide)⟩
        · exact ⟨0, rfl, .inl rfl⟩
      | 1, hfr =>
        cases hfr
        simp only [List.mem_cons, List.not_mem_nil, or_false] at hc
        subst hc
        exact ⟨1, rfl, .inl rfl⟩
      | i + 2, hfr => simp [linkedSprite] at hfr

example : ∃ b f, AsepriteFile.load ⟨true, 0⟩ b = .ok f ∧ spriteOf f = Sample.linkedSprite :=
  C129_every _ _ Sample.linkedSprite_possible
  (show ∀ fr ∈ Sample.linkedSprite.frames, _ by decide +kernel)

-- images that are not numbered from the bottom layer: no file gives that
example (b : Bytes) (f : AsepriteFile) (h : AsepriteFile.load ⟨true, 0⟩ b = .ok f) :
    f.frames.map (·.cels.map fun c => (c.layerIndex, c.imageIndex)) ≠ [[(0, 1), (1, 0)]] := by
  intro he
  obtain ⟨home, hn⟩ := (C129_possible _ b f h).numbered
  obtain ⟨fr, frs, hf⟩ := List.exists_cons_of_ne_nil (show f.frames ≠ [] by rintro h0; simp [h0] at he)
  rw [hf, List.map_cons, List.cons.injEq, List.map_eq_nil_iff] at he
  obtain ⟨he, rfl⟩ := he
  obtain ⟨c, cs, hc⟩ := List.exists_cons_of_ne_nil (show fr.cels ≠ [] by rintro h0; simp [h0] at he)
  rw [hc, List.map_cons, List.cons.injEq, Prod.mk.injEq] at he
  obtain ⟨⟨hc1, hc2⟩, he⟩ := he
  obtain ⟨d, ds, hd⟩ := List.exists_cons_of_ne_nil (show cs ≠ [] by rintro h0; simp [h0] at he)
  rw [hd, List.map_cons, List.cons.injEq, Prod.mk.injEq] at he
  obtain ⟨⟨hd1, hd2⟩, -⟩ := he
  have hfr : (spriteOf f).frames[0]? = some fr := by simp [spriteOf, hf]
  obtain ⟨i, hi, -⟩ := hn.shown 0 fr c hfr (by simp [hc])
  obtain ⟨j, hj, -⟩ := hn.shown 0 fr d hfr (by simp [hc, hd])
  have hs : ∀ (k i l : Nat), home[k]? = some (i, l) → i = 0 := by
    intro k i l hk
    obtain ⟨fr', -, h1, -⟩ := hn.stored k i l hk
    have := (List.getElem?_eq_some_iff.1 h1).1
    simp only [spriteOf, hf, List.length_cons, List.length_nil] at this
    omega
  have hi0 := hs _ _ _ hi
  have hj0 := hs _ _ _ hj
  rw [hc1, hc2] at hi
  rw [hd1, hd2] at hj
  obtain ⟨h1, e1⟩ := List.getElem?_eq_some_iff.1 hi
  obtain ⟨h0, e0⟩ := List.getElem?_eq_some_iff.1 hj
  have := List.pairwise_iff_getElem.1 hn.ascending 0 1 h0 h1 (by omega)
  rw [e0, e1] at this
  simp only [Earlier] at this
  omega

end Ase
