import Verif.Lemmas.Panics

/-!
# C11–C15, C18: every chunk parser accepts exactly its documented layout

The layouts (`Spec.IsLayer`, ...) are in `Verif/Spec/Chunks.lean`.
-/

namespace Ase

open Spec

/-- **C11.** `parse_layer_chunk` accepts exactly the layer layout, returns its fields and leaves what follows; it
never panics.  The tileset index is present exactly for tilemap layers (type 2). -/
theorem C11_layer (b : Bytes) :
    (∀ (r : Bytes) (c : LayerChunk), parseLayerChunk b = .ok (r, c) ↔ ∃ l, IsLayer c l ∧ b = l ++ r) ∧
    (∀ (r : Bytes) (c : LayerChunk), parseLayerChunk b = .ok (r, c) →
      (c.tilesetIndex.isSome ↔ c.layerType = .tilemap)) ∧
    (∀ k, parseLayerChunk b ≠ .panic k) := by
  refine ⟨fun r c => parses_layer b r c, ?_, fun k => NoPanic.parseLayerChunk b k⟩
  intro r c h
  obtain ⟨l, ⟨flags, type, dw, dh, blend, fut, ts, _, _, _, hty, _, hopt, _, _⟩, _⟩ := (parses_layer b r c).1 h
  rw [hty, layerTypeOf_tilemap]
  unfold Opt at hopt
  split at hopt
  · next y e => simp [e, hopt.1]
  · next e => simp [e, hopt.1]

/-- A visible tilemap layer "Hi" with tileset 5, blend mode multiply and opacity 200; one byte follows. -/
example : (match parseLayerChunk [1, 0, 2, 0, 3, 0, 0, 0, 0, 0, 1, 0, 200, 0, 0, 0, 2, 0, 72, 105, 5, 0, 0, 0, 99] with
    | .ok (r, c) => r == [99] && c.flags.bits == 1 && c.layerType == .tilemap && c.childLevel == 3 &&
        c.blendMode == .multiply && c.opacity == 200 && c.name == "Hi" && c.tilesetIndex == some 5
    | _ => false) = true := by decide +kernel

/-- **C12 (partial).** `parse_cel_chunk` accepts exactly the cel layouts, up to one deviation: the X and Y flip masks
of a compressed tilemap are exchanged (`swapFlips`).  For every other kind of cel, in particular image and linked cels,
the decoding is exact.  The whole chunk belongs to the cel: nothing is left, and it never panics.
*Missing:* the documented order of the two flip masks of tilemaps, see `C12_tilemap_flips_swapped`. -/
theorem C12_cel_partial (b : Bytes) :
    (∀ (r : Bytes) (c : CelChunk), parseCelChunk b = .ok (r, c) ↔
      r = [] ∧ IsCel { c with content := swapFlips c.content } b) ∧
    (∀ (r : Bytes) (c : CelChunk),
      (∀ w h bits id x y d data, c.content ≠ .compressedTilemap w h bits id x y d data) →
      (parseCelChunk b = .ok (r, c) ↔ r = [] ∧ IsCel c b)) ∧
    (∀ k, parseCelChunk b ≠ .panic k) := by
  refine ⟨fun r c => parseCelChunk_ok, ?_, fun k => NoPanic.parseCelChunk b k⟩
  intro r c hc
  have : swapFlips c.content = c.content := by
    cases h : c.content with
    | compressedTilemap w h' bits id x y d data => exact absurd h (hc _ _ _ _ _ _ _ _)
    | _ => rfl
  rw [parseCelChunk_ok, this]

/-- A raw 1x1 image cel on layer 2 at (-1, 3) with z-index -2. -/
example : (match parseCelChunk ([2, 0, 255, 255, 3, 0, 128, 0, 0, 254, 255] ++ [0, 0, 0, 0, 0] ++ [1, 0, 1, 0, 9, 8, 7, 6]) with
    | .ok (r, c) => r == [] && c.layerIndex == 2 && c.x == -1 && c.y == 3 && c.opacity == 128 && c.zIndex == -2 &&
        c.content == .image ⟨1, 1, [9, 8, 7, 6], false⟩
    | _ => false) = true := by decide +kernel

/-- The full statement of C12 is false: the documented encoding of a tilemap cel with X flip mask `0x20000000` and
Y flip mask `0x40000000` is decoded with the two masks exchanged. -/
theorem C12_tilemap_flips_swapped : ∃ (b : Bytes) (c : CelChunk), IsCel c b ∧ parseCelChunk b ≠ .ok ([], c) ∧
    ∃ c', parseCelChunk b = .ok ([], c') ∧
      c.content = .compressedTilemap 1 1 32 0x1fffffff 0x20000000 0x40000000 0x80000000 [] ∧
      c'.content = .compressedTilemap 1 1 32 0x1fffffff 0x40000000 0x20000000 0x80000000 [] := by
  refine ⟨_, ⟨0, 0, 0, 255, 0, .compressedTilemap 1 1 32 0x1fffffff 0x20000000 0x40000000 0x80000000 [], none⟩,
    ⟨3, List.replicate 5 0, _, rfl, ⟨rfl, List.replicate 10 0, rfl, rfl⟩, rfl, rfl⟩, ?_, ?_⟩
  · rw [Ne, parseCelChunk_ok]
    rintro ⟨_, type, future, body, hf, hb, _, he⟩
    replace hb : IsCelBody type (.compressedTilemap 1 1 32 0x1fffffff 0x40000000 0x20000000 0x80000000 []) body := hb
    obtain ⟨rfl, res, hres, rfl⟩ := hb
    have := congrArg (fun l => (l.drop 26).take 4) he
    revert this
    match future, hf with
    | [f0, f1, f2, f3, f4], _ =>
      intro h
      have h2 := (congrArg (fun l => l[3]?) h)
      revert h2
      simp [le16, le32, les16, leBytes]
  · exact ⟨⟨0, 0, 0, 255, 0, .compressedTilemap 1 1 32 0x1fffffff 0x40000000 0x20000000 0x80000000 [], none⟩,
      parseCelChunk_ok.2 ⟨rfl, 3, List.replicate 5 0, _, rfl, ⟨rfl, List.replicate 10 0, rfl, rfl⟩, rfl, rfl⟩, rfl, rfl⟩

/-- **C13** (chunk level; for whole files see `C13_file_tags`). `parse_tags_chunk` accepts exactly the tags layout
(in particular every tag has `from ≤ to`) and never panics; a tag with an inverted range is a non-recoverable
`InvalidFrameRange` error. -/
theorem C13_tags (b : Bytes) :
    (∀ (r : Bytes) (c : TagsChunk), parseTagsChunk b = .ok (r, c) ↔ ∃ l, IsTags c l ∧ b = l ++ r) ∧
    (∀ (r : Bytes) (c : TagsChunk), parseTagsChunk b = .ok (r, c) →
      ∀ t ∈ c.tags, t.framesStart.toNat ≤ t.framesEnd.toNat) ∧
    (∀ (a z : UInt16) (rest : Bytes), z.toNat < a.toNat → b = le16 a ++ le16 z ++ rest →
      parseTag b = .err (.failure (.invalidFrameRange a z))) ∧
    (∀ k, parseTagsChunk b ≠ .panic k) := by
  refine ⟨fun r c => parses_tags b r c, ?_, ?_, fun k => NoPanic.parseTagsChunk b k⟩
  · intro r c h
    obtain ⟨l, ⟨_, _, _, _, hseq, _⟩, _⟩ := (parses_tags b r c).1 h
    exact seq_forall hseq fun t l ht => by obtain ⟨_, _, _, _, _, hle, _⟩ := ht; exact hle
  · rintro a z rest haz rfl
    unfold parseTag
    rw [P.bind_of_ok (word_ok.2 (List.append_assoc _ _ _)), P.bind_of_ok (word_ok.2 rfl),
      if_pos (UInt16.lt_iff_toNat_lt.2 haz)]
    rfl

/-- One tag "a", frames 1..=2, ping-pong, repeat 3. -/
example : (match parseTagsChunk ([1, 0] ++ List.replicate 8 0 ++ [1, 0, 2, 0, 2, 3, 0] ++ List.replicate 6 0
      ++ [10, 20, 30, 0] ++ [1, 0, 97] ++ [5]) with
    | .ok (r, c) => r == [5] && c.tags.length == 1 && c.tags.all fun t => t.framesStart == 1 && t.framesEnd == 2 &&
        t.animationDirection == .pingPong && t.animationRepeat == 3 && t.color == (10, 20, 30) && t.name == "a"
    | _ => false) = true := by decide +kernel

/-- **C14 (partial), new palette chunks.** `parse_palette_chunk` accepts exactly the palette layout in which the first
field ("palette size") is the number of stored entries, returns the entries in order, and never panics.
*Missing:* the format document stores `last - first + 1` entries whatever the palette size; see
`C14_palette_size_misread`. -/
theorem C14_palette_partial (b : Bytes) :
    (∀ (r : Bytes) (c : PaletteChunk), parsePaletteChunk b = .ok (r, c) ↔
      ∃ l, IsPalette c.entries.length c l ∧ b = l ++ r) ∧
    (∀ k, parsePaletteChunk b ≠ .panic k) :=
  ⟨fun r c => parses_palette b r c, fun k => NoPanic.parsePaletteChunk b k⟩

/-- Two entries, the second one named, for indices 3..=4. -/
example : parsePaletteChunk ([2, 0, 0, 0, 3, 0, 0, 0, 4, 0, 0, 0] ++ List.replicate 8 0 ++ [0, 0, 1, 2, 3, 4]
    ++ [1, 0, 5, 6, 7, 8, 1, 0, 97]) = .ok ([], ⟨3, 4, [⟨⟨1, 2, 3, 4⟩, none⟩, ⟨⟨5, 6, 7, 8⟩, some "a"⟩]⟩) := by
  decide +kernel

/-- The full statement of C14 is false for new palette chunks: a well-formed chunk that changes one colour
(index 0) of a palette of size 4 is rejected. -/
theorem C14_palette_size_misread : ∃ (b : Bytes) (c : PaletteChunk),
    IsPalette 4 c b ∧ c.entries.length = c.lastIndex.toNat - c.firstIndex.toNat + 1 ∧
    ∀ r c', parsePaletteChunk b ≠ .ok (r, c') := by
  refine ⟨_, ⟨0, 0, [⟨⟨1, 2, 3, 4⟩, none⟩]⟩, ⟨List.replicate 8 0, _, rfl, by decide, by decide,
    .cons ⟨0, [], ⟨by simp [bit16], rfl⟩, rfl⟩ .nil, rfl⟩, rfl, ?_⟩
  intro r c' h
  have hd : ∀ v, parsePaletteChunk (leNat32 4 ++ leNat32 0 ++ leNat32 0 ++ List.replicate 8 0
      ++ ((le16 0 ++ color ⟨1, 2, 3, 4⟩ ++ []) ++ [])) ≠ .ok v := by
    intro v
    have : (match parsePaletteChunk (leNat32 4 ++ leNat32 0 ++ leNat32 0 ++ List.replicate 8 0
      ++ ((le16 0 ++ color ⟨1, 2, 3, 4⟩ ++ []) ++ [])) with | .ok _ => false | _ => true) = true := by decide +kernel
    intro h
    rw [h] at this
    cases this
  exact hd _ h

/-- **C14, old palette chunks** (0x0004 and 0x0011): exactly the documented layout, a packet colour count of 0 meaning
256; never a panic. -/
theorem C14_oldPalette (b : Bytes) :
    (∀ (r : Bytes) (c : OldPaletteChunk), parseOldPaletteChunk b = .ok (r, c) ↔ ∃ l, IsOldPalette c l ∧ b = l ++ r) ∧
    (∀ k, parseOldPaletteChunk b ≠ .panic k) :=
  ⟨fun r c => parses_oldPalette b r c, fun k => NoPanic.parseOldPaletteChunk b k⟩

/-- Two packets. -/
example : parseOldPaletteChunk [2, 0, 7, 1, 1, 2, 3, 0, 2, 4, 5, 6, 7, 8, 9]
    = .ok ([], ⟨[⟨7, [⟨1, 2, 3⟩]⟩, ⟨0, [⟨4, 5, 6⟩, ⟨7, 8, 9⟩]⟩]⟩) := by decide +kernel

/-- A count of 0 means 256 colours. -/
example : parseOldPaletteChunk ([1, 0, 0, 0] ++ List.replicate 768 5)
    = .ok ([], ⟨[⟨0, List.replicate 256 ⟨5, 5, 5⟩⟩]⟩) := by decide +kernel

/-- **C15.** `parse_slice_chunk` accepts exactly the slice layout; each key carries a nine-patch exactly when bit 0 of
the slice's flags is set and a pivot exactly when bit 1 is; never a panic. -/
theorem C15_slice (b : Bytes) :
    (∀ (r : Bytes) (c : SliceChunk), parseSliceChunk b = .ok (r, c) ↔ ∃ l, IsSlice c l ∧ b = l ++ r) ∧
    (∀ (r : Bytes) (c : SliceChunk), parseSliceChunk b = .ok (r, c) → ∀ k ∈ c.sliceKeys,
      (k.ninePatch.isSome ↔ bit32 c.flags.bits 0) ∧ (k.pivot.isSome ↔ bit32 c.flags.bits 1)) ∧
    (∀ k, parseSliceChunk b ≠ .panic k) := by
  refine ⟨fun r c => parses_slice b r c, ?_, fun k => NoPanic.parseSliceChunk b k⟩
  intro r c h
  obtain ⟨l, ⟨flags, res, keys, _, _, hfl, _, hseq, _⟩, _⟩ := (parses_slice b r c).1 h
  have h0 : bit32 c.flags.bits 0 ↔ bit32 flags 0 := by
    rw [hfl]; unfold bit32; rw [UInt32.toNat_and, Nat.testBit_and, show (3 : UInt32).toNat.testBit 0 = true from rfl]; simp
  have h1 : bit32 c.flags.bits 1 ↔ bit32 flags 1 := by
    rw [hfl]; unfold bit32; rw [UInt32.toNat_and, Nat.testBit_and, show (3 : UInt32).toNat.testBit 1 = true from rfl]; simp
  rw [h0, h1]
  have opt : ∀ {α : Type} {q : Prop} {G : α → Bytes → Prop} {x : Option α} {l : Bytes}, Opt q G x l → (x.isSome ↔ q) := by
    intro α q G x l h
    cases x with
    | some => simp only [Opt] at h; simp [h.1]
    | none => simp only [Opt] at h; simp [h.1]
  exact seq_forall hseq fun k l hk => by
    obtain ⟨_, _, h0, h1, _⟩ := hk
    exact ⟨opt h0, opt h1⟩

/-- One key with a pivot and no nine-patch. -/
example : (match parseSliceChunk ([1, 0, 0, 0, 2, 0, 0, 0, 0, 0, 0, 0, 1, 0, 115] ++ [1, 0, 0, 0, 255, 255, 255, 255,
      2, 0, 0, 0, 3, 0, 0, 0, 4, 0, 0, 0] ++ [5, 0, 0, 0, 6, 0, 0, 0]) with
    | .ok (r, c) => r == [] && c.name == "s" && c.flags.bits == 2 &&
        c.sliceKeys == [⟨1, -1, 2, 3, 4, none, some ⟨5, 6⟩⟩]
    | _ => false) = true := by decide +kernel

/-- **C18.** Colour profile, external files, mask, tileset and cel extra chunks are accepted exactly on their
documented layouts with their fields unchanged, and never panic.  (Mask and cel extra chunks extend to the end of
the chunk.) -/
theorem C18_auxiliary (b : Bytes) :
    (∀ (r : Bytes) (c : ColorProfileChunk), parseColorProfile b = .ok (r, c) ↔ ∃ l, IsColorProfile c l ∧ b = l ++ r) ∧
    (∀ (r : Bytes) (c : ExternalFilesChunk), parseExternalFilesChunk b = .ok (r, c) ↔
      ∃ l, IsExternalFiles c l ∧ b = l ++ r) ∧
    (∀ (r : Bytes) (c : MaskChunk), parseMaskChunk b = .ok (r, c) ↔ r = [] ∧ IsMask c b) ∧
    (∀ (r : Bytes) (c : TilesetChunk), parseTilesetChunk b = .ok (r, c) ↔ ∃ l, IsTileset c l ∧ b = l ++ r) ∧
    (∀ (r : Bytes) (c : CelExtraChunk), parseCelExtraChunk b = .ok (r, c) ↔ r = [] ∧ IsCelExtra c b) ∧
    (∀ k, parseColorProfile b ≠ .panic k ∧ parseExternalFilesChunk b ≠ .panic k ∧ parseMaskChunk b ≠ .panic k ∧
      parseTilesetChunk b ≠ .panic k ∧ parseCelExtraChunk b ≠ .panic k) :=
  ⟨fun r c => parses_colorProfile b r c, fun r c => parses_externalFiles b r c, fun _ _ => parseMaskChunk_ok,
    fun r c => parses_tileset b r c, fun _ _ => parseCelExtraChunk_ok,
    fun k => ⟨NoPanic.parseColorProfile b k, NoPanic.parseExternalFilesChunk b k, NoPanic.parseMaskChunk b k,
      NoPanic.parseTilesetChunk b k, NoPanic.parseCelExtraChunk b k⟩⟩

/-- An embedded ICC profile with fixed gamma; a mask; a tileset with tile data. -/
example : parseColorProfile ([2, 0, 1, 0, 0, 0, 1, 0] ++ List.replicate 8 0 ++ [2, 0, 0, 0, 7, 8, 9])
      = .ok ([9], ⟨some ⟨1, 0⟩, .embeddedICC [7, 8]⟩) ∧
    parseMaskChunk ([255, 255, 2, 0, 3, 0, 4, 0] ++ List.replicate 8 0 ++ [1, 0, 109, 1, 2, 3])
      = .ok ([], ⟨-1, 2, 3, 4, "m", [1, 2, 3]⟩) ∧
    parseTilesetChunk ([1, 0, 0, 0, 2, 0, 0, 0, 3, 0, 0, 0, 4, 0, 5, 0, 1, 0] ++ List.replicate 14 0 ++ [1, 0, 116]
      ++ [2, 0, 0, 0, 10, 11]) = .ok ([], ⟨1, ⟨2⟩, 3, 4, 5, 1, "t", none, some [10, 11]⟩) ∧
    parseExternalFilesChunk ([1, 0, 0, 0] ++ List.replicate 8 0 ++ [5, 0, 0, 0, 1] ++ List.replicate 7 0 ++ [1, 0, 102])
      = .ok ([], ⟨[⟨5, .externalTileset, "f"⟩]⟩) ∧
    parseCelExtraChunk [1, 0, 0, 0, 0, 0, 1, 0, 0, 0, 2, 0, 0, 0, 3, 0, 0, 0, 4, 0, 77]
      = .ok ([], ⟨⟨1⟩, ⟨1, 0⟩, ⟨2, 0⟩, ⟨3, 0⟩, ⟨4, 0⟩, [77]⟩) := by decide +kernel

end Ase
