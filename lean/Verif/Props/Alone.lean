import Verif.Lemmas.File
import Verif.Lemmas.Panics
import Verif.Lemmas.UserDataChunk
import Verif.Spec.Alone
import Verif.Spec.Sample

/-!
# C119: the public parsers of parts, called on their own

`C119_prefix`: a parser that succeeds has taken a prefix of its input that it recognises whatever follows, and that it
does not recognise with its end missing; so calls can be chained, and a caller can fetch more bytes and retry.
`C119_rest`: the three parsers for chunks that end with "the rest" take everything, so they are only right on a slice
cut to the chunk.  `C119_frames`: `parse_frames` takes everything too.  `C119_no_panic`, `C119_panics`: which of them can
panic and how.
-/

namespace Ase

open Spec

/-- A parser for the prefix-of-the-input grammar `G`, on slices. -/
theorem readsPrefix_of {α : Type} {p : P α} {G : α → Bytes → Prop}
    (h : ∀ b r v, IsSlice63 b → (p b = .ok (r, v) ↔ ∃ l, G v l ∧ b = l ++ r)) : ReadsPrefix p := by
  intro b r v hb e
  obtain ⟨l, hl, rfl⟩ := (h _ _ _ hb).1 e
  refine ⟨l, rfl, fun more hm => (h _ _ _ hm).2 ⟨l, hl, rfl⟩, ?_⟩
  rintro cut ⟨t, rfl⟩ hne r' v' e'
  have hs : IsSlice63 (cut ++ t) := by
    unfold IsSlice63 at hb ⊢
    simp only [List.length_append] at hb ⊢
    omega
  have hc : IsSlice63 cut := by
    unfold IsSlice63 at hs ⊢
    simp only [List.length_append] at hs
    omega
  obtain ⟨l', hl', rfl⟩ := (h _ _ _ hc).1 e'
  have e1 := (h _ _ _ hs).2 ⟨l', hl', List.append_assoc _ _ _⟩
  have e2 := (h (l' ++ r' ++ t) [] v hs).2 ⟨_, hl, by simp⟩
  rw [e1] at e2
  have : r' ++ t = [] := by injection e2 with e2; injection e2
  have ht : t = [] := (List.append_eq_nil_iff.1 this).2
  exact hne (by simp [ht])

theorem Parses.readsPrefix {α : Type} {p : P α} {G : α → Bytes → Prop} (h : Parses p G) : ReadsPrefix p :=
  readsPrefix_of fun b r v _ => h b r v

/-- `parse_slice_key` for flags built in any way. -/
theorem readsPrefix_sliceKey (flags : SliceFlags) : ReadsPrefix (parseSliceKey flags) := by
  refine Parses.readsPrefix (G := fun k l => ∃ n p,
    Opt (flags.contains SliceFlags.NINE_PATCH = true) (fun x l => l = ninePatch x) k.ninePatch n ∧
    Opt (flags.contains SliceFlags.PIVOT = true) (fun x l => l = pivot x) k.pivot p ∧
    l = le32 k.frameNumber ++ les32 k.x ++ les32 k.y ++ le32 k.width ++ le32 k.height ++ n ++ p) ?_
  intro b r k
  simp only [parseSliceKey, P.bind_ok, long_ok, dword_ok, P.pure_ok,
    (Parses.of_eq @parseNinePatch_ok).cond_opt (q := flags.contains SliceFlags.NINE_PATCH = true) Iff.rfl,
    (Parses.of_eq @parsePivot_ok).cond_opt (q := flags.contains SliceFlags.PIVOT = true) Iff.rfl]
  constructor
  · rintro ⟨fr, _, rfl, x, _, rfl, y, _, rfl, w, _, rfl, h, _, rfl, n, _, ⟨ln, hn, rfl⟩, p, _, ⟨lp, hp, rfl⟩, rfl, rfl⟩
    exact ⟨_, ⟨ln, lp, hn, hp, rfl⟩, by simp⟩
  · obtain ⟨fr, x, y, w, h, n, p⟩ := k
    rintro ⟨_, ⟨ln, lp, hn, hp, rfl⟩, rfl⟩
    simp only [List.append_assoc]
    exact ⟨fr, _, rfl, x, _, rfl, y, _, rfl, w, _, rfl, h, _, rfl, n, _, ⟨ln, hn, rfl⟩, p, _, ⟨lp, hp, rfl⟩, rfl, rfl⟩

/-- Every public parser that takes a prefix of its input takes one that is recognised whatever follows it, and not
recognised when its end is missing. -/
theorem C119_prefix (plat : Plat) (α : Type) (p : P α) (h : Plain α p ∨ WithProperties plat α p) : ReadsPrefix p := by
  rcases h with h | h
  · cases h with
    | byte => exact (Parses.of_eq @byte_ok).readsPrefix
    | word => exact (Parses.of_eq @word_ok).readsPrefix
    | short => exact (Parses.of_eq @short_ok).readsPrefix
    | dword => exact (Parses.of_eq @dword_ok).readsPrefix
    | long => exact (Parses.of_eq @long_ok).readsPrefix
    | point => exact (Parses.of_eq @parsePoint_ok).readsPrefix
    | size => exact (Parses.of_eq @parseSize_ok).readsPrefix
    | rect => exact (Parses.of_eq @parseRect_ok).readsPrefix
    | dwordSize f =>
      exact readsPrefix_of (G := fun n l => 4 ≤ n.toNat ∧ l = le32 n) fun b r v _ => by
        rw [dwordSize_ok]
        exact ⟨fun ⟨h, e⟩ => ⟨_, ⟨h, rfl⟩, e⟩, fun ⟨_, ⟨h, e⟩, e'⟩ => ⟨h, e ▸ e'⟩⟩
    | dwordAsUsize =>
      exact readsPrefix_of (G := fun n l => n < 2 ^ 32 ∧ l = leNat32 n) fun b r v _ => by
        rw [parseDwordAsUsize_ok]
        exact ⟨fun ⟨h, e⟩ => ⟨_, ⟨h, rfl⟩, e⟩, fun ⟨_, ⟨h, e⟩, e'⟩ => ⟨h, e ▸ e'⟩⟩
    | dwordAsU8 e => exact (Parses.of_eq (parseDwordAsU8_ok (e := e))).readsPrefix
    | string => exact parses_string.readsPrefix
    | uuid => exact (Parses.of_eq @parseUuid_ok).readsPrefix
    | fixed => exact (Parses.of_eq @fixed_ok).readsPrefix
    | color => exact (Parses.of_eq @parseColor_ok).readsPrefix
    | rgb => exact (Parses.of_eq @parseRgb_ok).readsPrefix
    | colorDepth =>
      exact readsPrefix_of (G := fun c l => ∃ w, c = colorDepthOf w ∧ l = le16 w) fun b r v _ => by
        rw [parseColorDepth_ok]
        exact ⟨fun ⟨w, h, e⟩ => ⟨_, ⟨w, h, rfl⟩, e⟩, fun ⟨_, ⟨w, h, e⟩, e'⟩ => ⟨w, h, e ▸ e'⟩⟩
    | blendMode =>
      exact readsPrefix_of (G := fun c l => ∃ w, c = BlendMode.ofWord w ∧ l = le16 w) fun b r v _ => by
        simp only [parseBlendMode, P.bind_ok, word_ok, P.pure_ok]
        constructor
        · rintro ⟨w, _, rfl, rfl, rfl⟩; exact ⟨_, ⟨w, rfl, rfl⟩, rfl⟩
        · rintro ⟨_, ⟨w, rfl, rfl⟩, rfl⟩; exact ⟨w, _, rfl, rfl, rfl⟩
    | chunkType =>
      exact readsPrefix_of (G := fun c l => ∃ w, c = typeOf w ∧ l = le16 w) fun b r v _ => by
        rw [parseChunkType_ok]
        exact ⟨fun ⟨w, h, e⟩ => ⟨_, ⟨w, h, rfl⟩, e⟩, fun ⟨_, ⟨w, h, e⟩, e'⟩ => ⟨w, h, e ▸ e'⟩⟩
    | header => exact parses_header.readsPrefix
    | packet => exact parses_packet.readsPrefix
    | oldPalette => exact parses_oldPalette.readsPrefix
    | layer => exact parses_layer.readsPrefix
    | colorProfile => exact parses_colorProfile.readsPrefix
    | externalFile => exact parses_externalFile.readsPrefix
    | externalFiles => exact parses_externalFiles.readsPrefix
    | tag => exact parses_tag.readsPrefix
    | tags => exact parses_tags.readsPrefix
    | paletteEntry => exact parses_paletteEntry.readsPrefix
    | palette => exact parses_palette.readsPrefix
    | sliceKey flags =>
      exact readsPrefix_sliceKey flags
    | ninePatch => exact (Parses.of_eq @parseNinePatch_ok).readsPrefix
    | pivot => exact (Parses.of_eq @parsePivot_ok).readsPrefix
    | slice => exact parses_slice.readsPrefix
    | tilesetExternalFile => exact (Parses.of_eq @parseTilesetExternalFile_ok).readsPrefix
    | tiles => exact parseTiles_ok.readsPrefix
    | tileset => exact parses_tileset.readsPrefix
  · cases h with
    | value => exact (parses_all _).1.readsPrefix
    | vector => exact (parses_all _).2.1.readsPrefix
    | map => exact (parses_all _).2.2.1.readsPrefix
    | property => exact (parses_all _).2.2.2.readsPrefix
    | maps => exact readsPrefix_of fun b r v hb => parsePropertiesMaps_ok hb
    | userData =>
      refine readsPrefix_of (G := fun c l => ∃ (flags : UInt32) (t k p : Bytes), Opt (bit32 flags 0) IsStr c.text t ∧
        Opt (bit32 flags 1) (As Spec.color) c.color k ∧ Opt (bit32 flags 2) (PropsOutcome plat) c.propertiesMaps p ∧
        l = le32 flags ++ t ++ k ++ p) fun b r v hb => ?_
      rw [parseUserDataChunk_ok hb]
      exact ⟨fun ⟨f, t, k, p, h1, h2, h3, e⟩ => ⟨_, ⟨f, t, k, p, h1, h2, h3, rfl⟩, e⟩,
        fun ⟨_, ⟨f, t, k, p, h1, h2, h3, e⟩, e'⟩ => ⟨f, t, k, p, h1, h2, h3, e ▸ e'⟩⟩
    | chunk => exact (parses_chunk plat).readsPrefix
    | chunks n =>
      refine readsPrefix_of (G := fun cs l => cs.length = n ∧ Seq (IsChunk (readsUserData plat)) cs l) fun b r v _ => ?_
      rw [parseChunks, (parses_chunk plat).count]
      exact ⟨fun ⟨h, l, hs, e⟩ => ⟨l, ⟨h, hs⟩, e⟩, fun ⟨l, ⟨h, hs⟩, e⟩ => ⟨h, l, hs, e⟩⟩
    | frame => exact (parses_rawframe plat).readsPrefix

/-- A string and then a rectangle, read by two calls in turn; with its last byte missing the string is refused. -/
example : parseString ([2, 0, 0x68, 0x69] ++ [1, 0, 0, 0, 2, 0, 0, 0, 3, 0, 0, 0, 4, 0, 0, 0, 9]) =
      .ok ([1, 0, 0, 0, 2, 0, 0, 0, 3, 0, 0, 0, 4, 0, 0, 0, 9], "hi") ∧
    parseRect [1, 0, 0, 0, 2, 0, 0, 0, 3, 0, 0, 0, 4, 0, 0, 0, 9] = .ok ([9], ⟨⟨1, 2⟩, ⟨3, 4⟩⟩) ∧
    (∀ r s, parseString [2, 0, 0x68] ≠ .ok (r, s)) := by
  have h : parseString ([2, 0, 0x68, 0x69] ++ [1, 0, 0, 0, 2, 0, 0, 0, 3, 0, 0, 0, 4, 0, 0, 0, 9]) =
      .ok ([1, 0, 0, 0, 2, 0, 0, 0, 3, 0, 0, 0, 4, 0, 0, 0, 9], "hi") :=
    parseString_ok.2 (by unfold FitsStr; decide +kernel)
  obtain ⟨used, e, _, hcut⟩ := C119_prefix ⟨true, 0⟩ _ _ (.inl .string) _ _ _ (by unfold IsSlice63; decide) h
  have hu : used = [2, 0, 0x68, 0x69] := (List.append_cancel_right e).symm
  subst hu
  exact ⟨h, parseRect_ok.2 (by decide +kernel), hcut [2, 0, 0x68] (by decide) (by decide)⟩

/-- A property value of type 5 (a 16-bit number): the byte behind it is handed back. -/
example : ∃ v, parseValue 8 [5, 0, 0xfe, 0xff, 7] = .ok ([7], v) := by
  have h : (match parseValue 8 [5, 0, 0xfe, 0xff, 7] with | .ok ([7], _) => true | _ => false) = true := by decide +kernel
  revert h
  split
  · intro _; exact ⟨_, by assumption⟩
  · intro h; cases h

/-- The parsers for the chunks that end with the rest of the input take all of it. -/
theorem C119_rest (α : Type) (p : P α) (h : ToTheEnd α p) : ReadsAll p := by
  cases h with
  | cel => exact fun b r v e => (parseCelChunk_ok.1 e).1
  | celExtra => exact fun b r v e => (parseCelExtraChunk_ok.1 e).1
  | mask => exact fun b r v e => (parseMaskChunk_ok.1 e).1

/-- A 1×1 raw cel with a byte behind it: the byte becomes part of the pixels. -/
example : ∃ c, parseCelChunk ([0, 0] ++ [0, 0] ++ [0, 0] ++ [255] ++ [0, 0] ++ [0, 0] ++ [0, 0, 0, 0, 0] ++
    [1, 0, 1, 0] ++ [10, 20, 30, 255] ++ [7]) = .ok ([], c) ∧
    c.content = .image ⟨1, 1, [10, 20, 30, 255, 7], false⟩ := by
  have h : (match parseCelChunk ([0, 0] ++ [0, 0] ++ [0, 0] ++ [255] ++ [0, 0] ++ [0, 0] ++ [0, 0, 0, 0, 0] ++
      [1, 0, 1, 0] ++ [10, 20, 30, 255] ++ [7]) with
      | .ok ([], c) => decide (c.content = .image ⟨1, 1, [10, 20, 30, 255, 7], false⟩)
      | _ => false) = true := by decide +kernel
  revert h
  split
  · intro h; exact ⟨_, by assumption, of_decide_eq_true h⟩
  · intro h; cases h

/-- `parse_frames` takes all of its input, or fails: it is the frames of a file and nothing behind them. -/
theorem C119_frames (plat : Plat) : ReadsAll (parseFrames plat) := fun _ _ _ e => (parseFrames_ok.1 e).1

/-- Except for those that read user-data properties, none of the parsers panics, on any input. -/
theorem C119_no_panic (α : Type) (p : P α) (h : Plain α p ∨ ToTheEnd α p) : NeverPanics p := by
  rcases h with h | h
  · cases h with
    | byte => exact NoPanic.byte
    | word => exact NoPanic.word
    | short => exact NoPanic.short
    | dword => exact NoPanic.dword
    | long => exact NoPanic.long
    | point => exact NoPanic.parsePoint
    | size => exact NoPanic.parseSize
    | rect => exact NoPanic.parseRect
    | dwordSize f => exact NoPanic.dwordSize f
    | dwordAsUsize => exact NoPanic.parseDwordAsUsize
    | dwordAsU8 e => exact NoPanic.parseDwordAsU8 e
    | string => exact NoPanic.parseString
    | uuid => exact NoPanic.parseUuid
    | fixed => exact NoPanic.fixed
    | color => exact NoPanic.parseColor
    | rgb => exact NoPanic.parseRgb
    | colorDepth => exact NoPanic.bind NoPanic.word fun _ => NoPanic.pure _
    | blendMode => exact NoPanic.bind NoPanic.word fun _ => NoPanic.pure _
    | chunkType => exact noPanic_parseChunkType
    | header => exact NoPanic.parseHeader
    | packet => exact NoPanic.parsePacket
    | oldPalette => exact NoPanic.parseOldPaletteChunk
    | layer => exact NoPanic.parseLayerChunk
    | colorProfile => exact NoPanic.parseColorProfile
    | externalFile => exact NoPanic.parseExternalFile
    | externalFiles => exact NoPanic.parseExternalFilesChunk
    | tag => exact NoPanic.parseTag
    | tags => exact NoPanic.parseTagsChunk
    | paletteEntry => exact NoPanic.parsePaletteEntry
    | palette => exact NoPanic.parsePaletteChunk
    | sliceKey flags => exact NoPanic.parseSliceKey flags
    | ninePatch => exact NoPanic.parseNinePatch
    | pivot => exact NoPanic.parsePivot
    | slice => exact NoPanic.parseSliceChunk
    | tilesetExternalFile => exact NoPanic.parseTilesetExternalFile
    | tiles => exact NoPanic.parseTiles
    | tileset => exact NoPanic.parseTilesetChunk
  · cases h with
    | cel => exact NoPanic.parseCelChunk
    | celExtra => exact NoPanic.parseCelExtraChunk
    | mask => exact NoPanic.parseMaskChunk

/-- The parsers that read user-data properties panic in two ways only: on the stated size of the properties in a build
with overflow checks, and by running out of stack on an input of at least two bytes per level. -/
theorem C119_panics (plat : Plat) (α : Type) (p : P α) (h : WithProperties plat α p) (b : Bytes) (k : Panic)
    (e : p b = .panic k) :
    (k = .overflow ∧ plat.debug = true) ∨ (k = .stackOverflow ∧ 2 * plat.stack ≤ b.length) := by
  cases h with
  | value => exact .inr ((deep_all _).1 _ _ e)
  | vector => exact .inr ((deep_all _).2.1 _ _ e)
  | map => exact .inr ((deep_all _).2.2.1 _ _ e)
  | property => exact .inr ((deep_all _).2.2.2 _ _ e)
  | maps => exact tame_parsePropertiesMaps plat _ _ e
  | userData => exact tame_parseUserDataChunk plat _ _ e
  | chunk => exact tame_parseChunk plat _ _ e
  | chunks n => exact (tame_parseChunk plat).count (shrinks_sized _) n _ _ e
  | frame => exact tame_parseRawframe plat _ _ e

/-- Out of stack: a vector type inside itself, one level deeper than the stack allows. -/
example : parseValue 1 [0x11, 0, 1, 0, 0, 0, 0x11, 0] = .panic .stackOverflow := by
  have h : (match parseValue 1 [0x11, 0, 1, 0, 0, 0, 0x11, 0] with | .panic .stackOverflow => true | _ => false) = true := by
    decide +kernel
  revert h
  split
  · intro _; assumption
  · intro h; cases h

end Ase
