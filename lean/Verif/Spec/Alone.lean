import Verif.Model.File

/-!
# Calling the public parsers of parts on their own

Every `parse_…` function of `binary` is public, so a caller can apply one to any slice.  This file lists them and says
what a caller relies on when composing them by hand.
-/

namespace Ase.Spec

/-- A Rust slice has at most `isize::MAX` bytes. -/
def IsSlice63 (b : Bytes) : Prop := b.length < 2 ^ 63

/-- What a successful call takes from the front of its input is fixed by those bytes alone: whatever follows them, the
value is the same and exactly what follows is handed back; and with any of them cut off at the end there is no value. -/
def ReadsPrefix {α : Type} (p : P α) : Prop :=
  ∀ b r v, IsSlice63 b → p b = .ok (r, v) → ∃ used, b = used ++ r ∧
    (∀ more, IsSlice63 (used ++ more) → p (used ++ more) = .ok (more, v)) ∧
    (∀ cut, cut <+: used → cut ≠ used → ∀ r' v', p cut ≠ .ok (r', v'))

/-- A successful call hands nothing back. -/
def ReadsAll {α : Type} (p : P α) : Prop := ∀ b r v, p b = .ok (r, v) → r = []

/-- No input makes the call panic. -/
def NeverPanics {α : Type} (p : P α) : Prop := ∀ b k, p b ≠ .panic k

/-- The public parsers which take a prefix of their input and read no user-data properties. -/
inductive Plain : (α : Type) → P α → Prop where
  /-- scalars.rs:66-68 -/
  | byte : Plain _ byte
  /-- scalars.rs:71-73 -/
  | word : Plain _ word
  /-- scalars.rs:76-78 -/
  | short : Plain _ short
  /-- scalars.rs:81-83 -/
  | dword : Plain _ dword
  /-- scalars.rs:86-88 -/
  | long : Plain _ long
  /-- scalars.rs:90-94 -/
  | point : Plain _ parsePoint
  /-- scalars.rs:96-100 -/
  | size : Plain _ parseSize
  /-- scalars.rs:102-106 -/
  | rect : Plain _ parseRect
  /-- scalars.rs:112-119, with any error function -/
  | dwordSize (f : UInt32 → ParseError) : Plain _ (dwordSize f)
  /-- scalars.rs:121-127 -/
  | dwordAsUsize : Plain _ parseDwordAsUsize
  /-- scalars.rs:129-133, with any error -/
  | dwordAsU8 (e : ParseError) : Plain _ (parseDwordAsU8 e)
  /-- scalars.rs:135-137 -/
  | string : Plain _ parseString
  /-- scalars.rs:139-141 -/
  | uuid : Plain _ parseUuid
  /-- scalars.rs:143-147 -/
  | fixed : Plain _ fixed
  /-- scalars.rs:149-163 -/
  | color : Plain _ parseColor
  /-- scalars.rs:165-170 -/
  | rgb : Plain _ parseRgb
  /-- color_depth.rs:49-52 -/
  | colorDepth : Plain _ parseColorDepth
  /-- blend_mode.rs:38-41 -/
  | blendMode : Plain _ parseBlendMode
  /-- chunk_type.rs:24-26 -/
  | chunkType : Plain _ parseChunkType
  /-- header.rs:56-101 -/
  | header : Plain _ parseHeader
  /-- old_palette.rs:33-49 -/
  | packet : Plain _ parsePacket
  /-- old_palette.rs:27-31 -/
  | oldPalette : Plain _ parseOldPaletteChunk
  /-- layer.rs:56-84 -/
  | layer : Plain _ parseLayerChunk
  /-- color_profile.rs:42-69 -/
  | colorProfile : Plain _ parseColorProfile
  /-- external_files.rs:48-62 -/
  | externalFile : Plain _ parseExternalFile
  /-- external_files.rs:41-46 -/
  | externalFiles : Plain _ parseExternalFilesChunk
  /-- tags.rs:52-79 -/
  | tag : Plain _ parseTag
  /-- tags.rs:45-50 -/
  | tags : Plain _ parseTagsChunk
  /-- palette.rs:58-65 (chunk) -/
  | paletteEntry : Plain _ parsePaletteEntry
  /-- palette.rs:32-56 (chunk) -/
  | palette : Plain _ parsePaletteChunk
  /-- slice.rs:71-92, with any flags -/
  | sliceKey (flags : SliceFlags) : Plain _ (parseSliceKey flags)
  /-- slice.rs:94-108 -/
  | ninePatch : Plain _ parseNinePatch
  /-- slice.rs:110-114 -/
  | pivot : Plain _ parsePivot
  /-- slice.rs:52-69 -/
  | slice : Plain _ parseSliceChunk
  /-- tileset.rs:111-121 -/
  | tilesetExternalFile : Plain _ parseTilesetExternalFile
  /-- tileset.rs:125-127 -/
  | tiles : Plain _ parseTiles
  /-- tileset.rs:79-109 -/
  | tileset : Plain _ parseTilesetChunk

/-- The public parsers which take a prefix of their input and read, or may read, user-data properties. -/
inductive WithProperties (plat : Plat) : (α : Type) → P α → Prop where
  /-- user_data.rs:174-202 -/
  | value : WithProperties plat _ (parseValue plat.stack)
  /-- user_data.rs:204-245 -/
  | vector : WithProperties plat _ (parseVector plat.stack)
  /-- user_data.rs:155-166 -/
  | map : WithProperties plat _ (parsePropertiesMap plat.stack)
  /-- user_data.rs:168-172 -/
  | property : WithProperties plat _ (parseProperty plat.stack)
  /-- user_data.rs:142-153 -/
  | maps : WithProperties plat _ (parsePropertiesMaps plat)
  /-- user_data.rs:121-140 -/
  | userData : WithProperties plat _ (parseUserDataChunk plat)
  /-- chunk.rs:46-71 -/
  | chunk : WithProperties plat _ (parseChunk plat)
  /-- chunk.rs:42-44, with any count -/
  | chunks (n : Nat) : WithProperties plat _ (parseChunks plat n)
  /-- raw_frame.rs:42-56 -/
  | frame : WithProperties plat _ (parseRawframe plat)

/-- The public parsers of the three chunks whose last part is the rest of the input. -/
inductive ToTheEnd : (α : Type) → P α → Prop where
  /-- cel.rs:81-152 -/
  | cel : ToTheEnd _ parseCelChunk
  /-- cel_extra.rs:25-42 -/
  | celExtra : ToTheEnd _ parseCelExtraChunk
  /-- mask.rs:31-56 -/
  | mask : ToTheEnd _ parseMaskChunk

end Ase.Spec
