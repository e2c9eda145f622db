import Verif.Model.Scalars

/-!
# Enumerations and flag words

`strum::FromRepr` on an enum with a data-carrying variant maps the discriminant of that variant to the
variant *with default data* (strum documentation: "Variants with additional data will be returned with
their data set to default values").  The Rust enums below end in `Unknown(Word)`, so the implicit
discriminant of `Unknown` yields `Unknown(0)`; all other unlisted codes yield `None` and then
`unwrap_or(Unknown(code))`.
-/

namespace Ase

/-- `src/binary/color_depth.rs:11-17` -/
inductive ColorDepth where
  | rgba | grayscale | indexed
  | unknown (bpp : UInt16)
deriving DecidableEq, Repr

/-- color_depth.rs:20-27 `bpp` -/
def ColorDepth.bpp : ColorDepth → UInt16
  | .rgba => 32
  | .grayscale => 16
  | .indexed => 8
  | .unknown bpp => bpp

/-- color_depth.rs:28-35 `pixel_size` -/
def ColorDepth.pixelSize : ColorDepth → Option Nat
  | .rgba => some 4
  | .grayscale => some 2
  | .indexed => some 1
  | .unknown _ => none

/-- color_depth.rs:38-47 `From<Word>` -/
def ColorDepth.ofWord (bpp : UInt16) : ColorDepth :=
  if bpp = 32 then .rgba else if bpp = 16 then .grayscale else if bpp = 8 then .indexed else .unknown bpp

/-- color_depth.rs:49-52 -/
def parseColorDepth : P ColorDepth := do
  let bpp ← word
  pure (.ofWord bpp)

/-- `src/binary/blend_mode.rs:8-30` -/
inductive BlendMode where
  | normal | multiply | screen | overlay | darken | lighten | colorDodge | colorBurn | hardLight
  | softLight | difference | exclusion | hue | saturation | color | luminosity | addition | subtract
  | divide
  | unknown (code : UInt16)
deriving DecidableEq, Repr

/-- The `from_repr` function `FromRepr` derives for `BlendMode` (blend_mode.rs:8): discriminants 0..=19 in
declaration order; 19 is `Unknown(Default::default())`. -/
def BlendMode.fromRepr : Nat → Option BlendMode
  | 0 => some .normal
  | 1 => some .multiply
  | 2 => some .screen
  | 3 => some .overlay
  | 4 => some .darken
  | 5 => some .lighten
  | 6 => some .colorDodge
  | 7 => some .colorBurn
  | 8 => some .hardLight
  | 9 => some .softLight
  | 10 => some .difference
  | 11 => some .exclusion
  | 12 => some .hue
  | 13 => some .saturation
  | 14 => some .color
  | 15 => some .luminosity
  | 16 => some .addition
  | 17 => some .subtract
  | 18 => some .divide
  | 19 => some (.unknown 0)
  | _ => none

/-- blend_mode.rs:32-36 `From<Word>` -/
def BlendMode.ofWord (w : UInt16) : BlendMode := (BlendMode.fromRepr w.toNat).getD (.unknown w)

/-- blend_mode.rs:38-41 -/
def parseBlendMode : P BlendMode := do
  let w ← word
  pure (.ofWord w)

/-- `src/binary/chunks/cel.rs:29-41` -/
inductive CelType where
  | rawImageData | linkedCel | compressedImage | compressedTilemap
  | unknown (code : UInt16)
deriving DecidableEq, Repr

/-- derived `from_repr` (cel.rs:29): 4 is `Unknown(Default::default())` -/
def CelType.fromRepr : Nat → Option CelType
  | 0 => some .rawImageData
  | 1 => some .linkedCel
  | 2 => some .compressedImage
  | 3 => some .compressedTilemap
  | 4 => some (.unknown 0)
  | _ => none

/-- cel.rs:43-47 -/
def CelType.ofWord (w : UInt16) : CelType := (CelType.fromRepr w.toNat).getD (.unknown w)

/-- `src/binary/chunks/tags.rs:30-37` -/
inductive AnimationDirection where
  | forward | reverse | pingPong | pingPongReverse
  | unknown (code : UInt8)
deriving DecidableEq, Repr

/-- derived `from_repr` (tags.rs:30): 4 is `Unknown(Default::default())` -/
def AnimationDirection.fromRepr : Nat → Option AnimationDirection
  | 0 => some .forward
  | 1 => some .reverse
  | 2 => some .pingPong
  | 3 => some .pingPongReverse
  | 4 => some (.unknown 0)
  | _ => none

/-- tags.rs:39-43 -/
def AnimationDirection.ofByte (b : UInt8) : AnimationDirection :=
  (AnimationDirection.fromRepr b.toNat).getD (.unknown b)

/-- `src/binary/chunks/color_profile.rs:20-26` -/
inductive ColorProfileType where
  | noColorProfile | srgb | embeddedICC
  | unknown (code : UInt16)
deriving DecidableEq, Repr

/-- derived `from_repr` (color_profile.rs:20): 3 is `Unknown(Default::default())` -/
def ColorProfileType.fromRepr : Nat → Option ColorProfileType
  | 0 => some .noColorProfile
  | 1 => some .srgb
  | 2 => some .embeddedICC
  | 3 => some (.unknown 0)
  | _ => none

/-- color_profile.rs:44-45 -/
def ColorProfileType.ofWord (w : UInt16) : ColorProfileType :=
  (ColorProfileType.fromRepr w.toNat).getD (.unknown w)

/-- `src/binary/chunks/external_files.rs:26-33` -/
inductive ExternalFileType where
  | externalPalette | externalTileset | extensionNameForProperties
  | unknown (code : UInt8)
deriving DecidableEq, Repr

/-- derived `from_repr` (external_files.rs:26-27): 3 is `Unknown(Default::default())` -/
def ExternalFileType.fromRepr : Nat → Option ExternalFileType
  | 0 => some .externalPalette
  | 1 => some .externalTileset
  | 2 => some .extensionNameForProperties
  | 3 => some (.unknown 0)
  | _ => none

/-- external_files.rs:35-39 -/
def ExternalFileType.ofByte (b : UInt8) : ExternalFileType :=
  (ExternalFileType.fromRepr b.toNat).getD (.unknown b)

/-- `src/binary/chunks/layer.rs:37-43` -/
inductive LayerType where
  | normal | group | tilemap
  | unknown (code : UInt16)
deriving DecidableEq, Repr

/-- layer.rs:45-54 (hand-written `match`, no `from_repr`) -/
def LayerType.ofWord (w : UInt16) : LayerType :=
  if w = 0 then .normal else if w = 1 then .group else if w = 2 then .tilemap else .unknown w

/-- `src/binary/chunk_type.rs:6-22` -/
inductive ChunkType where
  | palette0004 | palette0011 | layer | cel | celExtra | colorProfile | externalFile | mask | path
  | tags | palette | userData | slice | tileset
deriving DecidableEq, Repr

/-- derived `from_repr` with the explicit discriminants of chunk_type.rs:8-21 -/
def ChunkType.fromRepr (n : Nat) : Option ChunkType :=
  if n = 0x0004 then some .palette0004
  else if n = 0x0011 then some .palette0011
  else if n = 0x2004 then some .layer
  else if n = 0x2005 then some .cel
  else if n = 0x2006 then some .celExtra
  else if n = 0x2007 then some .colorProfile
  else if n = 0x2008 then some .externalFile
  else if n = 0x2016 then some .mask
  else if n = 0x2017 then some .path
  else if n = 0x2018 then some .tags
  else if n = 0x2019 then some .palette
  else if n = 0x2020 then some .userData
  else if n = 0x2022 then some .slice
  else if n = 0x2023 then some .tileset
  else none

/-- `src/binary/chunks/user_data.rs:49-71`, all variants without data -/
inductive PropertyType where
  | bool | int8 | uint8 | int16 | uint16 | int32 | uint32 | int64 | uint64 | fixed | float | double
  | string | point | size | rect | vector | propertiesMap | uuid
deriving DecidableEq, Repr

/-- derived `from_repr` with the explicit discriminants 1..=0x13 of user_data.rs:52-70 -/
def PropertyType.fromRepr : Nat → Option PropertyType
  | 0x01 => some .bool
  | 0x02 => some .int8
  | 0x03 => some .uint8
  | 0x04 => some .int16
  | 0x05 => some .uint16
  | 0x06 => some .int32
  | 0x07 => some .uint32
  | 0x08 => some .int64
  | 0x09 => some .uint64
  | 0x0A => some .fixed
  | 0x0B => some .float
  | 0x0C => some .double
  | 0x0D => some .string
  | 0x0E => some .point
  | 0x0F => some .size
  | 0x10 => some .rect
  | 0x11 => some .vector
  | 0x12 => some .propertiesMap
  | 0x13 => some .uuid
  | _ => none

/-! ## Flag words (`bitflags!`)

`from_bits_truncate(bits)` keeps the bits of the union of all named flags;
`contains(f)` is `bits & f == f`. -/

/-- layer.rs:24-35 -/
structure LayerFlags where
  bits : UInt16
deriving DecidableEq, Repr

namespace LayerFlags
/-- layer.rs:27 -/ def VISIBLE : UInt16 := 0x1
/-- layer.rs:28 -/ def EDITABLE : UInt16 := 0x2
/-- layer.rs:29 -/ def LOCK_MOVEMENT : UInt16 := 0x4
/-- layer.rs:30 -/ def BACKGROUND : UInt16 := 0x8
/-- layer.rs:31 (hexadecimal 16 in the source) -/ def PREFER_LINKED_CELS : UInt16 := 0x16
/-- layer.rs:32 (hexadecimal 32 in the source) -/ def COLLAPSED : UInt16 := 0x32
/-- layer.rs:33 (hexadecimal 64 in the source) -/ def REFERENCE : UInt16 := 0x64
/-- the union of all named flags -/
def all : UInt16 :=
  VISIBLE ||| EDITABLE ||| LOCK_MOVEMENT ||| BACKGROUND ||| PREFER_LINKED_CELS ||| COLLAPSED ||| REFERENCE
/-- bitflags `from_bits_truncate` -/
def fromBitsTruncate (b : UInt16) : LayerFlags := { bits := b &&& all }
/-- bitflags `contains` -/
def contains (f : LayerFlags) (g : UInt16) : Bool := f.bits &&& g == g
end LayerFlags

/-- slice.rs:19-25 -/
structure SliceFlags where
  bits : UInt32
deriving DecidableEq, Repr

namespace SliceFlags
/-- slice.rs:22 -/ def NINE_PATCH : UInt32 := 0x01
/-- slice.rs:23 -/ def PIVOT : UInt32 := 0x02
/-- bitflags `from_bits_truncate` -/
def fromBitsTruncate (b : UInt32) : SliceFlags := { bits := b &&& (NINE_PATCH ||| PIVOT) }
/-- bitflags `contains` -/
def contains (f : SliceFlags) (g : UInt32) : Bool := f.bits &&& g == g
end SliceFlags

/-- user_data.rs:22-28 -/
structure UserDataFlags where
  bits : UInt32
deriving DecidableEq, Repr

namespace UserDataFlags
/-- user_data.rs:24 -/ def HAS_TEXT : UInt32 := 0x1
/-- user_data.rs:25 -/ def HAS_COLOR : UInt32 := 0x2
/-- user_data.rs:26 -/ def HAS_PROPERTIES : UInt32 := 0x4
/-- bitflags `from_bits_truncate` -/
def fromBitsTruncate (b : UInt32) : UserDataFlags :=
  { bits := b &&& (HAS_TEXT ||| HAS_COLOR ||| HAS_PROPERTIES) }
/-- bitflags `contains` -/
def contains (f : UserDataFlags) (g : UInt32) : Bool := f.bits &&& g == g
end UserDataFlags

/-- tileset.rs:56-77 -/
structure TilesetFlags where
  bits : UInt32
deriving DecidableEq, Repr

namespace TilesetFlags
/-- tileset.rs:60 -/ def EXTERNAL_FILE : UInt32 := 1
/-- tileset.rs:62 -/ def TILES : UInt32 := 2
/-- tileset.rs:67 -/ def TILE_0_EMPTY : UInt32 := 4
/-- tileset.rs:71 -/ def XFLIP : UInt32 := 8
/-- tileset.rs:73 -/ def YFLIP : UInt32 := 16
/-- tileset.rs:75 -/ def DFLIP : UInt32 := 32
/-- bitflags `from_bits_truncate` -/
def fromBitsTruncate (b : UInt32) : TilesetFlags :=
  { bits := b &&& (EXTERNAL_FILE ||| TILES ||| TILE_0_EMPTY ||| XFLIP ||| YFLIP ||| DFLIP) }
/-- bitflags `contains` -/
def contains (f : TilesetFlags) (g : UInt32) : Bool := f.bits &&& g == g
end TilesetFlags

/-- palette.rs (chunks):26-30 `PaletteEntryFlags` -/
structure PaletteEntryFlags where
  bits : UInt16
deriving DecidableEq, Repr

namespace PaletteEntryFlags
/-- chunks/palette.rs:28 -/ def HAS_NAME : UInt16 := 0x1
/-- bitflags `from_bits_truncate` -/
def fromBitsTruncate (b : UInt16) : PaletteEntryFlags := { bits := b &&& HAS_NAME }
/-- bitflags `contains` -/
def contains (f : PaletteEntryFlags) (g : UInt16) : Bool := f.bits &&& g == g
end PaletteEntryFlags

/-- color_profile.rs:28-32 `ColorProfileFlags` -/
structure ColorProfileFlags where
  bits : UInt16
deriving DecidableEq, Repr

namespace ColorProfileFlags
/-- color_profile.rs:30 -/ def FIXED_GAMMA : UInt16 := 0x01
/-- bitflags `from_bits_truncate` -/
def fromBitsTruncate (b : UInt16) : ColorProfileFlags := { bits := b &&& FIXED_GAMMA }
/-- bitflags `contains` -/
def contains (f : ColorProfileFlags) (g : UInt16) : Bool := f.bits &&& g == g
end ColorProfileFlags

/-- cel_extra.rs:18-23 `CelExtraFlags` -/
structure CelExtraFlags where
  bits : UInt32
deriving DecidableEq, Repr

namespace CelExtraFlags
/-- cel_extra.rs:21 -/ def PRECISE_BOUNDS_ARE_SET : UInt32 := 0x1
/-- bitflags `from_bits_truncate` -/
def fromBitsTruncate (b : UInt32) : CelExtraFlags := { bits := b &&& PRECISE_BOUNDS_ARE_SET }
/-- bitflags `contains` -/
def contains (f : CelExtraFlags) (g : UInt32) : Bool := f.bits &&& g == g
end CelExtraFlags

end Ase
