import Verif.Model.UserData

/-! # `src/binary/image.rs` and `src/binary/chunks/*.rs` (user data is in `Model/UserData.lean`) -/

namespace Ase

/-- `src/binary/image.rs:3-16` -/
structure Image where
  width : UInt16
  height : UInt16
  data : Bytes
  compressed : Bool
deriving DecidableEq, Repr

/-! ## `old_palette.rs` -/

/-- old_palette.rs:21-25 -/
structure Packet where
  entriesToSkip : UInt8
  colors : List RGB
deriving DecidableEq, Repr

/-- old_palette.rs:17-19 -/
structure OldPaletteChunk where
  packets : List Packet
deriving DecidableEq, Repr

/-- old_palette.rs:33-49 -/
def parsePacket : P Packet := do
  let entriesToSkip ← byte
  let numberOfColors ← byte
  let n := if numberOfColors = 0 then 256 else numberOfColors.toNat
  let colors ← count parseRgb n
  pure { entriesToSkip, colors }

/-- old_palette.rs:27-31 -/
def parseOldPaletteChunk : P OldPaletteChunk := do
  let numberOfPackets ← word
  let packets ← count parsePacket numberOfPackets.toNat
  pure { packets }

/-! ## `layer.rs` -/

/-- layer.rs:11-22 -/
structure LayerChunk where
  flags : LayerFlags
  layerType : LayerType
  childLevel : UInt16
  blendMode : BlendMode
  opacity : UInt8
  name : String
  tilesetIndex : Option UInt32
  userData : Option UserDataChunk

/-- layer.rs:56-84 -/
def parseLayerChunk : P LayerChunk := do
  let flags ← word
  let flags := LayerFlags.fromBitsTruncate flags
  let layerType ← word
  let layerType := LayerType.ofWord layerType
  let childLevel ← word
  let _defaultLayerWidth ← word
  let _defaultLayerHeight ← word
  let blendMode ← word
  let blendMode := BlendMode.ofWord blendMode
  let opacity ← byte
  let _ ← take 3
  let name ← parseString
  let tilesetIndex ← cond (decide (layerType = .tilemap)) dword
  pure { flags, layerType, childLevel, blendMode, opacity, name, tilesetIndex, userData := none }

/-! ## `cel.rs` -/

/-- cel.rs:49-79 -/
inductive CelContent where
  | image (i : Image)
  | linkedCel (framePosition : UInt16)
  | compressedTilemap (width height bitsPerTile : UInt16)
      (bitmaskTileId bitmaskXFlip bitmaskYFlip bitmaskDiagonalFlip : UInt32) (data : Bytes)
  | unknown (celType : UInt16) (data : Bytes)
deriving DecidableEq, Repr

/-- cel.rs:11-27 -/
structure CelChunk where
  layerIndex : UInt16
  x : Int16
  y : Int16
  opacity : UInt8
  zIndex : Int16
  content : CelContent
  userData : Option UserDataChunk

/-- cel.rs:90-139 (the `match cel_type`) -/
def parseCelContent : CelType → P CelContent
  | .rawImageData => do
    let width ← word
    let height ← word
    let data ← P.remaining
    pure (.image { width, height, data, compressed := false })
  | .linkedCel => do
    let framePosition ← word
    pure (.linkedCel framePosition)
  | .compressedImage => do
    let width ← word
    let height ← word
    let data ← P.remaining
    pure (.image { width, height, data, compressed := true })
  | .compressedTilemap => do
    let width ← word
    let height ← word
    let bitsPerTile ← word
    let bitmaskTileId ← dword
    let bitmaskYFlip ← dword
    let bitmaskXFlip ← dword
    let bitmaskDiagonalFlip ← dword
    let _ ← take 10
    let data ← P.remaining
    pure (.compressedTilemap width height bitsPerTile bitmaskTileId bitmaskXFlip bitmaskYFlip
      bitmaskDiagonalFlip data)
  | .unknown celType => do
    let data ← P.remaining
    pure (.unknown celType data)

/-- cel.rs:81-152 -/
def parseCelChunk : P CelChunk := do
  let layerIndex ← word
  let x ← short
  let y ← short
  let opacity ← byte
  let celType ← word
  let celType := CelType.ofWord celType
  let zIndex ← short
  let _ ← take 5
  let content ← parseCelContent celType
  P.skipRest
  pure { layerIndex, x, y, opacity, zIndex, content, userData := none }

/-! ## `cel_extra.rs` -/

/-- cel_extra.rs:8-16 -/
structure CelExtraChunk where
  flags : CelExtraFlags
  preciseXPosition : Fixed
  preciseYPosition : Fixed
  widthOfTheCel : Fixed
  heightOfTheCel : Fixed
  future : Bytes
deriving DecidableEq, Repr

/-- cel_extra.rs:25-42 -/
def parseCelExtraChunk : P CelExtraChunk := do
  let flags ← dword
  let preciseXPosition ← fixed
  let preciseYPosition ← fixed
  let widthOfTheCel ← fixed
  let heightOfTheCel ← fixed
  let future ← P.remaining
  P.skipRest
  pure { flags := .fromBitsTruncate flags, preciseXPosition, preciseYPosition, widthOfTheCel,
         heightOfTheCel, future }

/-! ## `color_profile.rs` -/

/-- color_profile.rs:34-40 -/
inductive ColorProfile where
  | noColorProfile
  | srgb
  | embeddedICC (data : Bytes)
  | unknown (code : UInt16)
deriving DecidableEq, Repr

/-- color_profile.rs:14-18 -/
structure ColorProfileChunk where
  fixedGamma : Option Fixed
  profile : ColorProfile
deriving DecidableEq, Repr

/-- color_profile.rs:50-57 (the `match profile_type`) -/
def parseColorProfileBody : ColorProfileType → P ColorProfile
  | .noColorProfile => pure .noColorProfile
  | .srgb => pure .srgb
  | .embeddedICC => do
    let n ← dword
    let data ← take n.toNat
    pure (.embeddedICC data)
  | .unknown code => pure (.unknown code)

/-- color_profile.rs:42-69 -/
def parseColorProfile : P ColorProfileChunk := do
  let profileType ← word
  let profileType := ColorProfileType.ofWord profileType
  let flags ← word
  let flags := ColorProfileFlags.fromBitsTruncate flags
  let fixedGamma ← fixed
  let _ ← take 8
  let profile ← parseColorProfileBody profileType
  pure { fixedGamma := if flags.contains ColorProfileFlags.FIXED_GAMMA then some fixedGamma else none,
         profile }

/-! ## `external_files.rs` -/

/-- external_files.rs:16-24 -/
structure ExternalFile where
  entryId : UInt32
  fileType : ExternalFileType
  fileName : String
deriving DecidableEq, Repr

/-- external_files.rs:11-14 -/
structure ExternalFilesChunk where
  files : List ExternalFile
deriving DecidableEq, Repr

/-- external_files.rs:48-62 -/
def parseExternalFile : P ExternalFile := do
  let entryId ← dword
  let fileType ← byte
  let fileType := ExternalFileType.ofByte fileType
  let _ ← take 7
  let fileName ← parseString
  pure { entryId, fileType, fileName }

/-- external_files.rs:41-46 -/
def parseExternalFilesChunk : P ExternalFilesChunk := do
  let numberOfEntries ← parseDwordAsUsize
  let _ ← take 8
  let files ← count parseExternalFile numberOfEntries
  pure { files }

/-! ## `mask.rs` -/

/-- mask.rs:8-29 -/
structure MaskChunk where
  x : Int16
  y : Int16
  width : UInt16
  height : UInt16
  name : String
  data : Bytes
deriving DecidableEq, Repr

/-- mask.rs:31-56 -/
def parseMaskChunk : P MaskChunk := do
  let x ← short
  let y ← short
  let width ← word
  let height ← word
  let _ ← take 8
  let name ← parseString
  let data ← P.remaining
  P.skipRest
  pure { x, y, width, height, name, data }

/-! ## `tags.rs` -/

/-- tags.rs:17-28 (`frames: RangeInclusive<Word>` as its two ends) -/
structure Tag where
  framesStart : UInt16
  framesEnd : UInt16
  animationDirection : AnimationDirection
  animationRepeat : UInt16
  color : UInt8 × UInt8 × UInt8
  name : String
  userData : Option UserDataChunk

/-- tags.rs:12-15 -/
structure TagsChunk where
  tags : List Tag

/-- tags.rs:74 `[color[0], color[1], color[2]]` for a slice of length 3; indexing panics otherwise -/
def color3 : Bytes → P (UInt8 × UInt8 × UInt8)
  | c0 :: c1 :: c2 :: _ => pure (c0, c1, c2)
  | _ => P.panic .indexOutOfBounds

/-- tags.rs:52-79 -/
def parseTag : P Tag := do
  let fromFrame ← word
  let toFrame ← word
  if toFrame < fromFrame then P.fail (.failure (.invalidFrameRange fromFrame toFrame))
  else do
    let animationDirection ← byte
    let animationDirection := AnimationDirection.ofByte animationDirection
    let animationRepeat ← word
    let _ ← take 6
    let color ← take 3
    let _ ← byte
    let name ← parseString
    let color ← color3 color
    pure { framesStart := fromFrame, framesEnd := toFrame, animationDirection, animationRepeat, color,
           name, userData := none }

/-- tags.rs:45-50 -/
def parseTagsChunk : P TagsChunk := do
  let numberOfTags ← word
  let _ ← take 8
  let tags ← count parseTag numberOfTags.toNat
  pure { tags }

/-! ## `palette.rs` -/

/-- chunks/palette.rs:20-24 -/
structure PaletteEntry where
  color : PColor
  name : Option String
deriving DecidableEq, Repr

/-- chunks/palette.rs:14-18 (`indices: RangeInclusive<u8>` as its two ends) -/
structure PaletteChunk where
  firstIndex : UInt8
  lastIndex : UInt8
  entries : List PaletteEntry
deriving DecidableEq, Repr

/-- chunks/palette.rs:58-65 -/
def parsePaletteEntry : P PaletteEntry := do
  let flags ← word
  let flags := PaletteEntryFlags.fromBitsTruncate flags
  let color ← parseColor
  let name ← cond (flags.contains PaletteEntryFlags.HAS_NAME) parseString
  pure { color, name }

/-- chunks/palette.rs:32-56 -/
def parsePaletteChunk : P PaletteChunk := do
  let paletteSize ← parseDwordAsUsize
  let firstIndex ← parseDwordAsU8 (.paletteError .firstColorIndexOutOfBounds)
  let lastIndex ← parseDwordAsU8 (.paletteError .lastColorIndexOutOfBounds)
  if lastIndex < firstIndex then
    P.fail (.failure (.paletteError .firstColorIndexGreaterThanLastColorIndex))
  else do
    let _ ← take 8
    let entries ← count parsePaletteEntry paletteSize
    pure { firstIndex, lastIndex, entries }

/-! ## `slice.rs` -/

/-- slice.rs:38-44 -/
structure NinePatch where
  x : Int32
  y : Int32
  width : UInt32
  height : UInt32
deriving DecidableEq, Repr

/-- slice.rs:46-50 -/
structure Pivot where
  x : Int32
  y : Int32
deriving DecidableEq, Repr

/-- slice.rs:27-36 -/
structure SliceKey where
  frameNumber : UInt32
  x : Int32
  y : Int32
  width : UInt32
  height : UInt32
  ninePatch : Option NinePatch
  pivot : Option Pivot
deriving DecidableEq, Repr

/-- slice.rs:10-17 -/
structure SliceChunk where
  name : String
  flags : SliceFlags
  sliceKeys : List SliceKey
  userData : Option UserDataChunk

/-- slice.rs:94-108 -/
def parseNinePatch : P NinePatch := do
  let x ← long
  let y ← long
  let width ← dword
  let height ← dword
  pure { x, y, width, height }

/-- slice.rs:110-114 -/
def parsePivot : P Pivot := do
  let x ← long
  let y ← long
  pure { x, y }

/-- slice.rs:71-92 -/
def parseSliceKey (flags : SliceFlags) : P SliceKey := do
  let frameNumber ← dword
  let x ← long
  let y ← long
  let width ← dword
  let height ← dword
  let ninePatch ← cond (flags.contains SliceFlags.NINE_PATCH) parseNinePatch
  let pivot ← cond (flags.contains SliceFlags.PIVOT) parsePivot
  pure { frameNumber, x, y, width, height, ninePatch, pivot }

/-- slice.rs:52-69 -/
def parseSliceChunk : P SliceChunk := do
  let numberOfKeys ← parseDwordAsUsize
  let flags ← dword
  let flags := SliceFlags.fromBitsTruncate flags
  let _ ← dword
  let name ← parseString
  let sliceKeys ← count (parseSliceKey flags) numberOfKeys
  pure { name, flags, sliceKeys, userData := none }

/-! ## `tileset.rs` -/

/-- tileset.rs:40-47 -/
structure TilesetExternalFile where
  externalFileId : UInt32
  tilesetId : UInt32
deriving DecidableEq, Repr

/-- tileset.rs:13-38; `tiles` is the slice inside `TilesetTiles` (tileset.rs:49-54) -/
structure TilesetChunk where
  id : UInt32
  flags : TilesetFlags
  numberOfTiles : UInt32
  width : UInt16
  height : UInt16
  baseIndex : Int16
  name : String
  externalFile : Option TilesetExternalFile
  tiles : Option Bytes
deriving DecidableEq, Repr

/-- tileset.rs:111-121 -/
def parseTilesetExternalFile : P TilesetExternalFile := do
  let externalFileId ← dword
  let tilesetId ← dword
  pure { externalFileId, tilesetId }

/-- tileset.rs:125-127 -/
def parseTiles : P Bytes := do
  let n ← dword
  take n.toNat

/-- tileset.rs:79-109 -/
def parseTilesetChunk : P TilesetChunk := do
  let id ← dword
  let flags ← dword
  let flags := TilesetFlags.fromBitsTruncate flags
  let numberOfTiles ← dword
  let width ← word
  let height ← word
  let baseIndex ← short
  let _ ← take 14
  let name ← parseString
  let externalFile ← cond (flags.contains TilesetFlags.EXTERNAL_FILE) parseTilesetExternalFile
  let tiles ← cond (flags.contains TilesetFlags.TILES) parseTiles
  pure { id, flags, numberOfTiles, width, height, baseIndex, name, externalFile, tiles }

end Ase
