import Verif.Model.Loader

/-!
# What a run costs: the same functions, counting steps

The functions of `Model/Scalars` .. `Model/Loader` once more, now also counting the steps they take.  What is
a step:

* parsing: each call of a primitive reader (`take`, `tag`, hence `byte`, `word`, ..), each turn of a loop
  (`count`, `many1`) and each byte of text validated as UTF-8;
* everything else: each turn of a loop or iterator, each slot of `vec![None; layers.len()]`, each byte of
  a freshly zeroed buffer and each byte copied.

`Lemmas/Cost` proves that forgetting the counts gives back the functions of the model.
-/

namespace Ase.Timed

/-! ## Parsers that count -/

/-- A parser together with the number of steps it takes, also when it fails. -/
def T (α : Type) : Type := Bytes → Nat × Outcome NomErr (Bytes × α)

namespace T

/-- `Ok((input, a))` -/
def pure {α : Type} (a : α) : T α := fun b => (0, .ok (b, a))

/-- `let (input, a) = p(input)?; ...` -/
def bind {α β : Type} (p : T α) (f : α → T β) : T β := fun b =>
  match p b with
  | (t, .ok (r, a)) => (t + (f a r).1, (f a r).2)
  | (t, .err e) => (t, .err e)
  | (t, .panic k) => (t, .panic k)

instance : Monad T where
  pure := T.pure
  bind := T.bind

/-- `n` steps -/
def tick (n : Nat) : T Unit := fun b => (n, .ok (b, ()))

/-- `return Err(e)` -/
def fail {α : Type} (e : NomErr) : T α := fun _ => (0, .err e)

/-- a panic inside a parser -/
def panic {α : Type} (k : Panic) : T α := fun _ => (0, .panic k)

/-- arithmetic that may panic -/
def lift {α : Type} (x : Outcome NomErr α) : T α := fun b => (0, x.bind fun a => .ok (b, a))

/-- `p(slice)?.1` -/
def onSlice {α : Type} (p : T α) (slice : Bytes) : T α := fun b =>
  match p slice with
  | (t, .ok (_, a)) => (t, .ok (b, a))
  | (t, .err e) => (t, .err e)
  | (t, .panic k) => (t, .panic k)

/-- `p(slice)` kept as a value, whether it succeeds or not (user_data.rs:150-151) -/
def tryOn {α : Type} (p : T α) (slice : Bytes) : T (Except NomErr (Bytes × α)) := fun b =>
  match p slice with
  | (t, .ok v) => (t, .ok (b, .ok v))
  | (t, .err e) => (t, .ok (b, .error e))
  | (t, .panic k) => (t, .panic k)

/-- the whole current input as a value -/
def remaining : T Bytes := fun b => (0, .ok (b, b))

/-- drop the rest of the input -/
def skipRest : T Unit := fun _ => (0, .ok ([], ()))

end T

/-- `nom::bytes::complete::take(n)`: one step -/
def take (n : Nat) : T Bytes := fun b => (1, Ase.take n b)

/-- `nom::bytes::complete::tag(t)`: one step (the tags are at most four bytes long) -/
def tag (t : Bytes) : T Bytes := fun b => (1, Ase.tag t b)

/-- `nom::multi::count(p, n)`: one step per turn and what `p` takes -/
def count {α : Type} (p : T α) : Nat → T (List α)
  | 0 => pure []
  | n + 1 => do
    T.tick 1
    let x ← p
    let xs ← count p n
    pure (x :: xs)

/-- `nom::combinator::cond(c, p)` -/
def cond {α : Type} (c : Bool) (p : T α) : T (Option α) :=
  if c then do
    let x ← p
    pure (some x)
  else pure none

/-- The loop of `nom::multi::many1` after its first element: one step per turn and what `p` takes, also in
the last turn, where `p` fails. -/
def many1Loop {α : Type} (p : T α) (b : Bytes) : Nat × Outcome NomErr (Bytes × List α) :=
  match p b with
  | (t, .ok (r, x)) =>
    if _h : r.length < b.length then
      match many1Loop p r with
      | (t', .ok (r', xs)) => (1 + t + t', .ok (r', x :: xs))
      | (t', .err e) => (1 + t + t', .err e)
      | (t', .panic k) => (1 + t + t', .panic k)
    else (1 + t, .err (.error (.nom b .many1)))
  | (t, .err (.error _)) => (1 + t, .ok (b, []))
  | (t, .err (.failure e)) => (1 + t, .err (.failure e))
  | (t, .panic k) => (1 + t, .panic k)
termination_by b.length

/-- `nom::multi::many1(p)` -/
def many1 {α : Type} (p : T α) : T (List α) := do
  let x ← p
  let xs ← many1Loop p
  pure (x :: xs)

/-- `nom::combinator::all_consuming(p)` -/
def allConsuming {α : Type} (p : T α) : T α := fun b =>
  match p b with
  | (t, .ok ([], a)) => (t, .ok ([], a))
  | (t, .ok (r, _)) => (t, .err (.error (.nom r .eof)))
  | (t, .err e) => (t, .err e)
  | (t, .panic k) => (t, .panic k)

/-! ## `src/binary`: scalars, chunks, frames -/

/-- `nom::number::complete::le_uint(n)`, the common core of `le_u8` .. `le_u128`. -/
def leUint (n : Nat) : T Nat := do
  let bs ← take n
  pure (leNat bs)

/-- scalars.rs:65-68 (`le_u8`) -/
def byte : T UInt8 := do pure (UInt8.ofNat (← leUint 1))

/-- scalars.rs:70-73 (`le_u16`) -/
def word : T UInt16 := do pure (UInt16.ofNat (← leUint 2))

/-- scalars.rs:75-78 (`le_i16`) -/
def short : T Int16 := do pure (UInt16.ofNat (← leUint 2)).toInt16

/-- scalars.rs:80-83 (`le_u32`) -/
def dword : T UInt32 := do pure (UInt32.ofNat (← leUint 4))

/-- scalars.rs:85-88 (`le_i32`) -/
def long : T Int32 := do pure (UInt32.ofNat (← leUint 4)).toInt32

/-- `nom::number::complete::le_i8`, used in user_data.rs:181,217 -/
def leI8 : T Int8 := do pure (UInt8.ofNat (← leUint 1)).toInt8

/-- `nom::number::complete::le_u64`, used in user_data.rs:188,224 -/
def leU64 : T UInt64 := do pure (UInt64.ofNat (← leUint 8))

/-- `nom::number::complete::le_i64`, used in user_data.rs:187,223 -/
def leI64 : T Int64 := do pure (UInt64.ofNat (← leUint 8)).toInt64

/-- scalars.rs:90-94 -/
def parsePoint : T Point := do
  let x ← long
  let y ← long
  pure { x, y }

/-- scalars.rs:96-100 -/
def parseSize : T Size := do
  let width ← long
  let height ← long
  pure { width, height }

/-- scalars.rs:102-106 -/
def parseRect : T Rect := do
  let point ← parsePoint
  let size ← parseSize
  pure { point, size }

/-- scalars.rs:112-119 -/
def dwordSize (f : UInt32 → ParseError) : T UInt32 := do
  let size ← dword
  if 4 ≤ size.toNat then pure size else T.fail (.failure (f size))

/-- scalars.rs:121-127; `u32` always fits a 64-bit `usize` -/
def parseDwordAsUsize : T Nat := do
  let size ← dword
  pure size.toNat

/-- scalars.rs:129-133 -/
def parseDwordAsU8 (e : ParseError) : T UInt8 := do
  let size ← dword
  if size.toNat < 256 then pure (UInt8.ofNat size.toNat) else T.fail (.failure e)

/-- scalars.rs:135-137: `map_res(flat_map(word, take), from_utf8)`; a UTF-8 error is a recoverable error.
Validating the text takes one step per byte. -/
def parseString : T String := do
  let n ← word
  let bs ← take n.toNat
  T.tick bs.length
  match utf8Decode bs with
  | some cs => pure (String.ofList cs)
  | none => T.fail (.error (.utf8Error (utf8Fault 0 bs).1 (utf8Fault 0 bs).2))

/-- scalars.rs:139-141 (`le_u128`) -/
def parseUuid : T (BitVec 128) := do pure (BitVec.ofNat 128 (← leUint 16))

/-- scalars.rs:143-147: the low word is stored first and ends up in the *second* field -/
def fixed : T Fixed := do
  let low ← word
  let high ← word
  pure { fst := high, snd := low }

/-- scalars.rs:149-163 -/
def parseColor : T PColor := do
  let red ← byte
  let green ← byte
  let blue ← byte
  let alpha ← byte
  pure { red, green, blue, alpha }

/-- scalars.rs:165-170 -/
def parseRgb : T RGB := do
  let red ← byte
  let green ← byte
  let blue ← byte
  pure { red, green, blue }

mutual

/-- user_data.rs:174-202.  The first argument is the number of nested calls the stack can still hold. -/
def parseValue : Nat → T Value
  | 0 => T.panic .stackOverflow
  | d + 1 => do
    let code ← word
    match PropertyType.fromRepr code.toNat with
    | none => T.fail (.failure (.invalidPropertyType code))
    | some .bool => do pure (.bool ((← byte) != 0))
    | some .int8 => do pure (.int8 (← leI8))
    | some .uint8 => do pure (.uint8 (← byte))
    | some .int16 => do pure (.int16 (← short))
    | some .uint16 => do pure (.uint16 (← word))
    | some .int32 => do pure (.int32 (← long))
    | some .uint32 => do pure (.uint32 (← dword))
    | some .int64 => do pure (.int64 (← leI64))
    | some .uint64 => do pure (.uint64 (← leU64))
    | some .fixed => do pure (.fixed (← fixed))
    | some .float => do pure (.float (← dword))
    | some .double => do pure (.double (← leU64))
    | some .string => do pure (.string (← parseString))
    | some .point => do pure (.point (← parsePoint))
    | some .size => do pure (.size (← parseSize))
    | some .rect => do pure (.rect (← parseRect))
    | some .vector => do pure (.vector (← parseVector d))
    | some .propertiesMap => do pure (.propertiesMap (← parsePropertiesMap d))
    | some .uuid => do pure (.uuid (← parseUuid))

/-- user_data.rs:204-245 -/
def parseVector : Nat → T PVector
  | 0 => T.panic .stackOverflow
  | d + 1 => do
    let n ← parseDwordAsUsize
    let code ← word
    if code = 0 then do pure (.mixed (← count (parseValue d) n))
    else match PropertyType.fromRepr code.toNat with
    | none => T.fail (.failure (.invalidPropertyType code))
    | some .bool => do pure (.bool (← count (do pure ((← byte) != 0)) n))
    | some .int8 => do pure (.int8 (← count leI8 n))
    | some .uint8 => do pure (.uint8 (← count byte n))
    | some .int16 => do pure (.int16 (← count short n))
    | some .uint16 => do pure (.uint16 (← count word n))
    | some .int32 => do pure (.int32 (← count long n))
    | some .uint32 => do pure (.uint32 (← count dword n))
    | some .int64 => do pure (.int64 (← count leI64 n))
    | some .uint64 => do pure (.uint64 (← count leU64 n))
    | some .fixed => do pure (.fixed (← count fixed n))
    | some .float => do pure (.float (← count dword n))
    | some .double => do pure (.double (← count leU64 n))
    | some .string => do pure (.string (← count parseString n))
    | some .point => do pure (.point (← count parsePoint n))
    | some .size => do pure (.size (← count parseSize n))
    | some .rect => do pure (.rect (← count parseRect n))
    | some .vector => do pure (.vector (← count (parseVector d) n))
    | some .propertiesMap => do pure (.propertiesMap (← count (parsePropertiesMap d) n))
    | some .uuid => do pure (.uuid (← count parseUuid n))

/-- user_data.rs:155-166 -/
def parsePropertiesMap : Nat → T PropertiesMap
  | 0 => T.panic .stackOverflow
  | d + 1 => do
    let extensionEntryId ← dword
    let numProps ← parseDwordAsUsize
    let properties ← count (parseProperty d) numProps
    pure (.mk extensionEntryId properties)

/-- user_data.rs:168-172 -/
def parseProperty : Nat → T Property
  | 0 => T.panic .stackOverflow
  | d + 1 => do
    let name ← parseString
    let value ← parseValue d
    pure (.mk name value)

end

/-- user_data.rs:142-153 -/
def parsePropertiesMaps (plat : Plat) : T (Except NomErr (Bytes × List PropertiesMap)) := do
  let sizeMaps ← parseDwordAsUsize
  let numMaps ← parseDwordAsUsize
  let n ← T.lift (usizeSub8 plat sizeMaps)
  let inputMaps ← take n
  T.tryOn (count (parsePropertiesMap plat.stack) numMaps) inputMaps

/-- user_data.rs:121-140 -/
def parseUserDataChunk (plat : Plat) : T UserDataChunk := do
  let flags ← dword
  let flags := UserDataFlags.fromBitsTruncate flags
  let text ← cond (flags.contains UserDataFlags.HAS_TEXT) parseString
  let color ← cond (flags.contains UserDataFlags.HAS_COLOR) parseColor
  let propertiesMaps ← cond (flags.contains UserDataFlags.HAS_PROPERTIES) (parsePropertiesMaps plat)
  pure { text, color, propertiesMaps }

/-- src/binary/color_depth.rs:49-52 -/
def parseColorDepth : T ColorDepth := do
  let bpp ← word
  pure (ColorDepth.ofWord bpp)

/-- header.rs:58-100: the fields, read from the 128 byte slice; the `assert_eq!(input.len(), 0)` of
line 79 is an explicit panic -/
def parseHeaderFields : T Header := do
  let fileSize ← dword
  let _ ← tag headerMagic
  let frames ← word
  let width ← word
  let height ← word
  let colorDepth ← parseColorDepth
  let flags ← dword
  let speed ← word
  let _ ← tag [0, 0, 0, 0]
  let _ ← tag [0, 0, 0, 0]
  let transparentIndex ← byte
  let _ ← take 3
  let colorCount ← word
  let pixelWidth ← byte
  let pixelHeight ← byte
  let gridX ← short
  let gridY ← short
  let gridWidth ← word
  let gridHeight ← word
  let _ ← take 84
  let rest ← T.remaining
  if rest.length = 0 then
    pure { fileSize, frames, width, height, colorDepth, flags, speed, transparentIndex, colorCount,
           pixelWidth, pixelHeight, gridX, gridY, gridWidth, gridHeight }
  else T.panic .assertFailed

/-- header.rs:56-101 -/
def parseHeader : T Header := do
  let input ← take 128
  T.onSlice parseHeaderFields input

/-- old_palette.rs:33-49 -/
def parsePacket : T Packet := do
  let entriesToSkip ← byte
  let numberOfColors ← byte
  let n := if numberOfColors = 0 then 256 else numberOfColors.toNat
  let colors ← count parseRgb n
  pure { entriesToSkip, colors }

/-- old_palette.rs:27-31 -/
def parseOldPaletteChunk : T OldPaletteChunk := do
  let numberOfPackets ← word
  let packets ← count parsePacket numberOfPackets.toNat
  pure { packets }

/-- layer.rs:56-84 -/
def parseLayerChunk : T LayerChunk := do
  let flags ← word
  let flags := LayerFlags.fromBitsTruncate flags
  let layerType ← word
  let layerType := LayerType.ofWord layerType
  let childLevel ← word
  let _defaultLayerWidth ← word
  let _defaultLayerHeight ← word
  let blendMode ← word
  let blendMode := BlendMode.ofWord blendMode
  let opacity ← byte
  let _ ← take 3
  let name ← parseString
  let tilesetIndex ← cond (decide (layerType = .tilemap)) dword
  pure { flags, layerType, childLevel, blendMode, opacity, name, tilesetIndex, userData := none }

/-- cel.rs:90-139 (the `match cel_type`) -/
def parseCelContent : CelType → T CelContent
  | .rawImageData => do
    let width ← word
    let height ← word
    let data ← T.remaining
    pure (.image { width, height, data, compressed := false })
  | .linkedCel => do
    let framePosition ← word
    pure (.linkedCel framePosition)
  | .compressedImage => do
    let width ← word
    let height ← word
    let data ← T.remaining
    pure (.image { width, height, data, compressed := true })
  | .compressedTilemap => do
    let width ← word
    let height ← word
    let bitsPerTile ← word
    let bitmaskTileId ← dword
    let bitmaskYFlip ← dword
    let bitmaskXFlip ← dword
    let bitmaskDiagonalFlip ← dword
    let _ ← take 10
    let data ← T.remaining
    pure (.compressedTilemap width height bitsPerTile bitmaskTileId bitmaskXFlip bitmaskYFlip
      bitmaskDiagonalFlip data)
  | .unknown celType => do
    let data ← T.remaining
    pure (.unknown celType data)

/-- cel.rs:81-152 -/
def parseCelChunk : T CelChunk := do
  let layerIndex ← word
  let x ← short
  let y ← short
  let opacity ← byte
  let celType ← word
  let celType := CelType.ofWord celType
  let zIndex ← short
  let _ ← take 5
  let content ← parseCelContent celType
  T.skipRest
  pure { layerIndex, x, y, opacity, zIndex, content, userData := none }

/-- cel_extra.rs:25-42 -/
def parseCelExtraChunk : T CelExtraChunk := do
  let flags ← dword
  let preciseXPosition ← fixed
  let preciseYPosition ← fixed
  let widthOfTheCel ← fixed
  let heightOfTheCel ← fixed
  let future ← T.remaining
  T.skipRest
  pure { flags := .fromBitsTruncate flags, preciseXPosition, preciseYPosition, widthOfTheCel,
         heightOfTheCel, future }

/-- color_profile.rs:50-57 (the `match profile_type`) -/
def parseColorProfileBody : ColorProfileType → T ColorProfile
  | .noColorProfile => pure .noColorProfile
  | .srgb => pure .srgb
  | .embeddedICC => do
    let n ← dword
    let data ← take n.toNat
    pure (.embeddedICC data)
  | .unknown code => pure (.unknown code)

/-- color_profile.rs:42-69 -/
def parseColorProfile : T ColorProfileChunk := do
  let profileType ← word
  let profileType := ColorProfileType.ofWord profileType
  let flags ← word
  let flags := ColorProfileFlags.fromBitsTruncate flags
  let fixedGamma ← fixed
  let _ ← take 8
  let profile ← parseColorProfileBody profileType
  pure { fixedGamma := if flags.contains ColorProfileFlags.FIXED_GAMMA then some fixedGamma else none,
         profile }

/-- external_files.rs:48-62 -/
def parseExternalFile : T ExternalFile := do
  let entryId ← dword
  let fileType ← byte
  let fileType := ExternalFileType.ofByte fileType
  let _ ← take 7
  let fileName ← parseString
  pure { entryId, fileType, fileName }

/-- external_files.rs:41-46 -/
def parseExternalFilesChunk : T ExternalFilesChunk := do
  let numberOfEntries ← parseDwordAsUsize
  let _ ← take 8
  let files ← count parseExternalFile numberOfEntries
  pure { files }

/-- mask.rs:31-56 -/
def parseMaskChunk : T MaskChunk := do
  let x ← short
  let y ← short
  let width ← word
  let height ← word
  let _ ← take 8
  let name ← parseString
  let data ← T.remaining
  T.skipRest
  pure { x, y, width, height, name, data }

/-- tags.rs:74 `[color[0], color[1], color[2]]` for a slice of length 3; indexing panics otherwise -/
def color3 : Bytes → T (UInt8 × UInt8 × UInt8)
  | c0 :: c1 :: c2 :: _ => pure (c0, c1, c2)
  | _ => T.panic .indexOutOfBounds

/-- tags.rs:52-79 -/
def parseTag : T Tag := do
  let fromFrame ← word
  let toFrame ← word
  if toFrame < fromFrame then T.fail (.failure (.invalidFrameRange fromFrame toFrame))
  else do
    let animationDirection ← byte
    let animationDirection := AnimationDirection.ofByte animationDirection
    let animationRepeat ← word
    let _ ← take 6
    let color ← take 3
    let _ ← byte
    let name ← parseString
    let color ← color3 color
    pure { framesStart := fromFrame, framesEnd := toFrame, animationDirection, animationRepeat, color,
           name, userData := none }

/-- tags.rs:45-50 -/
def parseTagsChunk : T TagsChunk := do
  let numberOfTags ← word
  let _ ← take 8
  let tags ← count parseTag numberOfTags.toNat
  pure { tags }

/-- chunks/palette.rs:58-65 -/
def parsePaletteEntry : T PaletteEntry := do
  let flags ← word
  let flags := PaletteEntryFlags.fromBitsTruncate flags
  let color ← parseColor
  let name ← cond (flags.contains PaletteEntryFlags.HAS_NAME) parseString
  pure { color, name }

/-- chunks/palette.rs:32-56 -/
def parsePaletteChunk : T PaletteChunk := do
  let paletteSize ← parseDwordAsUsize
  let firstIndex ← parseDwordAsU8 (.paletteError .firstColorIndexOutOfBounds)
  let lastIndex ← parseDwordAsU8 (.paletteError .lastColorIndexOutOfBounds)
  if lastIndex < firstIndex then
    T.fail (.failure (.paletteError .firstColorIndexGreaterThanLastColorIndex))
  else do
    let _ ← take 8
    let entries ← count parsePaletteEntry paletteSize
    pure { firstIndex, lastIndex, entries }

/-- slice.rs:94-108 -/
def parseNinePatch : T NinePatch := do
  let x ← long
  let y ← long
  let width ← dword
  let height ← dword
  pure { x, y, width, height }

/-- slice.rs:110-114 -/
def parsePivot : T Pivot := do
  let x ← long
  let y ← long
  pure { x, y }

/-- slice.rs:71-92 -/
def parseSliceKey (flags : SliceFlags) : T SliceKey := do
  let frameNumber ← dword
  let x ← long
  let y ← long
  let width ← dword
  let height ← dword
  let ninePatch ← cond (flags.contains SliceFlags.NINE_PATCH) parseNinePatch
  let pivot ← cond (flags.contains SliceFlags.PIVOT) parsePivot
  pure { frameNumber, x, y, width, height, ninePatch, pivot }

/-- slice.rs:52-69 -/
def parseSliceChunk : T SliceChunk := do
  let numberOfKeys ← parseDwordAsUsize
  let flags ← dword
  let flags := SliceFlags.fromBitsTruncate flags
  let _ ← dword
  let name ← parseString
  let sliceKeys ← count (parseSliceKey flags) numberOfKeys
  pure { name, flags, sliceKeys, userData := none }

/-- tileset.rs:111-121 -/
def parseTilesetExternalFile : T TilesetExternalFile := do
  let externalFileId ← dword
  let tilesetId ← dword
  pure { externalFileId, tilesetId }

/-- tileset.rs:125-127 -/
def parseTiles : T Bytes := do
  let n ← dword
  take n.toNat

/-- tileset.rs:79-109 -/
def parseTilesetChunk : T TilesetChunk := do
  let id ← dword
  let flags ← dword
  let flags := TilesetFlags.fromBitsTruncate flags
  let numberOfTiles ← dword
  let width ← word
  let height ← word
  let baseIndex ← short
  let _ ← take 14
  let name ← parseString
  let externalFile ← cond (flags.contains TilesetFlags.EXTERNAL_FILE) parseTilesetExternalFile
  let tiles ← cond (flags.contains TilesetFlags.TILES) parseTiles
  pure { id, flags, numberOfTiles, width, height, baseIndex, name, externalFile, tiles }

/-- chunk_type.rs:24-26 -/
def parseChunkType : T (Except UInt16 ChunkType) := do
  let n ← word
  match ChunkType.fromRepr n.toNat with
  | some t => pure (.ok t)
  | none => pure (.error n)

/-- chunk.rs:51-69 (the `match chunk_type`) -/
def parseChunkBody (plat : Plat) : Except UInt16 ChunkType → T Chunk
  | .ok .palette0004 => do pure (.palette0004 (← parseOldPaletteChunk))
  | .ok .palette0011 => do pure (.palette0011 (← parseOldPaletteChunk))
  | .ok .layer => do pure (.layer (← parseLayerChunk))
  | .ok .cel => do pure (.cel (← parseCelChunk))
  | .ok .celExtra => do pure (.celExtra (← parseCelExtraChunk))
  | .ok .colorProfile => do pure (.colorProfile (← parseColorProfile))
  | .ok .externalFile => do pure (.externalFiles (← parseExternalFilesChunk))
  | .ok .mask => do pure (.mask (← parseMaskChunk))
  | .ok .path => pure .path
  | .ok .tags => do pure (.tags (← parseTagsChunk))
  | .ok .palette => do pure (.palette (← parsePaletteChunk))
  | .ok .userData => do pure (.userData (← parseUserDataChunk plat))
  | .ok .slice => do pure (.slice (← parseSliceChunk))
  | .ok .tileset => do pure (.tileset (← parseTilesetChunk))
  | .error code => pure (.unsupported code)

/-- chunk.rs:46-71.  (The source reports a bad chunk size as `InvalidFrameSize`.) -/
def parseChunk (plat : Plat) : T Chunk := do
  let size ← dwordSize .invalidFrameSize
  let input ← take (size.toNat - 4)
  T.onSlice (do
    let chunkType ← parseChunkType
    parseChunkBody plat chunkType) input

/-- chunk.rs:42-44 -/
def parseChunks (plat : Plat) (chunkCount : Nat) : T (List Chunk) := count (parseChunk plat) chunkCount

/-- raw_frame.rs:46-54: the part of `parse_rawframe` that runs on the frame's own slice -/
def parseRawframeBody (plat : Plat) : T RawFrame := do
  let _ ← tag frameMagic
  let oldCount ← word
  let duration ← word
  let _ ← take 2
  let newCount ← parseDwordAsUsize
  let chunkCount := if newCount = 0 then oldCount.toNat else newCount
  let chunks ← parseChunks plat chunkCount
  pure { duration, chunks }

/-- raw_frame.rs:42-56 -/
def parseRawframe (plat : Plat) : T RawFrame := do
  let size ← dwordSize .invalidFrameSize
  let input ← take (size.toNat - 4)
  T.onSlice (parseRawframeBody plat) input

/-- raw_frame.rs:38-40 -/
def parseFrames (plat : Plat) : T (List RawFrame) := allConsuming (many1 (parseRawframe plat))

/-- raw_file.rs:13-17 -/
def parseRawFile (plat : Plat) (input : Bytes) : Nat × Outcome NomErr RawFile :=
  match parseHeader input with
  | (t, .ok (input, header)) =>
    match parseFrames plat input with
    | (t', .ok (_, frames)) => (t + t', .ok { header, frames })
    | (t', .err e) => (t + t', .err e)
    | (t', .panic k) => (t + t', .panic k)
  | (t, .err e) => (t, .err e)
  | (t, .panic k) => (t, .panic k)

end Ase.Timed
