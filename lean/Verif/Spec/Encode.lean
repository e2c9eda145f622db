import Verif.Spec.File

/-!
# An encoder

The bytes the format document prescribes for a file, for property C54: reserved bytes are zero, unused optional parts
are absent.  `Fits…` says that a value is one the format can express (its counts and texts fit their fields, the
optional parts agree with the flags).
-/

namespace Ase.Spec

/-- Reserved bytes. -/
def zeros (n : Nat) : Bytes := List.replicate n 0

/-! ## Codes -/

/-- The code of a colour depth. -/
def colorDepthCode : ColorDepth → UInt16
  | .indexed => 8
  | .grayscale => 16
  | .rgba => 32
  | .unknown n => n

/-- The code of a layer type. -/
def layerTypeCode : LayerType → UInt16
  | .normal => 0
  | .group => 1
  | .tilemap => 2
  | .unknown n => n

/-- The code of a blend mode. -/
def blendModeCode : BlendMode → UInt16
  | .normal => 0 | .multiply => 1 | .screen => 2 | .overlay => 3 | .darken => 4 | .lighten => 5 | .colorDodge => 6
  | .colorBurn => 7 | .hardLight => 8 | .softLight => 9 | .difference => 10 | .exclusion => 11 | .hue => 12
  | .saturation => 13 | .color => 14 | .luminosity => 15 | .addition => 16 | .subtract => 17 | .divide => 18
  | .unknown n => n

/-- The code of an animation direction. -/
def directionCode : AnimationDirection → UInt8
  | .forward => 0
  | .reverse => 1
  | .pingPong => 2
  | .pingPongReverse => 3
  | .unknown n => n

/-- The code of an external file type. -/
def externalFileCode : ExternalFileType → UInt8
  | .externalPalette => 0
  | .externalTileset => 1
  | .extensionNameForProperties => 2
  | .unknown n => n

/-- The code of a cel. -/
def celCode : CelContent → UInt16
  | .image i => if i.compressed then 2 else 0
  | .linkedCel _ => 1
  | .compressedTilemap .. => 3
  | .unknown t _ => t

/-- A code outside the table stands for itself.  `first`, the first code after the table, is excluded: the crate
decodes it as `Unknown(0)`, see property C19. -/
def Unlisted {ω α : Type} [BEq ω] (table : List (ω × α)) (first w : ω) : Prop := table.lookup w = none ∧ w ≠ first

/-- The colour depth is a listed one or has an unlisted code. -/
def FitsColorDepth : ColorDepth → Prop
  | .unknown n => colorDepths.lookup n = none
  | _ => True
/-- The layer type is a listed one or has an unlisted code. -/
def FitsLayerType : LayerType → Prop
  | .unknown n => layerTypes.lookup n = none
  | _ => True
/-- The blend mode is a listed one or has an unlisted code. -/
def FitsBlendMode : BlendMode → Prop
  | .unknown n => Unlisted blendModes 19 n
  | _ => True
/-- The animation direction is a listed one or has an unlisted code. -/
def FitsDirection : AnimationDirection → Prop
  | .unknown n => Unlisted animationDirections 4 n
  | _ => True
/-- The external file type is a listed one or has an unlisted code. -/
def FitsExternalType : ExternalFileType → Prop
  | .unknown n => Unlisted externalFileTypes 3 n
  | _ => True

/-! ## Header and chunks -/

/-- The 128 byte header. -/
def headerBytes (h : Header) : Bytes :=
  le32 h.fileSize ++ [0xE0, 0xA5] ++ le16 h.frames ++ le16 h.width ++ le16 h.height ++ le16 (colorDepthCode h.colorDepth)
    ++ le32 h.flags ++ le16 h.speed ++ zeros 8 ++ [h.transparentIndex] ++ zeros 3 ++ le16 h.colorCount
    ++ [h.pixelWidth, h.pixelHeight] ++ les16 h.gridX ++ les16 h.gridY ++ le16 h.gridWidth ++ le16 h.gridHeight
    ++ zeros 84

/-- Layer chunk -/
def layerBytes (c : LayerChunk) : Bytes :=
  le16 c.flags.bits ++ le16 (layerTypeCode c.layerType) ++ le16 c.childLevel ++ zeros 4 ++ le16 (blendModeCode c.blendMode)
    ++ [c.opacity] ++ zeros 3 ++ str c.name ++ (c.tilesetIndex.map le32).getD []

/-- What a layer chunk can express; user data is stored in a separate chunk. -/
def FitsLayer (c : LayerChunk) : Prop :=
  c.flags.bits ≤ 0x7F ∧ FitsLayerType c.layerType ∧ FitsBlendMode c.blendMode ∧ FitsStr c.name ∧
    (c.tilesetIndex.isSome ↔ c.layerType = .tilemap) ∧ c.userData = none

/-- The type dependent part of a cel. -/
def celContentBytes : CelContent → Bytes
  | .image i => le16 i.width ++ le16 i.height ++ i.data
  | .linkedCel f => le16 f
  | .compressedTilemap width height bits tileId xFlip yFlip diagonalFlip data =>
      le16 width ++ le16 height ++ le16 bits ++ le32 tileId ++ le32 xFlip ++ le32 yFlip ++ le32 diagonalFlip
        ++ zeros 10 ++ data
  | .unknown _ data => data

/-- Cel chunk -/
def celBytes (c : CelChunk) : Bytes :=
  le16 c.layerIndex ++ les16 c.x ++ les16 c.y ++ [c.opacity] ++ le16 (celCode c.content) ++ les16 c.zIndex ++ zeros 5
    ++ celContentBytes c.content

/-- What a cel chunk can express. -/
def FitsCel (c : CelChunk) : Prop :=
  (∀ t d, c.content = .unknown t d → Unlisted celTypes 4 t) ∧ c.userData = none

/-- Cel extra chunk -/
def celExtraBytes (c : CelExtraChunk) : Bytes :=
  le32 c.flags.bits ++ fixed c.preciseXPosition ++ fixed c.preciseYPosition ++ fixed c.widthOfTheCel
    ++ fixed c.heightOfTheCel ++ c.future

/-- The code of a colour profile. -/
def colorProfileCode : ColorProfile → UInt16
  | .noColorProfile => 0
  | .srgb => 1
  | .embeddedICC _ => 2
  | .unknown n => n

/-- Colour profile chunk -/
def colorProfileBytes (c : ColorProfileChunk) : Bytes :=
  le16 (colorProfileCode c.profile) ++ (match c.fixedGamma with | some g => le16 1 ++ fixed g | none => le16 0 ++ zeros 4) ++ zeros 8
    ++ (match c.profile with | .embeddedICC data => leNat32 data.length ++ data | _ => [])

/-- What a colour profile chunk can express. -/
def FitsColorProfile (c : ColorProfileChunk) : Prop :=
  match c.profile with
  | .embeddedICC data => data.length < 2 ^ 32
  | .unknown n => Unlisted colorProfileTypes 3 n
  | _ => True

/-- An external file -/
def externalFileBytes (f : ExternalFile) : Bytes :=
  le32 f.entryId ++ [externalFileCode f.fileType] ++ zeros 7 ++ str f.fileName

/-- External files chunk -/
def externalFilesBytes (c : ExternalFilesChunk) : Bytes :=
  leNat32 c.files.length ++ zeros 8 ++ c.files.flatMap externalFileBytes

/-- What an external files chunk can express. -/
def FitsExternalFiles (c : ExternalFilesChunk) : Prop :=
  c.files.length < 2 ^ 32 ∧ ∀ f ∈ c.files, FitsExternalType f.fileType ∧ FitsStr f.fileName

/-- Mask chunk -/
def maskBytes (c : MaskChunk) : Bytes :=
  les16 c.x ++ les16 c.y ++ le16 c.width ++ le16 c.height ++ zeros 8 ++ str c.name ++ c.data

/-- A tag -/
def tagBytes (t : Tag) : Bytes :=
  le16 t.framesStart ++ le16 t.framesEnd ++ [directionCode t.animationDirection] ++ le16 t.animationRepeat ++ zeros 6
    ++ [t.color.1, t.color.2.1, t.color.2.2] ++ [0] ++ str t.name

/-- Tags chunk -/
def tagsBytes (c : TagsChunk) : Bytes := leNat16 c.tags.length ++ zeros 8 ++ c.tags.flatMap tagBytes

/-- What a tags chunk can express. -/
def FitsTags (c : TagsChunk) : Prop :=
  c.tags.length < 2 ^ 16 ∧ ∀ t ∈ c.tags, FitsDirection t.animationDirection ∧ FitsStr t.name ∧
    t.framesStart.toNat ≤ t.framesEnd.toNat ∧ t.userData = none

/-- A palette entry -/
def paletteEntryBytes (e : PaletteEntry) : Bytes :=
  match e.name with
  | some n => le16 1 ++ color e.color ++ str n
  | none => le16 0 ++ color e.color

/-- Palette chunk of a palette that consists of the stored entries. -/
def paletteBytes (c : PaletteChunk) : Bytes :=
  leNat32 c.entries.length ++ leNat32 c.firstIndex.toNat ++ leNat32 c.lastIndex.toNat ++ zeros 8
    ++ c.entries.flatMap paletteEntryBytes

/-- What such a palette chunk can express. -/
def FitsPalette (c : PaletteChunk) : Prop :=
  c.entries.length < 2 ^ 32 ∧ c.firstIndex.toNat ≤ c.lastIndex.toNat ∧
    ∀ e ∈ c.entries, ∀ n, e.name = some n → FitsStr n

/-- A packet -/
def packetBytes (p : Packet) : Bytes := [p.entriesToSkip, UInt8.ofNat p.colors.length] ++ p.colors.flatMap rgb

/-- Old palette chunk -/
def oldPaletteBytes (c : OldPaletteChunk) : Bytes := leNat16 c.packets.length ++ c.packets.flatMap packetBytes

/-- What an old palette chunk can express. -/
def FitsOldPalette (c : OldPaletteChunk) : Prop :=
  c.packets.length < 2 ^ 16 ∧ ∀ p ∈ c.packets, 1 ≤ p.colors.length ∧ p.colors.length ≤ 256

/-- A slice key -/
def sliceKeyBytes (k : SliceKey) : Bytes :=
  le32 k.frameNumber ++ les32 k.x ++ les32 k.y ++ le32 k.width ++ le32 k.height ++ (k.ninePatch.map ninePatch).getD []
    ++ (k.pivot.map pivot).getD []

/-- Slice chunk -/
def sliceBytes (c : SliceChunk) : Bytes :=
  leNat32 c.sliceKeys.length ++ le32 c.flags.bits ++ zeros 4 ++ str c.name ++ c.sliceKeys.flatMap sliceKeyBytes

/-- What a slice chunk can express. -/
def FitsSlice (c : SliceChunk) : Prop :=
  c.sliceKeys.length < 2 ^ 32 ∧ c.flags.bits ≤ 3 ∧ FitsStr c.name ∧ c.userData = none ∧
    ∀ k ∈ c.sliceKeys, (k.ninePatch.isSome ↔ bit32 c.flags.bits 0) ∧ (k.pivot.isSome ↔ bit32 c.flags.bits 1)

/-- Tileset chunk -/
def tilesetBytes (c : TilesetChunk) : Bytes :=
  le32 c.id ++ le32 c.flags.bits ++ le32 c.numberOfTiles ++ le16 c.width ++ le16 c.height ++ les16 c.baseIndex
    ++ zeros 14 ++ str c.name ++ (c.externalFile.map tilesetExternal).getD []
    ++ (match c.tiles with | some d => leNat32 d.length ++ d | none => [])

/-- What a tileset chunk can express. -/
def FitsTileset (c : TilesetChunk) : Prop :=
  c.flags.bits ≤ 0x3F ∧ FitsStr c.name ∧ (c.externalFile.isSome ↔ bit32 c.flags.bits 0) ∧
    (c.tiles.isSome ↔ bit32 c.flags.bits 1) ∧ ∀ d, c.tiles = some d → d.length < 2 ^ 32

/-! ## User data -/

/-- A vector of elements of fixed type. -/
def elems {α : Type} (code : UInt16) (enc : α → Bytes) (xs : List α) : Bytes :=
  leNat32 xs.length ++ le16 code ++ xs.flatMap enc

/-- A boolean -/
def boolByte (b : Bool) : Bytes := [if b then 1 else 0]

mutual

/-- A property value: type code, then the value.  (`mixedVector` is not a type of the format.) -/
def valueBytes : Value → Bytes
  | .bool b => le16 0x01 ++ boolByte b
  | .int8 v => le16 0x02 ++ les8 v
  | .uint8 v => le16 0x03 ++ [v]
  | .int16 v => le16 0x04 ++ les16 v
  | .uint16 v => le16 0x05 ++ le16 v
  | .int32 v => le16 0x06 ++ les32 v
  | .uint32 v => le16 0x07 ++ le32 v
  | .int64 v => le16 0x08 ++ les64 v
  | .uint64 v => le16 0x09 ++ le64 v
  | .fixed v => le16 0x0A ++ fixed v
  | .float v => le16 0x0B ++ le32 v
  | .double v => le16 0x0C ++ le64 v
  | .string s => le16 0x0D ++ str s
  | .point v => le16 0x0E ++ point v
  | .size v => le16 0x0F ++ size v
  | .rect v => le16 0x10 ++ rect v
  | .vector v => le16 0x11 ++ vectorBytes v
  | .mixedVector _ => []
  | .propertiesMap m => le16 0x12 ++ mapBytes m
  | .uuid v => le16 0x13 ++ le128 v

/-- A vector -/
def vectorBytes : PVector → Bytes
  | .mixed vs => leNat32 vs.length ++ le16 0x00 ++ valuesBytes vs
  | .bool vs => elems 0x01 boolByte vs
  | .int8 vs => elems 0x02 les8 vs
  | .uint8 vs => elems 0x03 (fun v => [v]) vs
  | .int16 vs => elems 0x04 les16 vs
  | .uint16 vs => elems 0x05 le16 vs
  | .int32 vs => elems 0x06 les32 vs
  | .uint32 vs => elems 0x07 le32 vs
  | .int64 vs => elems 0x08 les64 vs
  | .uint64 vs => elems 0x09 le64 vs
  | .fixed vs => elems 0x0A fixed vs
  | .float vs => elems 0x0B le32 vs
  | .double vs => elems 0x0C le64 vs
  | .string vs => elems 0x0D str vs
  | .point vs => elems 0x0E point vs
  | .size vs => elems 0x0F size vs
  | .rect vs => elems 0x10 rect vs
  | .vector vs => leNat32 vs.length ++ le16 0x11 ++ vectorsBytes vs
  | .propertiesMap vs => leNat32 vs.length ++ le16 0x12 ++ mapsBytes vs
  | .uuid vs => elems 0x13 le128 vs

/-- values one after the other -/
def valuesBytes : List Value → Bytes
  | [] => []
  | v :: vs => valueBytes v ++ valuesBytes vs

/-- vectors one after the other -/
def vectorsBytes : List PVector → Bytes
  | [] => []
  | v :: vs => vectorBytes v ++ vectorsBytes vs

/-- maps nested in a vector one after the other -/
def mapsBytes : List PropertiesMap → Bytes
  | [] => []
  | m :: ms => mapBytes m ++ mapsBytes ms

/-- A properties map without its key -/
def mapBytes : PropertiesMap → Bytes
  | .mk _ props => leNat32 props.length ++ propsBytes props

/-- properties one after the other -/
def propsBytes : List Property → Bytes
  | [] => []
  | p :: ps => propBytes p ++ propsBytes ps

/-- A property: name and value -/
def propBytes : Property → Bytes
  | .mk name v => str name ++ valueBytes v

end

mutual

/-- What a value can express. -/
def FitsValue : Value → Prop
  | .string s => FitsStr s
  | .vector v => FitsVector v
  | .mixedVector _ => False
  | .propertiesMap m => FitsNested m
  | _ => True

/-- What a vector can express. -/
def FitsVector : PVector → Prop
  | .mixed vs => vs.length < 2 ^ 32 ∧ FitsValues vs
  | .bool vs => vs.length < 2 ^ 32
  | .int8 vs => vs.length < 2 ^ 32
  | .uint8 vs => vs.length < 2 ^ 32
  | .int16 vs => vs.length < 2 ^ 32
  | .uint16 vs => vs.length < 2 ^ 32
  | .int32 vs => vs.length < 2 ^ 32
  | .uint32 vs => vs.length < 2 ^ 32
  | .int64 vs => vs.length < 2 ^ 32
  | .uint64 vs => vs.length < 2 ^ 32
  | .fixed vs => vs.length < 2 ^ 32
  | .float vs => vs.length < 2 ^ 32
  | .double vs => vs.length < 2 ^ 32
  | .string vs => vs.length < 2 ^ 32 ∧ ∀ s ∈ vs, FitsStr s
  | .point vs => vs.length < 2 ^ 32
  | .size vs => vs.length < 2 ^ 32
  | .rect vs => vs.length < 2 ^ 32
  | .vector vs => vs.length < 2 ^ 32 ∧ FitsVectors vs
  | .propertiesMap vs => vs.length < 2 ^ 32 ∧ FitsNesteds vs
  | .uuid vs => vs.length < 2 ^ 32

/-- All values fit. -/
def FitsValues : List Value → Prop
  | [] => True
  | v :: vs => FitsValue v ∧ FitsValues vs

/-- All vectors fit. -/
def FitsVectors : List PVector → Prop
  | [] => True
  | v :: vs => FitsVector v ∧ FitsVectors vs

/-- All nested maps fit. -/
def FitsNesteds : List PropertiesMap → Prop
  | [] => True
  | m :: ms => FitsNested m ∧ FitsNesteds ms

/-- A map nested in a value has no key. -/
def FitsNested : PropertiesMap → Prop
  | .mk key props => key = 0 ∧ props.length < 2 ^ 32 ∧ FitsProps props

/-- All properties fit. -/
def FitsProps : List Property → Prop
  | [] => True
  | p :: ps => FitsProp p ∧ FitsProps ps

/-- What a property can express. -/
def FitsProp : Property → Prop
  | .mk name v => FitsStr name ∧ FitsValue v

end

/-- A map directly in the chunk, with its key -/
def keyedMapBytes : PropertiesMap → Bytes
  | .mk key props => le32 key ++ mapBytes (.mk key props)

/-- What a map directly in the chunk can express. -/
def FitsMap : PropertiesMap → Prop
  | .mk _ props => props.length < 2 ^ 32 ∧ FitsProps props

/-- The properties section; the first component are unused bytes at its end. -/
def propertiesBytes (v : Bytes × List PropertiesMap) : Bytes :=
  let maps := v.2.flatMap keyedMapBytes
  leNat32 (8 + maps.length + v.1.length) ++ leNat32 v.2.length ++ maps ++ v.1

/-- User data chunk -/
def userDataBytes (c : UserDataChunk) : Bytes :=
  let bit (present : Bool) (value : UInt32) : UInt32 := if present then value else 0
  le32 (bit c.text.isSome 1 ||| bit c.color.isSome 2 ||| bit c.propertiesMaps.isSome 4)
    ++ (c.text.map str).getD [] ++ (c.color.map color).getD []
    ++ (match c.propertiesMaps with | some (.ok v) => propertiesBytes v | _ => [])

/-- What a user data chunk can express. -/
def FitsUserData (c : UserDataChunk) : Prop :=
  (∀ s, c.text = some s → FitsStr s) ∧
    ∀ x, c.propertiesMaps = some x → ∃ v, x = .ok v ∧ v.2.length < 2 ^ 32 ∧ ∀ m ∈ v.2, FitsMap m

/-! ## Chunks, frames, files -/

/-- The type of a chunk. -/
def chunkCode : Chunk → UInt16
  | .palette0004 _ => 0x0004 | .palette0011 _ => 0x0011 | .layer _ => 0x2004 | .cel _ => 0x2005 | .celExtra _ => 0x2006
  | .colorProfile _ => 0x2007 | .externalFiles _ => 0x2008 | .mask _ => 0x2016 | .path => 0x2017 | .tags _ => 0x2018
  | .palette _ => 0x2019 | .userData _ => 0x2020 | .slice _ => 0x2022 | .tileset _ => 0x2023 | .unsupported n => n

/-- The contents of a chunk. -/
def contentBytes : Chunk → Bytes
  | .palette0004 c | .palette0011 c => oldPaletteBytes c
  | .layer c => layerBytes c
  | .cel c => celBytes c
  | .celExtra c => celExtraBytes c
  | .colorProfile c => colorProfileBytes c
  | .externalFiles c => externalFilesBytes c
  | .mask c => maskBytes c
  | .tags c => tagsBytes c
  | .palette c => paletteBytes c
  | .userData c => userDataBytes c
  | .slice c => sliceBytes c
  | .tileset c => tilesetBytes c
  | .path | .unsupported _ => []

/-- What the contents of a chunk can express. -/
def FitsContent : Chunk → Prop
  | .palette0004 c | .palette0011 c => FitsOldPalette c
  | .layer c => FitsLayer c
  | .cel c => FitsCel c
  | .celExtra c => c.flags.bits ≤ 1
  | .colorProfile c => FitsColorProfile c
  | .externalFiles c => FitsExternalFiles c
  | .mask c => FitsStr c.name
  | .tags c => FitsTags c
  | .palette c => FitsPalette c
  | .userData c => FitsUserData c
  | .slice c => FitsSlice c
  | .tileset c => FitsTileset c
  | .path => True
  | .unsupported n => chunkTypes.lookup n = none

/-- A chunk: size, type, contents. -/
def chunkBytes (c : Chunk) : Bytes :=
  leNat32 (6 + (contentBytes c).length) ++ le16 (chunkCode c) ++ contentBytes c

/-- What a chunk can express. -/
def FitsChunk (c : Chunk) : Prop := FitsContent c ∧ (chunkBytes c).length < 2 ^ 32

/-- A frame: size, magic number, number of chunks (0xFFFF in the old field if it is too large for it), duration,
reserved bytes, number of chunks, chunks. -/
def frameBytes (f : RawFrame) : Bytes :=
  let chunks := f.chunks.flatMap chunkBytes
  leNat32 (16 + chunks.length) ++ [0xFA, 0xF1] ++ leNat16 (min f.chunks.length 0xFFFF) ++ le16 f.duration ++ zeros 2
    ++ leNat32 f.chunks.length ++ chunks

/-- What a frame can express. -/
def FitsFrame (f : RawFrame) : Prop := (∀ c ∈ f.chunks, FitsChunk c) ∧ (frameBytes f).length < 2 ^ 32

/-- A file: header and frames. -/
def fileBytes (f : RawFile) : Bytes := headerBytes f.header ++ f.frames.flatMap frameBytes

/-- What a file can express. -/
def FitsFile (f : RawFile) : Prop :=
  FitsColorDepth f.header.colorDepth ∧ f.frames ≠ [] ∧ ∀ fr ∈ f.frames, FitsFrame fr

/-! ## Contents the crate decodes differently -/

/-- What the crate makes of a chunk: the flip masks of tilemaps are exchanged (C12). -/
def readAs : Chunk → Chunk
  | .cel c => .cel { c with content := swapFlips c.content }
  | c => c

/-- What the crate makes of a file. -/
def readFileAs (f : RawFile) : RawFile :=
  { f with frames := f.frames.map fun fr => { fr with chunks := fr.chunks.map readAs } }

/-- The chunk does not contain a properties map nested in a value: the crate does not read those as documented (C16). -/
def NoNestedMaps : Chunk → Prop
  | .userData c => ∀ v, c.propertiesMaps = some (.ok v) → ∀ m ∈ v.2, propsMapFree m = true
  | _ => True

/-- The stack is large enough for the property values of the chunk, if it has any. -/
def StackFor (plat : Plat) : Chunk → Prop
  | .userData c => c.propertiesMaps ≠ none → (userDataBytes c).length < 2 * plat.stack
  | _ => True

/-- The chunk is not a tilemap cel with different X and Y flip masks. -/
def NoFlips (c : Chunk) : Prop :=
  ∀ x, c = .cel x → ∀ width height bits tileId xFlip yFlip diagonalFlip data,
    x.content = .compressedTilemap width height bits tileId xFlip yFlip diagonalFlip data → xFlip = yFlip

end Ase.Spec
