import Verif.Spec.Layout
import Verif.Spec.Codes

/-!
# Layout of headers and chunks

For every record type a relation "the bytes `l` are a record with the fields of `x`", written from
`ase-file-specs.md`.  Bytes the format calls reserved, "for future" or "ignored" are existentially quantified:
any value is accepted.  Where the crate deviates from the format document, the relation describes the format and
the deviation is spelled out in the theorem about the parser (see DESIGN.md).
-/

namespace Ase.Spec

/-- A field that is stored only when `present`. -/
def Opt {α : Type} (present : Prop) (G : α → Bytes → Prop) (x : Option α) (l : Bytes) : Prop :=
  match x with
  | some y => present ∧ G y l
  | none => ¬ present ∧ l = []

/-- The bytes `l` are the fixed encoding of the value. -/
def As {α : Type} (enc : α → Bytes) : α → Bytes → Prop := fun x l => l = enc x

/-- A STRING field. -/
def IsStr (s : String) (l : Bytes) : Prop := FitsStr s ∧ l = str s

/-- Bit `i` of a flag word. -/
def bit16 (w : UInt16) (i : Nat) : Prop := w.toNat.testBit i = true
/-- Bit `i` of a flag double word. -/
def bit32 (w : UInt32) (i : Nat) : Prop := w.toNat.testBit i = true

/-- The 128 byte file header. -/
def IsHeader (h : Header) (l : Bytes) : Prop :=
  ∃ (depth : UInt16) (ignore future : Bytes), ignore.length = 3 ∧ future.length = 84 ∧
    h.colorDepth = colorDepthOf depth ∧
    l = le32 h.fileSize ++ [0xE0, 0xA5] ++ le16 h.frames ++ le16 h.width ++ le16 h.height ++ le16 depth
      ++ le32 h.flags ++ le16 h.speed ++ [0, 0, 0, 0] ++ [0, 0, 0, 0] ++ [h.transparentIndex] ++ ignore
      ++ le16 h.colorCount ++ [h.pixelWidth] ++ [h.pixelHeight] ++ les16 h.gridX ++ les16 h.gridY
      ++ le16 h.gridWidth ++ le16 h.gridHeight ++ future

/-- Layer chunk (0x2004). -/
def IsLayer (c : LayerChunk) (l : Bytes) : Prop :=
  ∃ (flags type defaultWidth defaultHeight blend : UInt16) (future tileset : Bytes),
    future.length = 3 ∧ FitsStr c.name ∧
    c.flags.bits = flags &&& 0x7F ∧ c.layerType = layerTypeOf type ∧ c.blendMode = blendModeOf blend ∧
    Opt (type = 2) (As le32) c.tilesetIndex tileset ∧ c.userData = none ∧
    l = le16 flags ++ le16 type ++ le16 c.childLevel ++ le16 defaultWidth ++ le16 defaultHeight ++ le16 blend
      ++ [c.opacity] ++ future ++ str c.name ++ tileset

/-- The type dependent part of a cel chunk. Everything up to the end of the chunk belongs to it. -/
def IsCelBody (type : UInt16) (content : CelContent) (l : Bytes) : Prop :=
  match content with
  | .image i => (type = 0 ∧ i.compressed = false ∨ type = 2 ∧ i.compressed = true) ∧
      l = le16 i.width ++ le16 i.height ++ i.data
  | .linkedCel framePosition => type = 1 ∧ ∃ extra, l = le16 framePosition ++ extra
  | .compressedTilemap width height bits tileId xFlip yFlip diagonalFlip data =>
      type = 3 ∧ ∃ reserved : Bytes, reserved.length = 10 ∧
      l = le16 width ++ le16 height ++ le16 bits ++ le32 tileId ++ le32 xFlip ++ le32 yFlip
        ++ le32 diagonalFlip ++ reserved ++ data
  | .unknown t data => celTypeOf type = .unknown t ∧ l = data

/-- The same content with the X and Y flip masks of a tilemap exchanged.  (The crate reads the two masks in the
opposite order, see property C12.) -/
def swapFlips : CelContent → CelContent
  | .compressedTilemap width height bits tileId xFlip yFlip diagonalFlip data =>
      .compressedTilemap width height bits tileId yFlip xFlip diagonalFlip data
  | c => c

/-- Cel chunk (0x2005). -/
def IsCel (c : CelChunk) (l : Bytes) : Prop :=
  ∃ (type : UInt16) (future body : Bytes), future.length = 5 ∧ IsCelBody type c.content body ∧
    c.userData = none ∧
    l = le16 c.layerIndex ++ les16 c.x ++ les16 c.y ++ [c.opacity] ++ le16 type ++ les16 c.zIndex ++ future ++ body

/-- Cel extra chunk (0x2006). -/
def IsCelExtra (c : CelExtraChunk) (l : Bytes) : Prop :=
  ∃ flags : UInt32, c.flags.bits = flags &&& 1 ∧
    l = le32 flags ++ fixed c.preciseXPosition ++ fixed c.preciseYPosition ++ fixed c.widthOfTheCel
      ++ fixed c.heightOfTheCel ++ c.future

/-- Colour profile chunk (0x2007). -/
def IsColorProfile (c : ColorProfileChunk) (l : Bytes) : Prop :=
  ∃ (type flags : UInt16) (gamma : Fixed) (reserved icc : Bytes), reserved.length = 8 ∧
    c.fixedGamma = (if flags &&& 1 = 1 then some gamma else none) ∧
    (match c.profile with
     | .noColorProfile => type = 0 ∧ icc = []
     | .srgb => type = 1 ∧ icc = []
     | .embeddedICC data => type = 2 ∧ data.length < 2 ^ 32 ∧ icc = leNat32 data.length ++ data
     | .unknown t => colorProfileTypeOf type = .unknown t ∧ icc = []) ∧
    l = le16 type ++ le16 flags ++ fixed gamma ++ reserved ++ icc

/-- One entry of an external files chunk. -/
def IsExternalFile (f : ExternalFile) (l : Bytes) : Prop :=
  ∃ (type : UInt8) (reserved : Bytes), reserved.length = 7 ∧ FitsStr f.fileName ∧
    f.fileType = externalFileTypeOf type ∧
    l = le32 f.entryId ++ [type] ++ reserved ++ str f.fileName

/-- External files chunk (0x2008). -/
def IsExternalFiles (c : ExternalFilesChunk) (l : Bytes) : Prop :=
  ∃ reserved entries : Bytes, reserved.length = 8 ∧ c.files.length < 2 ^ 32 ∧
    Seq IsExternalFile c.files entries ∧
    l = leNat32 c.files.length ++ reserved ++ entries

/-- Mask chunk (0x2016); the bitmap is the rest of the chunk. -/
def IsMask (c : MaskChunk) (l : Bytes) : Prop :=
  ∃ future : Bytes, future.length = 8 ∧ FitsStr c.name ∧
    l = les16 c.x ++ les16 c.y ++ le16 c.width ++ le16 c.height ++ future ++ str c.name ++ c.data

/-- One tag. -/
def IsTag (t : Tag) (l : Bytes) : Prop :=
  ∃ (direction extra : UInt8) (future : Bytes), future.length = 6 ∧ FitsStr t.name ∧
    t.framesStart.toNat ≤ t.framesEnd.toNat ∧
    t.animationDirection = animationDirectionOf direction ∧ t.userData = none ∧
    l = le16 t.framesStart ++ le16 t.framesEnd ++ [direction] ++ le16 t.animationRepeat ++ future
      ++ [t.color.1, t.color.2.1, t.color.2.2] ++ [extra] ++ str t.name

/-- Tags chunk (0x2018). -/
def IsTags (c : TagsChunk) (l : Bytes) : Prop :=
  ∃ future entries : Bytes, future.length = 8 ∧ c.tags.length < 2 ^ 16 ∧ Seq IsTag c.tags entries ∧
    l = leNat16 c.tags.length ++ future ++ entries

/-- One entry of a palette chunk. -/
def IsPaletteEntry (e : PaletteEntry) (l : Bytes) : Prop :=
  ∃ (flags : UInt16) (name : Bytes), Opt (bit16 flags 0) IsStr e.name name ∧
    l = le16 flags ++ color e.color ++ name

/-- Palette chunk (0x2019) with `stored` as its first field.  The format document calls that field the
*total size of the palette* and stores `last - first + 1` entries; the crate takes it as the number of stored
entries (see property C14). -/
def IsPalette (stored : Nat) (c : PaletteChunk) (l : Bytes) : Prop :=
  ∃ future entries : Bytes, future.length = 8 ∧ stored < 2 ^ 32 ∧
    c.firstIndex.toNat ≤ c.lastIndex.toNat ∧ Seq IsPaletteEntry c.entries entries ∧
    l = leNat32 stored ++ leNat32 c.firstIndex.toNat ++ leNat32 c.lastIndex.toNat ++ future ++ entries

/-- One packet of an old palette chunk: a stored count of 0 means 256 colours. -/
def IsPacket (p : Packet) (l : Bytes) : Prop :=
  ∃ colors : Bytes, 1 ≤ p.colors.length ∧ p.colors.length ≤ 256 ∧ Seq (As rgb) p.colors colors ∧
    l = [p.entriesToSkip] ++ [UInt8.ofNat p.colors.length] ++ colors

/-- Old palette chunks (0x0004 and 0x0011). -/
def IsOldPalette (c : OldPaletteChunk) (l : Bytes) : Prop :=
  ∃ packets : Bytes, c.packets.length < 2 ^ 16 ∧ Seq IsPacket c.packets packets ∧
    l = leNat16 c.packets.length ++ packets

/-- Nine-patch part of a slice key. -/
def ninePatch (p : NinePatch) : Bytes := les32 p.x ++ les32 p.y ++ le32 p.width ++ le32 p.height
/-- Pivot part of a slice key. -/
def pivot (p : Pivot) : Bytes := les32 p.x ++ les32 p.y

/-- One slice key, given the flags of the slice. -/
def IsSliceKey (flags : UInt32) (k : SliceKey) (l : Bytes) : Prop :=
  ∃ nine piv : Bytes, Opt (bit32 flags 0) (As ninePatch) k.ninePatch nine ∧
    Opt (bit32 flags 1) (As pivot) k.pivot piv ∧
    l = le32 k.frameNumber ++ les32 k.x ++ les32 k.y ++ le32 k.width ++ le32 k.height ++ nine ++ piv

/-- Slice chunk (0x2022). -/
def IsSlice (c : SliceChunk) (l : Bytes) : Prop :=
  ∃ (flags reserved : UInt32) (keys : Bytes), c.sliceKeys.length < 2 ^ 32 ∧ FitsStr c.name ∧
    c.flags.bits = flags &&& 3 ∧ c.userData = none ∧ Seq (IsSliceKey flags) c.sliceKeys keys ∧
    l = leNat32 c.sliceKeys.length ++ le32 flags ++ le32 reserved ++ str c.name ++ keys

/-- The external file part of a tileset. -/
def tilesetExternal (e : TilesetExternalFile) : Bytes := le32 e.externalFileId ++ le32 e.tilesetId
/-- The tile data of a tileset. -/
def IsTiles (d : Bytes) (l : Bytes) : Prop := d.length < 2 ^ 32 ∧ l = leNat32 d.length ++ d

/-- Tileset chunk (0x2023). -/
def IsTileset (c : TilesetChunk) (l : Bytes) : Prop :=
  ∃ (flags : UInt32) (reserved ext tiles : Bytes), reserved.length = 14 ∧ FitsStr c.name ∧
    c.flags.bits = flags &&& 0x3F ∧
    Opt (bit32 flags 0) (As tilesetExternal) c.externalFile ext ∧ Opt (bit32 flags 1) IsTiles c.tiles tiles ∧
    l = le32 c.id ++ le32 flags ++ le32 c.numberOfTiles ++ le16 c.width ++ le16 c.height ++ les16 c.baseIndex
      ++ reserved ++ str c.name ++ ext ++ tiles

end Ase.Spec
