import Verif.Model.Header
import Verif.Model.Chunks

/-!
# `src/binary/chunk.rs`, `raw_frame.rs`, `raw_file.rs`, `palette.rs`, `file.rs`
-/

namespace Ase

/-! ## `chunk.rs` -/

/-- chunk.rs:23-40 -/
inductive Chunk where
  | palette0004 (c : OldPaletteChunk)
  | palette0011 (c : OldPaletteChunk)
  | layer (c : LayerChunk)
  | cel (c : CelChunk)
  | celExtra (c : CelExtraChunk)
  | colorProfile (c : ColorProfileChunk)
  | externalFiles (c : ExternalFilesChunk)
  | mask (c : MaskChunk)
  | path
  | tags (c : TagsChunk)
  | palette (c : PaletteChunk)
  | userData (c : UserDataChunk)
  | slice (c : SliceChunk)
  | tileset (c : TilesetChunk)
  | unsupported (code : UInt16)

/-- chunk_type.rs:24-26 -/
def parseChunkType : P (Except UInt16 ChunkType) := do
  let n ← word
  match ChunkType.fromRepr n.toNat with
  | some t => pure (.ok t)
  | none => pure (.error n)

/-- chunk.rs:51-69 (the `match chunk_type`) -/
def parseChunkBody (plat : Plat) : Except UInt16 ChunkType → P Chunk
  | .ok .palette0004 => do pure (.palette0004 (← parseOldPaletteChunk))
  | .ok .palette0011 => do pure (.palette0011 (← parseOldPaletteChunk))
  | .ok .layer => do pure (.layer (← parseLayerChunk))
  | .ok .cel => do pure (.cel (← parseCelChunk))
  | .ok .celExtra => do pure (.celExtra (← parseCelExtraChunk))
  | .ok .colorProfile => do pure (.colorProfile (← parseColorProfile))
  | .ok .externalFile => do pure (.externalFiles (← parseExternalFilesChunk))
  | .ok .mask => do pure (.mask (← parseMaskChunk))
  | .ok .path => pure .path
  | .ok .tags => do pure (.tags (← parseTagsChunk))
  | .ok .palette => do pure (.palette (← parsePaletteChunk))
  | .ok .userData => do pure (.userData (← parseUserDataChunk plat))
  | .ok .slice => do pure (.slice (← parseSliceChunk))
  | .ok .tileset => do pure (.tileset (← parseTilesetChunk))
  | .error code => pure (.unsupported code)

/-- chunk.rs:46-71.  (The source reports a bad chunk size as `InvalidFrameSize`.) -/
def parseChunk (plat : Plat) : P Chunk := do
  let size ← dwordSize .invalidFrameSize
  let input ← take (size.toNat - 4)
  P.onSlice (do
    let chunkType ← parseChunkType
    parseChunkBody plat chunkType) input

/-- chunk.rs:42-44 -/
def parseChunks (plat : Plat) (chunkCount : Nat) : P (List Chunk) := count (parseChunk plat) chunkCount

/-! ## `raw_frame.rs` -/

/-- raw_frame.rs:18-22 -/
structure RawFrame where
  duration : UInt16
  chunks : List Chunk

/-- raw_frame.rs:24-34 `cels` -/
def RawFrame.cels (f : RawFrame) : List CelChunk :=
  f.chunks.filterMap fun | .cel c => some c | _ => none

/-- raw_frame.rs:36 `0xF1FAu16.to_le_bytes()` -/
def frameMagic : Bytes := [0xFA, 0xF1]

/-- raw_frame.rs:46-54: the part of `parse_rawframe` that runs on the frame's own slice -/
def parseRawframeBody (plat : Plat) : P RawFrame := do
  let _ ← tag frameMagic
  let oldCount ← word
  let duration ← word
  let _ ← take 2
  let newCount ← parseDwordAsUsize
  let chunkCount := if newCount = 0 then oldCount.toNat else newCount
  let chunks ← parseChunks plat chunkCount
  pure { duration, chunks }

/-- raw_frame.rs:42-56 -/
def parseRawframe (plat : Plat) : P RawFrame := do
  let size ← dwordSize .invalidFrameSize
  let input ← take (size.toNat - 4)
  P.onSlice (parseRawframeBody plat) input

/-- raw_frame.rs:38-40 -/
def parseFrames (plat : Plat) : P (List RawFrame) := allConsuming (many1 (parseRawframe plat))

/-! ## `raw_file.rs` -/

/-- raw_file.rs:7-11 -/
structure RawFile where
  header : Header
  frames : List RawFrame

/-- raw_file.rs:13-17 -/
def parseRawFile (plat : Plat) (input : Bytes) : Outcome NomErr RawFile := do
  let (input, header) ← parseHeader input
  let (_, frames) ← parseFrames plat input
  pure { header, frames }

/-! ## `palette.rs` -/

/-- palette.rs:11-14 `colors: [Color; 256]`, here a list of 256 entries -/
structure Palette where
  colors : List PColor
deriving DecidableEq, Repr

/-- palette.rs:16-22 -/
def Palette.default : Palette := { colors := List.replicate 256 ⟨0, 0, 0, 0⟩ }

/-- `palette.colors[i] = c`: panics outside the 256 entries -/
def Palette.setColor (p : Palette) (i : Nat) (c : PColor) : Outcome PaletteError Palette :=
  if i < p.colors.length then .ok { colors := p.colors.set i c } else .panic .indexOutOfBounds

/-- `palette.colors[usize::from(i)].alpha = 0` (palette.rs:93,126) -/
def Palette.setTransparent (p : Palette) (i : Nat) : Outcome PaletteError Palette :=
  match p.colors[i]? with
  | some c => p.setColor i { c with alpha := 0 }
  | none => .panic .indexOutOfBounds

/-- palette.rs:87-90: the inner loop over `entries.iter().zip(indices)`; the index range
`idx..=last` is the third/fourth argument, `ok` becomes true once an entry is stored -/
def storeEntries (p : Palette) (ok : Bool) :
    List PaletteEntry → (idx : Nat) → (last : Nat) → Outcome PaletteError (Palette × Bool)
  | [], _, _ => .ok (p, ok)
  | e :: es, idx, last =>
    if idx ≤ last then do
      let p ← p.setColor idx e.color
      storeEntries p true es (idx + 1) last
    else .ok (p, ok)

/-- palette.rs:83-91: the loop over the chunks -/
def storePaletteChunks (p : Palette) (ok : Bool) : List PaletteChunk → Outcome PaletteError (Palette × Bool)
  | [] => .ok (p, ok)
  | c :: cs => do
    let (p, ok) ← storeEntries p ok c.entries c.firstIndex.toNat c.lastIndex.toNat
    storePaletteChunks p ok cs

/-- palette.rs:77-98 -/
def processPaletteChunks (transparentIndex : UInt8) (chunks : List PaletteChunk) (p : Palette) :
    Outcome PaletteError Palette := do
  let (p, ok) ← storePaletteChunks p false chunks
  if ok then p.setTransparent transparentIndex.toNat else .err .empty

/-- palette.rs:113-122: the colours of one packet -/
def storeColors (p : Palette) (ok : Bool) (idx : Nat) :
    List RGB → Outcome PaletteError (Palette × Bool × Nat)
  | [] => .ok (p, ok, idx)
  | c :: cs => do
    let p ← p.setColor idx ⟨c.red, c.green, c.blue, 255⟩
    storeColors p true (idx + 1) cs

/-- palette.rs:108-123: the packets of one chunk -/
def storePackets (p : Palette) (ok : Bool) (idx : Nat) :
    List Packet → Outcome PaletteError (Palette × Bool)
  | [] => .ok (p, ok)
  | k :: ks => do
    let idx := idx + k.entriesToSkip.toNat
    if idx + k.colors.length > 256 then .err .indexOutOfBounds
    else do
      let (p, ok, idx) ← storeColors p ok idx k.colors
      storePackets p ok idx ks

/-- palette.rs:106-124: the loop over the chunks -/
def storeOldChunks (p : Palette) (ok : Bool) : List OldPaletteChunk → Outcome PaletteError (Palette × Bool)
  | [] => .ok (p, ok)
  | c :: cs => do
    let (p, ok) ← storePackets p ok 0 c.packets
    storeOldChunks p ok cs

/-- palette.rs:100-131 -/
def processOldPaletteChunks (transparentIndex : UInt8) (chunks : List OldPaletteChunk) (p : Palette) :
    Outcome PaletteError Palette := do
  let (p, ok) ← storeOldChunks p false chunks
  if ok then p.setTransparent transparentIndex.toNat else .err .empty

/-- palette.rs:26-37 -/
def paletteChunks (frames : List RawFrame) : List PaletteChunk :=
  frames.flatMap fun f => f.chunks.filterMap fun | .palette c => some c | _ => none

/-- palette.rs:42-53 -/
def palette0004Chunks (frames : List RawFrame) : List OldPaletteChunk :=
  frames.flatMap fun f => f.chunks.filterMap fun | .palette0004 c => some c | _ => none

/-- palette.rs:58-69 -/
def palette0011Chunks (frames : List RawFrame) : List OldPaletteChunk :=
  frames.flatMap fun f => f.chunks.filterMap fun | .palette0011 c => some c | _ => none

/-- palette.rs:24-75 -/
def createPalette (header : Header) (frames : List RawFrame) : Outcome PaletteError Palette :=
  if !(paletteChunks frames).isEmpty then
    processPaletteChunks header.transparentIndex (paletteChunks frames) .default
  else if !(palette0004Chunks frames).isEmpty then
    processOldPaletteChunks header.transparentIndex (palette0004Chunks frames) .default
  else if !(palette0011Chunks frames).isEmpty then
    processOldPaletteChunks header.transparentIndex (palette0011Chunks frames) .default
  else .err .missing

/-! ## `file.rs` -/

/-- `src/binary/frame.rs:3-8` -/
structure Frame where
  duration : UInt16
  cels : List (Option CelChunk)

/-- file.rs:19-29 -/
structure File where
  header : Header
  palette : Option Palette
  layers : List LayerChunk
  frames : List Frame
  tags : List Tag
  slices : List SliceChunk
  userData : Option UserDataChunk

/-- file.rs:128-138: the user data chunk at the front of the remaining chunks, if there is one -/
def nextUserData : List Chunk → Option UserDataChunk × List Chunk
  | .userData u :: rest => (some u, rest)
  | chunks => (none, chunks)

theorem nextUserData_length (cs : List Chunk) : (nextUserData cs).2.length ≤ cs.length := by
  unfold nextUserData; split <;> simp

/-- file.rs:74-79: hand the following user data chunks to the tags, stop at the first tag without one -/
def attachTags : List Tag → List Chunk → List Tag × List Chunk
  | [], chunks => ([], chunks)
  | t :: ts, chunks =>
    match nextUserData chunks with
    | (some u, rest) =>
      let (ts', rest') := attachTags ts rest
      ({ t with userData := some u } :: ts', rest')
    | (none, rest) => ({ t with userData := none } :: ts, rest)

theorem attachTags_length (ts : List Tag) (cs : List Chunk) :
    (attachTags ts cs).2.length ≤ cs.length := by
  induction ts generalizing cs with
  | nil => simp [attachTags]
  | cons t ts ih =>
    unfold attachTags
    have h := nextUserData_length cs
    split
    · next u rest he => rw [he] at h; exact Nat.le_trans (ih rest) h
    · next rest he => rw [he] at h; exact h

/-- The mutable variables of the loop in file.rs:40-48: the collected layers, tags, slices, the sprite's
user data, and the cels of the current frame. -/
structure Collected where
  layers : List LayerChunk
  tags : List Tag
  slices : List SliceChunk
  userData : Option UserDataChunk
  cels : List CelChunk

/-- file.rs:48-90: the loop over the chunks of one frame.  `first` is `frames.is_empty()`, i.e. whether
this is the first frame.  Each `next_user_data(&mut chunks)` is `nextUserData` on the remaining chunks:
its first component is the result, its second what is left in the iterator. -/
def collectChunks (first : Bool) (acc : Collected) (chunks : List Chunk) : Collected :=
  match chunks with
  | [] => acc
  | .palette0004 _ :: rest | .palette0011 _ :: rest | .palette _ :: rest =>
    if first && acc.userData.isNone then
      collectChunks first { acc with userData := (nextUserData rest).1 } (nextUserData rest).2
    else collectChunks first acc rest
  | .layer l :: rest =>
    collectChunks first
      { acc with layers := acc.layers ++ [{ l with userData := (nextUserData rest).1 }] }
      (nextUserData rest).2
  | .cel c :: rest =>
    collectChunks first
      { acc with cels := acc.cels ++ [{ c with userData := (nextUserData rest).1 }] }
      (nextUserData rest).2
  | .celExtra _ :: rest => collectChunks first acc rest
  | .colorProfile _ :: rest => collectChunks first acc rest
  | .externalFiles _ :: rest => collectChunks first acc rest
  | .mask _ :: rest => collectChunks first acc rest
  | .path :: rest => collectChunks first acc rest
  | .tags t :: rest =>
    collectChunks first { acc with tags := acc.tags ++ (attachTags t.tags rest).1 }
      (attachTags t.tags rest).2
  | .userData _ :: rest => collectChunks first acc rest
  | .slice s :: rest =>
    collectChunks first
      { acc with slices := acc.slices ++ [{ s with userData := (nextUserData rest).1 }] }
      (nextUserData rest).2
  | .tileset _ :: rest => collectChunks first acc rest
  | .unsupported _ :: rest => collectChunks first acc rest
termination_by chunks.length
decreasing_by
  all_goals simp only [List.length_cons]
  all_goals first
    | omega
    | (have := nextUserData_length rest; omega)
    | (have := attachTags_length t.tags rest; omega)

/-- file.rs:45-92: the loop over the frames; returns the collected variables and, per frame, its duration
and cels (`frames` in the source) -/
def collectFrames (acc : Collected) (done : List (UInt16 × List CelChunk)) :
    List RawFrame → Collected × List (UInt16 × List CelChunk)
  | [] => (acc, done)
  | f :: fs =>
    let acc := collectChunks done.isEmpty { acc with cels := [] } f.chunks
    collectFrames acc (done ++ [(f.duration, acc.cels)]) fs

/-- file.rs:105-111: put each cel into the slot of its layer.  The source rejects
`layer_index > layers.len()` and then indexes, so an index equal to the number of layers panics. -/
def placeCels (nLayers : Nat) (slots : List (Option CelChunk)) :
    List CelChunk → Outcome NomErr (List (Option CelChunk))
  | [] => .ok slots
  | c :: cs =>
    let layerIndex := c.layerIndex.toNat
    if layerIndex > nLayers then .err (.failure .layerIndexOutOfBounds)
    else if layerIndex < slots.length then placeCels nLayers (slots.set layerIndex (some c)) cs
    else .panic .indexOutOfBounds

/-- file.rs:93-116: build the frames, stop at the first error -/
def buildFrames (nLayers : Nat) : List (UInt16 × List CelChunk) → Outcome NomErr (List Frame)
  | [] => .ok []
  | (duration, frameCels) :: rest => do
    let cels ← placeCels nLayers (List.replicate nLayers none) frameCels
    let frames ← buildFrames nLayers rest
    pure ({ duration, cels } :: frames)

/-- file.rs:33-39: the palette, only for indexed files -/
def filePalette (raw : RawFile) : Outcome NomErr (Option Palette) :=
  match raw.header.colorDepth with
  | .indexed =>
    match createPalette raw.header raw.frames with
    | .ok p => .ok (some p)
    | .err e => .err (.failure (.paletteError e))
    | .panic k => .panic k
  | _ => .ok none

/-- file.rs:33-125: everything `parse_file` does after `parse_raw_file` -/
def assembleFile (raw : RawFile) : Outcome NomErr File := do
  let palette ← filePalette raw
  let (c, frames) := collectFrames ⟨[], [], [], none, []⟩ [] raw.frames
  let frames ← buildFrames c.layers.length frames
  pure { header := raw.header, palette, layers := c.layers, frames, tags := c.tags,
         slices := c.slices, userData := c.userData }

/-- file.rs:31-126 -/
def parseFile (plat : Plat) (input : Bytes) : Outcome NomErr File := do
  let raw ← parseRawFile plat input
  assembleFile raw

end Ase
