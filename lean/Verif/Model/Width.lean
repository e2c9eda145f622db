import Verif.Model.Loader

/-!
# `usize` of any width

The rest of the model takes `usize` to be 64 bits wide and lets the products of image sizes be natural numbers.  Here
the functions that compute with `usize` are modelled once more with the width of `usize` as a parameter: every addition,
subtraction and multiplication panics on overflow with overflow checks and wraps without, and `vec![0; n]` panics when
`n` exceeds `isize::MAX`.  (An allocation that fails because memory is short aborts the process; that is not modelled.)

`Props/Width` proves that for 64 bits nothing changes, and says when nothing changes for 32 bits (`wasm32`, for which
the crate is often compiled).  `parse_dword_as_usize` (scalars.rs:119-125) cannot fail for 32 bits or more; all other
`usize` values of the parser are lengths of slices, counters bounded by them, or sums of bytes, with the exception of
`size_maps - 8`, modelled here.
-/

namespace Ase

/-- The result of an addition or multiplication on a `usize` of `bits` bits with exact value `n`. -/
def usizeOp (plat : Plat) (bits n : Nat) : Outcome LoadImageError Nat :=
  if n < 2 ^ bits then .ok n else if plat.debug then .panic .overflow else .ok (n % 2 ^ bits)

namespace Buf

/-- `a * b` -/
def mulW (plat : Plat) (bits a b : Nat) : Buf Nat := Buf.lift (usizeOp plat bits (a * b))

/-- `a + b` -/
def addW (plat : Plat) (bits a b : Nat) : Buf Nat := Buf.lift (usizeOp plat bits (a + b))

/-- `vec![0u8; n]` handed to `x` and returned; panics with "capacity overflow" if `n > isize::MAX` -/
def onFreshW (bits n : Nat) (x : Buf Unit) : Buf Bytes :=
  if n < 2 ^ (bits - 1) then Buf.onFresh n x else Buf.lift (.panic .explicitPanic)

end Buf

/-- mod.rs:459-470 with `source.len() * 2` on `bits` bits.  The indices in the loop are smaller than the length of a
slice up to the first one out of bounds, so they do not overflow. -/
def grayscaleToRgbaW (plat : Plat) (bits : Nat) (source : Bytes) : Buf Unit := do
  let n ← Buf.len
  let m ← Buf.mulW plat bits source.length 2
  if n ≠ m then Buf.lift (.err .invalidImageData)
  else grayscaleLoop 0 source

/-- mod.rs:472-488 with `source.len() * 4` on `bits` bits; the loop as for grayscale -/
def indexedToRgbaW (plat : Plat) (bits : Nat) (source : Bytes) (palette : Palette) : Buf Unit := do
  let n ← Buf.len
  let m ← Buf.mulW plat bits source.length 4
  if n ≠ m then Buf.lift (.err .invalidImageData)
  else indexedLoop palette 0 source

/-- mod.rs:361-395 -/
def AsepriteFile.decodeImageW (plat : Plat) (bits : Nat) (inflate : Inflater) (f : AsepriteFile) (image : Image) :
    Buf Unit :=
  match f.file.header.colorDepth, image.compressed with
  | .rgba, false => Buf.copyFromSlice image.data
  | .rgba, true => decompress inflate image.data
  | .grayscale, false => grayscaleToRgbaW plat bits image.data
  | .grayscale, true => do
    let pixels ← Buf.mulW plat bits image.width.toNat image.height.toNat
    let size ← Buf.mulW plat bits pixels 2
    let buf ← Buf.onFreshW bits size (decompress inflate image.data)
    grayscaleToRgbaW plat bits buf
  | .indexed, false => do
    let palette ← f.paletteOrErr
    indexedToRgbaW plat bits image.data palette
  | .indexed, true => do
    let size ← Buf.mulW plat bits image.width.toNat image.height.toNat
    let buf ← Buf.onFreshW bits size (decompress inflate image.data)
    let palette ← f.paletteOrErr
    indexedToRgbaW plat bits buf palette
  | .unknown _, _ => Buf.lift (.err .unsupportedColorDepth)

/-- mod.rs:354-397 -/
def AsepriteFile.loadImageW (plat : Plat) (bits : Nat) (inflate : Inflater) (f : AsepriteFile) (index : Nat) :
    Buf Unit :=
  match f.images[index]? with
  | none => Buf.lift (.panic .indexOutOfBounds)
  | some image => do
    let pixels ← Buf.mulW plat bits image.width.toNat image.height.toNat
    let targetSize ← Buf.mulW plat bits pixels 4
    let n ← Buf.len
    if n < targetSize then Buf.lift (.err .targetBufferTooSmall)
    else Buf.onPrefix targetSize (f.decodeImageW plat bits inflate image)

/-- mod.rs:318-346.  `target_index * 4` is computed twice with the same result; `+ 1`, `+ 2`, `+ 3` index the four
bytes of `target_pixel`. -/
def AsepriteFile.renderPixelW (plat : Plat) (bits : Nat) (f : AsepriteFile) (cel : FrameCel) (layer : LLayer)
    (blendFn : BlendFn) (celTarget : Bytes) (y x : UInt16) : Buf Unit :=
  match checkedAddSigned x cel.origin.1 with
  | none => pure ()
  | some targetX =>
    if targetX ≥ f.file.header.width then pure ()
    else
      match checkedAddSigned y cel.origin.2 with
      | none => pure ()
      | some targetY =>
        if targetY ≥ f.file.header.height then pure ()
        else do
          let row ← Buf.mulW plat bits targetY.toNat f.file.header.width.toNat
          let targetIndex ← Buf.addW plat bits row targetX.toNat
          let celRow ← Buf.mulW plat bits y.toNat cel.size.1.toNat
          let celIndex ← Buf.addW plat bits celRow x.toNat
          let celStart ← Buf.mulW plat bits celIndex 4
          let celEnd ← Buf.addW plat bits celStart 4
          let celPixel ← Buf.lift (sliceOf celTarget celStart celEnd).lift
          let start ← Buf.mulW plat bits targetIndex 4
          let stop ← Buf.addW plat bits start 4
          let targetPixel ← Buf.slice start stop
          let back ← Buf.lift (Color.ofSlice plat targetPixel).lift
          let front ← Buf.lift (Color.ofSlice plat celPixel).lift
          let out ← Buf.lift (blendFn back front layer.opacity).lift
          Buf.set start out.r
          Buf.set (start + 1) out.g
          Buf.set (start + 2) out.b
          Buf.set (start + 3) out.a

/-- mod.rs:303-348 -/
def AsepriteFile.renderCelW (plat : Plat) (bits : Nat) (inflate : Inflater) (f : AsepriteFile) (sel : LayerSelection)
    (cel : FrameCel) : Buf Unit :=
  match f.layers[cel.layerIndex]? with
  | none => pure ()
  | some layer =>
    if layer.layerType = .group ∨ ¬ sel.isSelected cel.layerIndex layer then pure ()
    else do
      let pixels ← Buf.mulW plat bits cel.size.1.toNat cel.size.2.toNat
      let size ← Buf.mulW plat bits pixels 4
      let celTarget ← (fun t =>
        match Buf.onFreshW bits size (f.loadImageW plat bits inflate cel.imageIndex) t with
        | (.err _, _) => (.panic .unwrapOnErr, t)
        | r => r : Buf Bytes)
      let blendFn ← Buf.lift (blendModeToBlendFn plat layer.blendMode).lift
      Buf.forEach (fun y => Buf.forEach (f.renderPixelW plat bits cel layer blendFn celTarget y) (u16Range cel.size.1))
        (u16Range cel.size.2)

/-- mod.rs:287-351 -/
def AsepriteFile.renderFrameW (plat : Plat) (bits : Nat) (inflate : Inflater) (f : AsepriteFile) (frameIndex : Nat)
    (sel : LayerSelection) : Buf Unit := do
  let pixels ← Buf.mulW plat bits f.file.header.width.toNat f.file.header.height.toNat
  let targetSize ← Buf.mulW plat bits pixels 4
  let n ← Buf.len
  if n < targetSize then Buf.lift (.err .targetBufferTooSmall)
  else
    match f.frames[frameIndex]? with
    | none => Buf.lift (.panic .indexOutOfBounds)
    | some frame => Buf.forEach (f.renderCelW plat bits inflate sel) frame.cels

/-- `size_maps - 8` (user_data.rs:148) on `bits` bits -/
def usizeSub8W (plat : Plat) (bits n : Nat) : Outcome NomErr Nat :=
  if 8 ≤ n then .ok (n - 8) else if plat.debug then .panic .overflow else .ok (2 ^ bits + n - 8)

/-- user_data.rs:142-153 -/
def parsePropertiesMapsW (plat : Plat) (bits : Nat) : P (Except NomErr (Bytes × List PropertiesMap)) := do
  let sizeMaps ← parseDwordAsUsize
  let numMaps ← parseDwordAsUsize
  let n ← fun b => (usizeSub8W plat bits sizeMaps).bind (fun n => .ok (b, n))
  let inputMaps ← take n
  fun b => match count (parsePropertiesMap plat.stack) numMaps inputMaps with
    | .ok v => .ok (b, .ok v)
    | .err e => .ok (b, .error e)
    | .panic k => .panic k

/-- user_data.rs:121-140 -/
def parseUserDataChunkW (plat : Plat) (bits : Nat) : P UserDataChunk := do
  let flags ← dword
  let flags := UserDataFlags.fromBitsTruncate flags
  let text ← cond (flags.contains UserDataFlags.HAS_TEXT) parseString
  let color ← cond (flags.contains UserDataFlags.HAS_COLOR) parseColor
  let propertiesMaps ← cond (flags.contains UserDataFlags.HAS_PROPERTIES) (parsePropertiesMapsW plat bits)
  pure { text, color, propertiesMaps }

/-- chunk.rs:51-69: the parsers of the other chunks do not compute with `usize` -/
def parseChunkBodyW (plat : Plat) (bits : Nat) : Except UInt16 ChunkType → P Chunk
  | .ok .userData => do pure (.userData (← parseUserDataChunkW plat bits))
  | t => parseChunkBody plat t

/-- chunk.rs:46-71 -/
def parseChunkW (plat : Plat) (bits : Nat) : P Chunk := do
  let size ← dwordSize .invalidFrameSize
  let input ← take (size.toNat - 4)
  P.onSlice (do
    let chunkType ← parseChunkType
    parseChunkBodyW plat bits chunkType) input

/-- raw_frame.rs:46-54 -/
def parseRawframeBodyW (plat : Plat) (bits : Nat) : P RawFrame := do
  let _ ← tag frameMagic
  let oldCount ← word
  let duration ← word
  let _ ← take 2
  let newCount ← parseDwordAsUsize
  let chunkCount := if newCount = 0 then oldCount.toNat else newCount
  let chunks ← count (parseChunkW plat bits) chunkCount
  pure { duration, chunks }

/-- raw_frame.rs:42-56 -/
def parseRawframeW (plat : Plat) (bits : Nat) : P RawFrame := do
  let size ← dwordSize .invalidFrameSize
  let input ← take (size.toNat - 4)
  P.onSlice (parseRawframeBodyW plat bits) input

/-- raw_file.rs:13-17, with raw_frame.rs:38-40 -/
def parseRawFileW (plat : Plat) (bits : Nat) (input : Bytes) : Outcome NomErr RawFile := do
  let (input, header) ← parseHeader input
  let (_, frames) ← allConsuming (many1 (parseRawframeW plat bits)) input
  pure { header, frames }

/-- file.rs:31-126 -/
def parseFileW (plat : Plat) (bits : Nat) (input : Bytes) : Outcome NomErr File := do
  let raw ← parseRawFileW plat bits input
  assembleFile raw

/-- mod.rs:130-224 -/
def AsepriteFile.loadW (plat : Plat) (bits : Nat) (data : Bytes) : Outcome LoadSpriteError AsepriteFile := do
  let file ← (parseFileW plat bits data).mapErr .parse
  AsepriteFile.ofFile file

end Ase
