import Verif.Model.File
import Verif.Model.Blend

/-!
# `src/loader/mod.rs`

* `HashMap` is an association list whose newest entry comes first.
* `usize` products and sums of `u16` values (at most `65535 * 65535 * 4 + 4`) cannot overflow 64 bits, so they are
  plain `Nat` arithmetic here.  Memory exhaustion by `vec![0; n]` is not modelled.
* A function writing to a buffer `target: &mut [u8]` is a `Buf` computation: it returns its result *and* the buffer as
  it is then, also when the result is an error or a panic.
-/

namespace Ase

/-! ## Data types -/

/-- mod.rs:92-103 `Layer` -/
structure LLayer where
  name : String
  opacity : UInt8
  blendMode : BlendMode
  visible : Bool
  layerType : LayerType
deriving DecidableEq, Repr

/-- mod.rs:51-60 `FrameCel` -/
structure FrameCel where
  origin : Int16 × Int16
  size : UInt16 × UInt16
  layerIndex : Nat
  imageIndex : Nat
deriving DecidableEq, Repr

/-- mod.rs:66-73 `Frame` -/
structure LFrame where
  duration : UInt16
  origin : Int16 × Int16
  cels : List FrameCel
deriving DecidableEq, Repr

/-- mod.rs:79-88 `Tag` (`range: RangeInclusive<u16>` as its two ends) -/
structure LTag where
  name : String
  rangeStart : UInt16
  rangeEnd : UInt16
  direction : AnimationDirection
  repeats : Option UInt16
deriving DecidableEq, Repr

/-- mod.rs:109-116 -/
inductive LayerSelection where
  | visible
  | all
  | mask (m : List Bool)
deriving DecidableEq, Repr

/-- mod.rs:34-45.  The methods `tags()`, `layers()` and `frames()` (mod.rs:229-240) return the fields as they are. -/
structure AsepriteFile where
  file : File
  layers : List LLayer
  frames : List LFrame
  tags : List LTag
  images : List Image

/-- mod.rs:408-424 `LoadSpriteError`.  All errors `load` returns are `Parse { message }`; the constructors here stand
for the three places that build the message. -/
inductive LoadSpriteError where
  | parse (e : NomErr)
  | invalidLinkedCel (frame : Nat) (layer : UInt16)
  | invalidCel
deriving DecidableEq, Repr

/-- mod.rs:429-445 -/
inductive LoadImageError where
  | targetBufferTooSmall | missingPalette | unsupportedColorDepth | decompressError | invalidImageData
deriving DecidableEq, Repr

/-! ## `load` -/

/-- mod.rs:134-150: the layers, one at a time -/
def toLLayer (layer : LayerChunk) : Option LLayer :=
  if layer.layerType = .normal ∨ layer.layerType = .group then
    some { name := layer.name, opacity := layer.opacity, blendMode := layer.blendMode,
           visible := layer.flags.contains LayerFlags.VISIBLE, layerType := layer.layerType }
  else none

/-- `HashMap<(usize, usize), usize>` -/
abbrev ImageMap := List ((Nat × Nat) × Nat)

/-- mod.rs:156-162: one cel of the first pass -/
def addImage (frameIndex : Nat) (acc : List Image × ImageMap) (cel : CelChunk) : List Image × ImageMap :=
  match cel.content with
  | .image image =>
    (acc.1 ++ [image], ((frameIndex, cel.layerIndex.toNat), acc.1.length) :: acc.2)
  | _ => acc

/-- mod.rs:155-163: the first pass, `frameIndex` being the index of the first of the remaining frames -/
def collectImages (frameIndex : Nat) (acc : List Image × ImageMap) : List Frame → List Image × ImageMap
  | [] => acc
  | frame :: frames =>
    collectImages (frameIndex + 1) ((frame.cels.filterMap id).foldl (addImage frameIndex) acc) frames

/-- mod.rs:184-199: the image index of a cel.  `image_map[&key]` panics (an `expect` inside `HashMap`'s `Index`) if the
key is missing. -/
def imageIndexOf (imageMap : ImageMap) (index : Nat) (cel : CelChunk) : Outcome LoadSpriteError Nat :=
  match cel.content with
  | .image _ =>
    match imageMap.lookup (index, cel.layerIndex.toNat) with
    | some i => .ok i
    | none => .panic .unwrapOnErr
  | .linkedCel framePosition =>
    match imageMap.lookup (framePosition.toNat, cel.layerIndex.toNat) with
    | some i => .ok i
    | none => .err (.invalidLinkedCel index cel.layerIndex)
  | _ => .err .invalidCel

/-- mod.rs:183-208: one cel of the second pass -/
def toFrameCel (images : List Image) (imageMap : ImageMap) (index : Nat) (cel : CelChunk) :
    Outcome LoadSpriteError FrameCel := do
  let imageIndex ← imageIndexOf imageMap index cel
  match images[imageIndex]? with
  | none => .panic .indexOutOfBounds
  | some image =>
    pure { origin := (cel.x, cel.y), size := (image.width, image.height),
           layerIndex := cel.layerIndex.toNat, imageIndex }

/-- mod.rs:182-208: the cels of one frame -/
def toFrameCels (images : List Image) (imageMap : ImageMap) (index : Nat) :
    List CelChunk → Outcome LoadSpriteError (List FrameCel)
  | [] => .ok []
  | cel :: cels => do
    let c ← toFrameCel images imageMap index cel
    let cs ← toFrameCels images imageMap index cels
    pure (c :: cs)

/-- mod.rs:181-215: the second pass -/
def toLFrames (images : List Image) (imageMap : ImageMap) (index : Nat) :
    List Frame → Outcome LoadSpriteError (List LFrame)
  | [] => .ok []
  | frame :: frames => do
    let cels ← toFrameCels images imageMap index (frame.cels.filterMap id)
    let rest ← toLFrames images imageMap (index + 1) frames
    pure ({ duration := frame.duration, origin := (0, 0), cels } :: rest)

/-- mod.rs:168-179 -/
def toLTag (tag : Tag) : LTag :=
  { name := tag.name, rangeStart := tag.framesStart, rangeEnd := tag.framesEnd,
    direction := tag.animationDirection,
    repeats := if tag.animationRepeat > 0 then some tag.animationRepeat else none }

/-- mod.rs:134-223: everything `load` does after `parse_file` -/
def AsepriteFile.ofFile (file : File) : Outcome LoadSpriteError AsepriteFile := do
  let layers := file.layers.filterMap toLLayer
  let (images, imageMap) := collectImages 0 ([], []) file.frames
  let tags := file.tags.map toLTag
  let frames ← toLFrames images imageMap 0 file.frames
  pure { file, layers, frames, tags, images }

/-- mod.rs:130-224 -/
def AsepriteFile.load (plat : Plat) (data : Bytes) : Outcome LoadSpriteError AsepriteFile := do
  let file ← (parseFile plat data).mapErr .parse
  AsepriteFile.ofFile file

/-- mod.rs:226-228 -/
def AsepriteFile.size (f : AsepriteFile) : UInt16 × UInt16 := (f.file.header.width, f.file.header.height)

/-- mod.rs:241-244 `image_count` -/
def AsepriteFile.imageCount (f : AsepriteFile) : Nat := f.images.length

/-- mod.rs:398-401 `slices` -/
def AsepriteFile.slices (f : AsepriteFile) : List SliceChunk := f.file.slices

/-! ## Selections -/

/-- mod.rs:119-125 -/
def LayerSelection.isSelected (sel : LayerSelection) (layerIndex : Nat) (layer : LLayer) : Bool :=
  match sel with
  | .visible => layer.visible
  | .all => true
  | .mask m => (m[layerIndex]?).getD false

/-- mod.rs:250-252 -/
def AsepriteFile.selectLayers (f : AsepriteFile) (p : LLayer → Bool) : LayerSelection := .mask (f.layers.map p)

/-- mod.rs:259-261 -/
def AsepriteFile.selectLayersByName (f : AsepriteFile) (names : List String) : LayerSelection :=
  f.selectLayers fun l => names.contains l.name

/-! ## Buffers -/

/-- A computation working on a buffer `&mut [u8]`. -/
def Buf (α : Type) : Type := Bytes → Outcome LoadImageError α × Bytes

namespace Buf

/-- a value, the buffer unchanged -/
def pure {α : Type} (a : α) : Buf α := fun t => (.ok a, t)

/-- sequencing; `?` and panics stop -/
def bind {α β : Type} (x : Buf α) (f : α → Buf β) : Buf β := fun t =>
  match x t with
  | (.ok a, t') => f a t'
  | (.err e, t') => (.err e, t')
  | (.panic k, t') => (.panic k, t')

instance : Monad Buf where
  pure := Buf.pure
  bind := Buf.bind

/-- a computation that does not touch the buffer -/
def lift {α : Type} (x : Outcome LoadImageError α) : Buf α := fun t => (x, t)

/-- `target.len()` -/
def len : Buf Nat := fun t => (.ok t.length, t)

/-- `&target[i..j]` -/
def slice (i j : Nat) : Buf Bytes := fun t =>
  if i ≤ j ∧ j ≤ t.length then (.ok ((t.drop i).take (j - i)), t) else (.panic .indexOutOfBounds, t)

/-- `target[i] = v` -/
def set (i : Nat) (v : UInt8) : Buf Unit := fun t =>
  if i < t.length then (.ok (), t.set i v) else (.panic .indexOutOfBounds, t)

/-- `for x in xs { body(x)?; }` -/
def forEach {α : Type} (body : α → Buf Unit) : List α → Buf Unit
  | [] => Buf.pure ()
  | x :: xs => Buf.bind (body x) fun _ => forEach body xs

/-- work on `&mut target[..n]` -/
def onPrefix {α : Type} (n : Nat) (x : Buf α) : Buf α := fun t =>
  if n ≤ t.length then ((x (t.take n)).1, (x (t.take n)).2 ++ t.drop n) else (.panic .indexOutOfBounds, t)

/-- work on a fresh buffer `vec![0u8; n]` and return it -/
def onFresh (n : Nat) (x : Buf Unit) : Buf Bytes := fun t =>
  match x (List.replicate n 0) with
  | (.ok (), t') => (.ok t', t)
  | (.err e, _) => (.err e, t)
  | (.panic k, _) => (.panic k, t)

/-- `target.copy_from_slice(source)` -/
def copyFromSlice (source : Bytes) : Buf Unit := fun t =>
  if t.length = source.length then (.ok (), source) else (.panic .lengthMismatch, t)

end Buf

/-! ## Decoding images -/

/-- `flate2::Status` or an error -/
inductive InflateStatus where
  | ok | bufError | streamEnd | error
deriving DecidableEq, Repr

/-- `flate2::Decompress::new(true).decompress(data, target, Finish)`: from the compressed data and the size of the target
to the status and the bytes written to the front of the target (never more than fit, see `decompress`).  What it writes
does not depend on the previous contents of the target, and it leaves the rest of the target alone. -/
abbrev Inflater := Bytes → Nat → InflateStatus × Bytes

/-- mod.rs:450-457 -/
def decompress (inflate : Inflater) (data : Bytes) : Buf Unit := fun t =>
  let (status, out) := inflate data t.length
  let t' := out.take t.length ++ t.drop out.length
  match status with
  | .ok | .bufError => (.err .decompressError, t')
  | .streamEnd => (.ok (), t')
  | .error => (.err .decompressError, t')

/-- mod.rs:463-468: the loop over `source.chunks(2).enumerate()`; the last chunk may have only one byte, then
`chunk[1]` panics -/
def grayscaleLoop (i : Nat) : Bytes → Buf Unit
  | [] => pure ()
  | [v] => do
    Buf.set (i * 4) v
    Buf.set (i * 4 + 1) v
    Buf.set (i * 4 + 2) v
    Buf.lift (.panic .indexOutOfBounds)
  | v :: a :: rest => do
    Buf.set (i * 4) v
    Buf.set (i * 4 + 1) v
    Buf.set (i * 4 + 2) v
    Buf.set (i * 4 + 3) a
    grayscaleLoop (i + 1) rest

/-- mod.rs:459-470 -/
def grayscaleToRgba (source : Bytes) : Buf Unit := do
  let n ← Buf.len
  if n ≠ source.length * 2 then Buf.lift (.err .invalidImageData)
  else grayscaleLoop 0 source

/-- mod.rs:480-486: the loop over `source.iter().enumerate()` -/
def indexedLoop (palette : Palette) (i : Nat) : Bytes → Buf Unit
  | [] => pure ()
  | px :: rest =>
    match palette.colors[px.toNat]? with
    | none => Buf.lift (.panic .indexOutOfBounds)
    | some color => do
      Buf.set (i * 4) color.red
      Buf.set (i * 4 + 1) color.green
      Buf.set (i * 4 + 2) color.blue
      Buf.set (i * 4 + 3) color.alpha
      indexedLoop palette (i + 1) rest

/-- mod.rs:472-488 -/
def indexedToRgba (source : Bytes) (palette : Palette) : Buf Unit := do
  let n ← Buf.len
  if n ≠ source.length * 4 then Buf.lift (.err .invalidImageData)
  else indexedLoop palette 0 source

/-- `self.file.palette.as_ref().ok_or(LoadImageError::MissingPalette)?` -/
def AsepriteFile.paletteOrErr (f : AsepriteFile) : Buf Palette :=
  match f.file.palette with
  | some p => pure p
  | none => Buf.lift (.err .missingPalette)

/-- mod.rs:361-395: the `match`, working on `target[..target_size]` -/
def AsepriteFile.decodeImage (inflate : Inflater) (f : AsepriteFile) (image : Image) : Buf Unit :=
  match f.file.header.colorDepth, image.compressed with
  | .rgba, false => Buf.copyFromSlice image.data
  | .rgba, true => decompress inflate image.data
  | .grayscale, false => grayscaleToRgba image.data
  | .grayscale, true => do
    let buf ← Buf.onFresh (image.width.toNat * image.height.toNat * 2) (decompress inflate image.data)
    grayscaleToRgba buf
  | .indexed, false => do
    let palette ← f.paletteOrErr
    indexedToRgba image.data palette
  | .indexed, true => do
    let buf ← Buf.onFresh (image.width.toNat * image.height.toNat) (decompress inflate image.data)
    let palette ← f.paletteOrErr
    indexedToRgba buf palette
  | .unknown _, _ => Buf.lift (.err .unsupportedColorDepth)

/-- mod.rs:354-397 -/
def AsepriteFile.loadImage (inflate : Inflater) (f : AsepriteFile) (index : Nat) : Buf Unit :=
  match f.images[index]? with
  | none => Buf.lift (.panic .indexOutOfBounds)
  | some image => do
    let targetSize := image.width.toNat * image.height.toNat * 4
    let n ← Buf.len
    if n < targetSize then Buf.lift (.err .targetBufferTooSmall)
    else Buf.onPrefix targetSize (f.decodeImage inflate image)

/-! ## Rendering -/

/-- `u16::checked_add_signed` -/
def checkedAddSigned (x : UInt16) (d : Int16) : Option UInt16 :=
  let s : Int := (x.toNat : Int) + d.toInt
  if 0 ≤ s ∧ s ≤ 65535 then some (UInt16.ofNat s.toNat) else none

/-- blend.rs:48-58 `From<&[u8]>` for `Color` -/
def Color.ofSlice (plat : Plat) (s : Bytes) : Run Color :=
  if plat.debug ∧ s.length ≠ 4 then .panic .debugAssertFailed
  else
    match s with
    | r :: g :: b :: a :: _ => .ok ⟨r, g, b, a⟩
    | _ => .panic .indexOutOfBounds

/-- `0..n` for a `u16` -/
def u16Range (n : UInt16) : List UInt16 := (List.range n.toNat).map UInt16.ofNat

/-- `&v[i..j]` of a vector that is not the target -/
def sliceOf (v : Bytes) (i j : Nat) : Run Bytes :=
  if i ≤ j ∧ j ≤ v.length then .ok ((v.drop i).take (j - i)) else .panic .indexOutOfBounds

/-- mod.rs:318-346: the body of the two inner loops -/
def AsepriteFile.renderPixel (plat : Plat) (f : AsepriteFile) (cel : FrameCel) (layer : LLayer) (blendFn : BlendFn)
    (celTarget : Bytes) (y x : UInt16) : Buf Unit :=
  match checkedAddSigned x cel.origin.1 with
  | none => pure ()
  | some targetX =>
    if targetX ≥ f.file.header.width then pure ()
    else
      match checkedAddSigned y cel.origin.2 with
      | none => pure ()
      | some targetY =>
        if targetY ≥ f.file.header.height then pure ()
        else do
          let targetIndex := targetY.toNat * f.file.header.width.toNat + targetX.toNat
          let celIndex := y.toNat * cel.size.1.toNat + x.toNat
          let celPixel ← Buf.lift (sliceOf celTarget (celIndex * 4) (celIndex * 4 + 4)).lift
          let targetPixel ← Buf.slice (targetIndex * 4) (targetIndex * 4 + 4)
          let back ← Buf.lift (Color.ofSlice plat targetPixel).lift
          let front ← Buf.lift (Color.ofSlice plat celPixel).lift
          let out ← Buf.lift (blendFn back front layer.opacity).lift
          Buf.set (targetIndex * 4) out.r
          Buf.set (targetIndex * 4 + 1) out.g
          Buf.set (targetIndex * 4 + 2) out.b
          Buf.set (targetIndex * 4 + 3) out.a

/-- mod.rs:303-348: one cel.  `load_image(..).unwrap()` turns an error into a panic. -/
def AsepriteFile.renderCel (plat : Plat) (inflate : Inflater) (f : AsepriteFile) (sel : LayerSelection)
    (cel : FrameCel) : Buf Unit :=
  match f.layers[cel.layerIndex]? with
  | none => pure ()
  | some layer =>
    if layer.layerType = .group ∨ ¬ sel.isSelected cel.layerIndex layer then pure ()
    else do
      let size := cel.size.1.toNat * cel.size.2.toNat * 4
      let celTarget ← (fun t =>
        match f.loadImage inflate cel.imageIndex (List.replicate size 0) with
        | (.ok (), c) => (.ok c, t)
        | (.err _, _) => (.panic .unwrapOnErr, t)
        | (.panic k, _) => (.panic k, t) : Buf Bytes)
      let blendFn ← Buf.lift (blendModeToBlendFn plat layer.blendMode).lift
      Buf.forEach (fun y => Buf.forEach (f.renderPixel plat cel layer blendFn celTarget y) (u16Range cel.size.1))
        (u16Range cel.size.2)

/-- mod.rs:287-351 -/
def AsepriteFile.renderFrame (plat : Plat) (inflate : Inflater) (f : AsepriteFile) (frameIndex : Nat)
    (sel : LayerSelection) : Buf Unit := do
  let targetSize := f.file.header.width.toNat * f.file.header.height.toNat * 4
  let n ← Buf.len
  if n < targetSize then Buf.lift (.err .targetBufferTooSmall)
  else
    match f.frames[frameIndex]? with
    | none => Buf.lift (.panic .indexOutOfBounds)
    | some frame => Buf.forEach (f.renderCel plat inflate sel) frame.cels

/-- What is fed to `DefaultHasher` for one cel (mod.rs:277). -/
abbrev HashInput := Nat × Nat × (Int16 × Int16) × (UInt16 × UInt16)

/-- mod.rs:268-280.  `hash` is the value `DefaultHasher::new()` ends with after hashing the tuples in order (its keys are
fixed, so it is a function of them). -/
def AsepriteFile.combinedFrameImage (plat : Plat) (inflate : Inflater) (hash : List HashInput → UInt64)
    (f : AsepriteFile) (frameIndex : Nat) : Buf UInt64 := do
  f.renderFrame plat inflate frameIndex .visible
  match f.frames[frameIndex]? with
  | none => Buf.lift (.panic .indexOutOfBounds)
  | some frame => pure (hash (frame.cels.map fun c => (c.imageIndex, c.layerIndex, c.origin, c.size)))

end Ase
