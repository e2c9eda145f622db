import Verif.Model.CostLoad

/-!
# What a run costs: `load_image` and `render_frame` of `src/loader/mod.rs`

One step is a turn of a loop, a byte of a buffer that is made (`vec![0; n]`) or copied.  Decompressing takes one step per
byte of the compressed data and one per byte of the target: an assumption, flate2 is not part of the repository.
-/

namespace Ase.Timed

/-- A computation working on a buffer, together with the number of steps it takes. -/
def B (α : Type) : Type := Bytes → Nat × (Outcome LoadImageError α × Bytes)

namespace B

/-- a value, no step -/
def pure {α : Type} (a : α) : B α := fun t => (0, (.ok a, t))

/-- sequencing; `?` and panics stop -/
def bind {α β : Type} (x : B α) (f : α → B β) : B β := fun t =>
  match x t with
  | (n, (.ok a, t')) => more n (f a t')
  | (n, (.err e, t')) => (n, (.err e, t'))
  | (n, (.panic k, t')) => (n, (.panic k, t'))

instance : Monad B where
  pure := B.pure
  bind := B.bind

/-- `n` steps -/
def tick (n : Nat) : B Unit := fun t => (n, (.ok (), t))

/-- a computation that takes no step of its own -/
def lift {α : Type} (x : Buf α) : B α := fun t => (0, x t)

/-- `for x in xs { body(x)?; }`: one step per turn -/
def forEach {α : Type} (body : α → B Unit) : List α → B Unit
  | [] => B.pure ()
  | x :: xs => B.bind (B.tick 1) fun _ => B.bind (body x) fun _ => forEach body xs

/-- work on `&mut target[..n]` -/
def onPrefix {α : Type} (n : Nat) (x : B α) : B α := fun t =>
  if n ≤ t.length then ((x (t.take n)).1, ((x (t.take n)).2.1, (x (t.take n)).2.2 ++ t.drop n))
  else (0, (.panic .indexOutOfBounds, t))

/-- work on a fresh buffer `vec![0u8; n]` and return it: one step per byte -/
def onFresh (n : Nat) (x : B Unit) : B Bytes := fun t =>
  match x (List.replicate n 0) with
  | (s, (.ok (), t')) => (n + s, (.ok t', t))
  | (s, (.err e, _)) => (n + s, (.err e, t))
  | (s, (.panic k, _)) => (n + s, (.panic k, t))

/-- `target.copy_from_slice(source)`: one step per byte, if the lengths agree -/
def copyFromSlice (source : Bytes) : B Unit := fun t =>
  (if t.length = source.length then source.length else 0, Buf.copyFromSlice source t)

end B

/-- mod.rs:450-457 -/
def decompress (inflate : Inflater) (data : Bytes) : B Unit := fun t =>
  (data.length + t.length, Ase.decompress inflate data t)

/-- mod.rs:463-468: one step per turn -/
def grayscaleLoop (i : Nat) : Bytes → B Unit
  | [] => pure ()
  | [v] => do
    B.tick 1
    B.lift (Buf.set (i * 4) v)
    B.lift (Buf.set (i * 4 + 1) v)
    B.lift (Buf.set (i * 4 + 2) v)
    B.lift (Buf.lift (.panic .indexOutOfBounds))
  | v :: a :: rest => do
    B.tick 1
    B.lift (Buf.set (i * 4) v)
    B.lift (Buf.set (i * 4 + 1) v)
    B.lift (Buf.set (i * 4 + 2) v)
    B.lift (Buf.set (i * 4 + 3) a)
    grayscaleLoop (i + 1) rest

/-- mod.rs:459-470 -/
def grayscaleToRgba (source : Bytes) : B Unit := do
  let n ← B.lift Buf.len
  if n ≠ source.length * 2 then B.lift (Buf.lift (.err .invalidImageData))
  else grayscaleLoop 0 source

/-- mod.rs:480-486: one step per turn -/
def indexedLoop (palette : Palette) (i : Nat) : Bytes → B Unit
  | [] => pure ()
  | px :: rest => do
    B.tick 1
    match palette.colors[px.toNat]? with
    | none => B.lift (Buf.lift (.panic .indexOutOfBounds))
    | some color => do
      B.lift (Buf.set (i * 4) color.red)
      B.lift (Buf.set (i * 4 + 1) color.green)
      B.lift (Buf.set (i * 4 + 2) color.blue)
      B.lift (Buf.set (i * 4 + 3) color.alpha)
      indexedLoop palette (i + 1) rest

/-- mod.rs:472-488 -/
def indexedToRgba (source : Bytes) (palette : Palette) : B Unit := do
  let n ← B.lift Buf.len
  if n ≠ source.length * 4 then B.lift (Buf.lift (.err .invalidImageData))
  else indexedLoop palette 0 source

/-- mod.rs:361-395: the `match`, working on `target[..target_size]` -/
def decodeImage (inflate : Inflater) (f : AsepriteFile) (image : Image) : B Unit :=
  match f.file.header.colorDepth, image.compressed with
  | .rgba, false => B.copyFromSlice image.data
  | .rgba, true => decompress inflate image.data
  | .grayscale, false => grayscaleToRgba image.data
  | .grayscale, true => do
    let buf ← B.onFresh (image.width.toNat * image.height.toNat * 2) (decompress inflate image.data)
    grayscaleToRgba buf
  | .indexed, false => do
    let palette ← B.lift f.paletteOrErr
    indexedToRgba image.data palette
  | .indexed, true => do
    let buf ← B.onFresh (image.width.toNat * image.height.toNat) (decompress inflate image.data)
    let palette ← B.lift f.paletteOrErr
    indexedToRgba buf palette
  | .unknown _, _ => B.lift (Buf.lift (.err .unsupportedColorDepth))

/-- mod.rs:354-397 -/
def loadImage (inflate : Inflater) (f : AsepriteFile) (index : Nat) : B Unit :=
  match f.images[index]? with
  | none => B.lift (Buf.lift (.panic .indexOutOfBounds))
  | some image => do
    let targetSize := image.width.toNat * image.height.toNat * 4
    let n ← B.lift Buf.len
    if n < targetSize then B.lift (Buf.lift (.err .targetBufferTooSmall))
    else B.onPrefix targetSize (decodeImage inflate f image)

/-- mod.rs:303-348: the buffer of the cel takes a step per byte, and every row and every pixel of the cel takes one,
whether it is on the canvas or not. -/
def renderCel (plat : Plat) (inflate : Inflater) (f : AsepriteFile) (sel : LayerSelection) (cel : FrameCel) : B Unit :=
  match f.layers[cel.layerIndex]? with
  | none => pure ()
  | some layer =>
    if layer.layerType = .group ∨ ¬ sel.isSelected cel.layerIndex layer then pure ()
    else do
      let size := cel.size.1.toNat * cel.size.2.toNat * 4
      let celTarget ← (fun t =>
        match loadImage inflate f cel.imageIndex (List.replicate size 0) with
        | (n, (.ok (), c)) => (size + n, (.ok c, t))
        | (n, (.err _, _)) => (size + n, (.panic .unwrapOnErr, t))
        | (n, (.panic k, _)) => (size + n, (.panic k, t)) : B Bytes)
      let blendFn ← B.lift (Buf.lift (blendModeToBlendFn plat layer.blendMode).lift)
      B.forEach (fun y => B.forEach (fun x => B.lift (f.renderPixel plat cel layer blendFn celTarget y x))
        (u16Range cel.size.1)) (u16Range cel.size.2)

/-- mod.rs:287-351: one step per cel -/
def renderFrame (plat : Plat) (inflate : Inflater) (f : AsepriteFile) (frameIndex : Nat) (sel : LayerSelection) :
    B Unit := do
  let targetSize := f.file.header.width.toNat * f.file.header.height.toNat * 4
  let n ← B.lift Buf.len
  if n < targetSize then B.lift (Buf.lift (.err .targetBufferTooSmall))
  else
    match f.frames[frameIndex]? with
    | none => B.lift (Buf.lift (.panic .indexOutOfBounds))
    | some frame => B.forEach (renderCel plat inflate f sel) frame.cels

end Ase.Timed
