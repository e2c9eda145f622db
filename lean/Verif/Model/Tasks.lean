import Verif.Model.Loader

/-!
# Calls that run at the same time

The functions of `loader/mod.rs` that work on a buffer, once more, as programs that can be stopped after every access to
the buffer, so that the accesses of several calls can be interleaved in any order.  What a call does between two accesses
(arithmetic, reading the sprite, decoding an image into a vector of its own) touches nothing that others can change: the
sprite is borrowed shared and has no interior mutability (no `Cell`, lock, atomic or `static` in the crate, and `lib.rs:9`
forbids `unsafe`).

Simplifications: an access to the buffer by one primitive operation (`len`, reading a slice, writing a byte,
`copy_from_slice`, one call of the decompressor) is one step.
-/

namespace Ase

/-- The accesses to the buffer; `pre n p` is `p` on `target[..n]`. -/
inductive Prim : Type → Type 1 where
  | len : Prim Nat
  | slice (i j : Nat) : Prim Bytes
  | set (i : Nat) (v : UInt8) : Prim Unit
  | copy (source : Bytes) : Prim Unit
  | decompress (inflate : Inflater) (data : Bytes) : Prim Unit
  | pre {β : Type} (n : Nat) (p : Prim β) : Prim β

/-- What they do. -/
def Prim.run : {β : Type} → Prim β → Buf β
  | _, .len => Buf.len
  | _, .slice i j => Buf.slice i j
  | _, .set i v => Buf.set i v
  | _, .copy source => Buf.copyFromSlice source
  | _, .decompress inflate data => Ase.decompress inflate data
  | _, .pre n p => Buf.onPrefix n p.run

/-- A program: a result, or an access to the buffer and how to go on. -/
inductive Prog (α : Type) : Type 1 where
  | ret (o : Outcome LoadImageError α)
  | step {β : Type} (p : Prim β) (k : β → Prog α)

namespace Prog

/-- sequencing; `?` and panics stop -/
def bind {α β : Type} : Prog α → (α → Prog β) → Prog β
  | ret (.ok a), f => f a
  | ret (.err e), _ => ret (.err e)
  | ret (.panic k), _ => ret (.panic k)
  | step p k, f => step p fun b => bind (k b) f

instance : Monad Prog where
  pure a := ret (.ok a)
  bind := bind

/-- one access -/
def prim {α : Type} (p : Prim α) : Prog α := step p fun a => ret (.ok a)

/-- `for x in xs { body(x)?; }` -/
def forEach {α : Type} (body : α → Prog Unit) : List α → Prog Unit
  | [] => ret (.ok ())
  | x :: xs => bind (body x) fun _ => forEach body xs

/-- every access is one to the first `n` bytes -/
def within {α : Type} (n : Nat) : Prog α → Prog α
  | ret o => ret o
  | step p k => step (.pre n p) fun b => within n (k b)

/-- work on `&mut target[..n]` -/
def onPrefix {α : Type} (n : Nat) (x : Prog α) : Prog α :=
  step .len fun l => if n ≤ l then within n x else ret (.panic .indexOutOfBounds)

/-- Everything at once. -/
def run {α : Type} : Prog α → Buf α
  | ret o => Buf.lift o
  | step p k => Buf.bind p.run fun b => run (k b)

/-- One step: the next access.  An error or a panic in it ends the program. -/
def next {α : Type} : Prog α → Bytes → Prog α × Bytes
  | ret o, t => (ret o, t)
  | step p k, t =>
    match p.run t with
    | (.ok b, t') => (k b, t')
    | (.err e, t') => (ret (.err e), t')
    | (.panic q, t') => (ret (.panic q), t')

/-- The result, if the program is finished. -/
def result {α : Type} : Prog α → Option (Outcome LoadImageError α)
  | ret o => some o
  | step _ _ => none

end Prog

/-- mod.rs:463-468 -/
def grayscaleLoopP (i : Nat) : Bytes → Prog Unit
  | [] => pure ()
  | [v] => do
    Prog.prim (.set (i * 4) v)
    Prog.prim (.set (i * 4 + 1) v)
    Prog.prim (.set (i * 4 + 2) v)
    Prog.ret (.panic .indexOutOfBounds)
  | v :: a :: rest => do
    Prog.prim (.set (i * 4) v)
    Prog.prim (.set (i * 4 + 1) v)
    Prog.prim (.set (i * 4 + 2) v)
    Prog.prim (.set (i * 4 + 3) a)
    grayscaleLoopP (i + 1) rest

/-- mod.rs:459-470 -/
def grayscaleToRgbaP (source : Bytes) : Prog Unit := do
  let n ← Prog.prim .len
  if n ≠ source.length * 2 then Prog.ret (.err .invalidImageData)
  else grayscaleLoopP 0 source

/-- mod.rs:480-486 -/
def indexedLoopP (palette : Palette) (i : Nat) : Bytes → Prog Unit
  | [] => pure ()
  | px :: rest =>
    match palette.colors[px.toNat]? with
    | none => Prog.ret (.panic .indexOutOfBounds)
    | some color => do
      Prog.prim (.set (i * 4) color.red)
      Prog.prim (.set (i * 4 + 1) color.green)
      Prog.prim (.set (i * 4 + 2) color.blue)
      Prog.prim (.set (i * 4 + 3) color.alpha)
      indexedLoopP palette (i + 1) rest

/-- mod.rs:472-488 -/
def indexedToRgbaP (source : Bytes) (palette : Palette) : Prog Unit := do
  let n ← Prog.prim .len
  if n ≠ source.length * 4 then Prog.ret (.err .invalidImageData)
  else indexedLoopP palette 0 source

/-- `self.file.palette.as_ref().ok_or(LoadImageError::MissingPalette)?` -/
def AsepriteFile.paletteOrErrP (f : AsepriteFile) : Prog Palette :=
  match f.file.palette with
  | some p => pure p
  | none => Prog.ret (.err .missingPalette)

/-- Decompress into a vector of one's own, `vec![0u8; n]` (mod.rs:372, 384). -/
def decompressFresh (inflate : Inflater) (data : Bytes) (n : Nat) : Outcome LoadImageError Bytes :=
  match decompress inflate data (List.replicate n 0) with
  | (.ok (), t) => .ok t
  | (.err e, _) => .err e
  | (.panic k, _) => .panic k

/-- mod.rs:361-395 -/
def AsepriteFile.decodeImageP (inflate : Inflater) (f : AsepriteFile) (image : Image) : Prog Unit :=
  match f.file.header.colorDepth, image.compressed with
  | .rgba, false => Prog.prim (.copy image.data)
  | .rgba, true => Prog.prim (.decompress inflate image.data)
  | .grayscale, false => grayscaleToRgbaP image.data
  | .grayscale, true => do
    let buf ← Prog.ret (decompressFresh inflate image.data (image.width.toNat * image.height.toNat * 2))
    grayscaleToRgbaP buf
  | .indexed, false => do
    let palette ← f.paletteOrErrP
    indexedToRgbaP image.data palette
  | .indexed, true => do
    let buf ← Prog.ret (decompressFresh inflate image.data (image.width.toNat * image.height.toNat))
    let palette ← f.paletteOrErrP
    indexedToRgbaP buf palette
  | .unknown _, _ => Prog.ret (.err .unsupportedColorDepth)

/-- mod.rs:354-397 -/
def AsepriteFile.loadImageP (inflate : Inflater) (f : AsepriteFile) (index : Nat) : Prog Unit :=
  match f.images[index]? with
  | none => Prog.ret (.panic .indexOutOfBounds)
  | some image => do
    let targetSize := image.width.toNat * image.height.toNat * 4
    let n ← Prog.prim .len
    if n < targetSize then Prog.ret (.err .targetBufferTooSmall)
    else Prog.onPrefix targetSize (f.decodeImageP inflate image)

/-- mod.rs:318-346 -/
def AsepriteFile.renderPixelP (plat : Plat) (f : AsepriteFile) (cel : FrameCel) (layer : LLayer) (blendFn : BlendFn)
    (celTarget : Bytes) (y x : UInt16) : Prog Unit :=
  match checkedAddSigned x cel.origin.1 with
  | none => pure ()
  | some targetX =>
    if targetX ≥ f.file.header.width then pure ()
    else
      match checkedAddSigned y cel.origin.2 with
      | none => pure ()
      | some targetY =>
        if targetY ≥ f.file.header.height then pure ()
        else do
          let targetIndex := targetY.toNat * f.file.header.width.toNat + targetX.toNat
          let celIndex := y.toNat * cel.size.1.toNat + x.toNat
          let celPixel ← Prog.ret (sliceOf celTarget (celIndex * 4) (celIndex * 4 + 4)).lift
          let targetPixel ← Prog.prim (.slice (targetIndex * 4) (targetIndex * 4 + 4))
          let back ← Prog.ret (Color.ofSlice plat targetPixel).lift
          let front ← Prog.ret (Color.ofSlice plat celPixel).lift
          let out ← Prog.ret (blendFn back front layer.opacity).lift
          Prog.prim (.set (targetIndex * 4) out.r)
          Prog.prim (.set (targetIndex * 4 + 1) out.g)
          Prog.prim (.set (targetIndex * 4 + 2) out.b)
          Prog.prim (.set (targetIndex * 4 + 3) out.a)

/-- The image of a cel, decoded into a vector of one's own (mod.rs:308-311); `unwrap` turns an error into a panic. -/
def AsepriteFile.celImage (inflate : Inflater) (f : AsepriteFile) (cel : FrameCel) : Outcome LoadImageError Bytes :=
  match f.loadImage inflate cel.imageIndex (List.replicate (cel.size.1.toNat * cel.size.2.toNat * 4) 0) with
  | (.ok (), c) => .ok c
  | (.err _, _) => .panic .unwrapOnErr
  | (.panic k, _) => .panic k

/-- mod.rs:303-348 -/
def AsepriteFile.renderCelP (plat : Plat) (inflate : Inflater) (f : AsepriteFile) (sel : LayerSelection)
    (cel : FrameCel) : Prog Unit :=
  match f.layers[cel.layerIndex]? with
  | none => pure ()
  | some layer =>
    if layer.layerType = .group ∨ ¬ sel.isSelected cel.layerIndex layer then pure ()
    else do
      let celTarget ← Prog.ret (f.celImage inflate cel)
      let blendFn ← Prog.ret (blendModeToBlendFn plat layer.blendMode).lift
      Prog.forEach (fun y => Prog.forEach (f.renderPixelP plat cel layer blendFn celTarget y) (u16Range cel.size.1))
        (u16Range cel.size.2)

/-- mod.rs:287-351 -/
def AsepriteFile.renderFrameP (plat : Plat) (inflate : Inflater) (f : AsepriteFile) (frameIndex : Nat)
    (sel : LayerSelection) : Prog Unit := do
  let targetSize := f.file.header.width.toNat * f.file.header.height.toNat * 4
  let n ← Prog.prim .len
  if n < targetSize then Prog.ret (.err .targetBufferTooSmall)
  else
    match f.frames[frameIndex]? with
    | none => Prog.ret (.panic .indexOutOfBounds)
    | some frame => Prog.forEach (f.renderCelP plat inflate sel) frame.cels

/-- mod.rs:268-280 -/
def AsepriteFile.combinedFrameImageP (plat : Plat) (inflate : Inflater) (hash : List HashInput → UInt64)
    (f : AsepriteFile) (frameIndex : Nat) : Prog UInt64 := do
  f.renderFrameP plat inflate frameIndex .visible
  match f.frames[frameIndex]? with
  | none => Prog.ret (.panic .indexOutOfBounds)
  | some frame => pure (hash (frame.cels.map fun c => (c.imageIndex, c.layerIndex, c.origin, c.size)))

/-- The calls that work on a buffer. -/
inductive Call where
  | render (frameIndex : Nat) (sel : LayerSelection)
  | combined (frameIndex : Nat)
  | image (index : Nat)

/-- Their programs; only `combined_frame_image` returns something. -/
def Call.prog (plat : Plat) (inflate : Inflater) (hash : List HashInput → UInt64) (f : AsepriteFile) :
    Call → Prog (Option UInt64)
  | .render i sel => do
    f.renderFrameP plat inflate i sel
    pure none
  | .combined i => do
    let h ← f.combinedFrameImageP plat inflate hash i
    pure (some h)
  | .image i => do
    f.loadImageP inflate i
    pure none

/-- A running call: what is left of it, and which part of the memory is its buffer. -/
structure Job where
  prog : Prog (Option UInt64)
  start : Nat
  size : Nat

/-- Memory, and the calls that run. -/
structure Machine where
  memory : Bytes
  jobs : List Job

/-- Job `i` makes one step (if there is such a job and it is not finished). -/
def Machine.step (m : Machine) (i : Nat) : Machine :=
  match m.jobs[i]? with
  | none => m
  | some job =>
    let (prog, part) := job.prog.next ((m.memory.drop job.start).take job.size)
    { memory := m.memory.take job.start ++ part ++ m.memory.drop (job.start + job.size),
      jobs := m.jobs.set i { job with prog } }

/-- The jobs make steps in the order of the schedule. -/
def Machine.run (m : Machine) (schedule : List Nat) : Machine := schedule.foldl Machine.step m

end Ase
