import Verif.Model.Loader

/-!
# Rendering when memory is short

The functions of `loader/mod.rs` that allocate, once more, with an allocator that has only so many bytes.  A vector it cannot
provide ends the process (`alloc::handle_alloc_error`); vectors are given back when they go out of scope, also on an error
and when a panic unwinds.

Simplifications: only the two vectors of pixels count (mod.rs:309 and mod.rs:372, 384), not the fixed size state of the
decompressor; a vector of `n` bytes takes `n` bytes.
-/

namespace Ase

/-- A call has come back, with the number of bytes still allocated, or the process has ended. -/
inductive End (α : Type) where
  | back (o : Outcome LoadImageError α) (target : Bytes) (live : Nat)
  | aborted (target : Bytes)
deriving DecidableEq

/-- Computations on a buffer, and the number of bytes that are allocated. -/
abbrev Mem (α : Type) := Bytes → Nat → End α

namespace Mem

/-- without an allocation -/
def ofBuf {α : Type} (x : Buf α) : Mem α := fun t live => .back (x t).1 (x t).2 live

/-- sequencing; `?` and panics stop -/
def bind {α β : Type} (x : Mem α) (f : α → Mem β) : Mem β := fun t live =>
  match x t live with
  | .back (.ok a) t' live' => f a t' live'
  | .back (.err e) t' live' => .back (.err e) t' live'
  | .back (.panic k) t' live' => .back (.panic k) t' live'
  | .aborted t' => .aborted t'

instance : Monad Mem where
  pure a := ofBuf (Buf.pure a)
  bind := bind

/-- `for x in xs { body(x)?; }` -/
def forEach {α : Type} (body : α → Mem Unit) : List α → Mem Unit
  | [] => ofBuf (Buf.pure ())
  | x :: xs => bind (body x) fun _ => forEach body xs

/-- `let v = vec![0; n];` and what follows in its scope: `n` bytes are allocated, and given back at the end. -/
def withVec {α : Type} (limit n : Nat) (body : Bytes → Mem α) : Mem α := fun t live =>
  if live + n ≤ limit then
    match body (List.replicate n 0) t (live + n) with
    | .back o t' live' => .back o t' (live' - n)
    | .aborted t' => .aborted t'
  else .aborted t

/-- A call with another buffer `v`: its result, and what is then in `v`. -/
def onOther {α : Type} (v : Bytes) (x : Mem α) : Mem (Outcome LoadImageError α × Bytes) := fun t live =>
  match x v live with
  | .back o v' live' => .back (.ok (o, v')) t live'
  | .aborted _ => .aborted t

/-- work on `&mut target[..n]` -/
def onPrefix {α : Type} (n : Nat) (x : Mem α) : Mem α := fun t live =>
  if n ≤ t.length then
    match x (t.take n) live with
    | .back o t' live' => .back o (t' ++ t.drop n) live'
    | .aborted t' => .aborted (t' ++ t.drop n)
  else .back (.panic .indexOutOfBounds) t live

end Mem

/-- mod.rs:361-395 -/
def AsepriteFile.decodeImageM (inflate : Inflater) (limit : Nat) (f : AsepriteFile) (image : Image) : Mem Unit :=
  match f.file.header.colorDepth, image.compressed with
  | .rgba, false => Mem.ofBuf (Buf.copyFromSlice image.data)
  | .rgba, true => Mem.ofBuf (decompress inflate image.data)
  | .grayscale, false => Mem.ofBuf (grayscaleToRgba image.data)
  | .grayscale, true => Mem.withVec limit (image.width.toNat * image.height.toNat * 2) fun buf => do
    let (o, buf) ← Mem.onOther buf (Mem.ofBuf (decompress inflate image.data))
    Mem.ofBuf (Buf.lift o)
    Mem.ofBuf (grayscaleToRgba buf)
  | .indexed, false => Mem.ofBuf do
    let palette ← f.paletteOrErr
    indexedToRgba image.data palette
  | .indexed, true => Mem.withVec limit (image.width.toNat * image.height.toNat) fun buf => do
    let (o, buf) ← Mem.onOther buf (Mem.ofBuf (decompress inflate image.data))
    Mem.ofBuf (Buf.lift o)
    Mem.ofBuf do
      let palette ← f.paletteOrErr
      indexedToRgba buf palette
  | .unknown _, _ => Mem.ofBuf (Buf.lift (.err .unsupportedColorDepth))

/-- mod.rs:354-397 -/
def AsepriteFile.loadImageM (inflate : Inflater) (limit : Nat) (f : AsepriteFile) (index : Nat) : Mem Unit :=
  match f.images[index]? with
  | none => Mem.ofBuf (Buf.lift (.panic .indexOutOfBounds))
  | some image => do
    let targetSize := image.width.toNat * image.height.toNat * 4
    let n ← Mem.ofBuf Buf.len
    if n < targetSize then Mem.ofBuf (Buf.lift (.err .targetBufferTooSmall))
    else Mem.onPrefix targetSize (f.decodeImageM inflate limit image)

/-- mod.rs:303-348; the vector for the cel lives until the end of the loop body -/
def AsepriteFile.renderCelM (plat : Plat) (inflate : Inflater) (limit : Nat) (f : AsepriteFile) (sel : LayerSelection)
    (cel : FrameCel) : Mem Unit :=
  match f.layers[cel.layerIndex]? with
  | none => Mem.ofBuf (Buf.pure ())
  | some layer =>
    if layer.layerType = .group ∨ ¬ sel.isSelected cel.layerIndex layer then Mem.ofBuf (Buf.pure ())
    else
      Mem.withVec limit (cel.size.1.toNat * cel.size.2.toNat * 4) fun celTarget => do
        let (o, celTarget) ← Mem.onOther celTarget (f.loadImageM inflate limit cel.imageIndex)
        Mem.ofBuf (Buf.lift (match o with
          | .ok () => .ok ()
          | .err _ => .panic .unwrapOnErr
          | .panic k => .panic k))
        let blendFn ← Mem.ofBuf (Buf.lift (blendModeToBlendFn plat layer.blendMode).lift)
        Mem.ofBuf (Buf.forEach
          (fun y => Buf.forEach (f.renderPixel plat cel layer blendFn celTarget y) (u16Range cel.size.1))
          (u16Range cel.size.2))

/-- mod.rs:287-351 -/
def AsepriteFile.renderFrameM (plat : Plat) (inflate : Inflater) (limit : Nat) (f : AsepriteFile) (frameIndex : Nat)
    (sel : LayerSelection) : Mem Unit := do
  let targetSize := f.file.header.width.toNat * f.file.header.height.toNat * 4
  let n ← Mem.ofBuf Buf.len
  if n < targetSize then Mem.ofBuf (Buf.lift (.err .targetBufferTooSmall))
  else
    match f.frames[frameIndex]? with
    | none => Mem.ofBuf (Buf.lift (.panic .indexOutOfBounds))
    | some frame => Mem.forEach (f.renderCelM plat inflate limit sel) frame.cels

/-- mod.rs:268-280; hashing allocates nothing -/
def AsepriteFile.combinedFrameImageM (plat : Plat) (inflate : Inflater) (hash : List HashInput → UInt64) (limit : Nat)
    (f : AsepriteFile) (frameIndex : Nat) : Mem UInt64 := do
  f.renderFrameM plat inflate limit frameIndex .visible
  match f.frames[frameIndex]? with
  | none => Mem.ofBuf (Buf.lift (.panic .indexOutOfBounds))
  | some frame => pure (hash (frame.cels.map fun c => (c.imageIndex, c.layerIndex, c.origin, c.size)))

end Ase
