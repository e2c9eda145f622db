import Verif.Model.Loader

/-!
# The work of decoding an image and drawing a cel

One unit is a byte of a buffer that is made, copied or decompressed, a byte of compressed data, or a turn of a loop over
rows or pixels.
-/

namespace Ase.Spec

/-- Decoding an image of `k` pixels from `d` bytes.  Raw RGBA is copied, compressed RGBA is decompressed in place; the
other depths are converted pixel by pixel, and if they are compressed, decompressed into a buffer of their own first. -/
def decodeWork (depth : ColorDepth) (compressed : Bool) (k d : Nat) : Nat :=
  match depth, compressed with
  | .rgba, false => 4 * k
  | .rgba, true => d + 4 * k
  | .grayscale, false => k
  | .grayscale, true => 2 * k + (d + 2 * k) + k
  | .indexed, false => k
  | .indexed, true => k + (d + k) + k
  | .unknown _, _ => 0

/-- The work of loading the image with an index. -/
def imageWork (f : AsepriteFile) (index : Nat) : Nat :=
  match f.images[index]? with
  | none => 0
  | some image => decodeWork f.file.header.colorDepth image.compressed (image.width.toNat * image.height.toNat)
      image.data.length

/-- The work of drawing a cel: nothing if its layer is missing, a group or not selected; else a buffer for the cel, its
image, and all its rows and pixels, on the canvas or not. -/
def celWork (f : AsepriteFile) (sel : LayerSelection) (cel : FrameCel) : Nat :=
  match f.layers[cel.layerIndex]? with
  | none => 0
  | some layer =>
    if layer.layerType = .group ∨ ¬ sel.isSelected cel.layerIndex layer then 0
    else cel.size.1.toNat * cel.size.2.toNat * 4 + imageWork f cel.imageIndex +
      cel.size.2.toNat * (1 + cel.size.1.toNat)

end Ase.Spec
