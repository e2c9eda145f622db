import Verif.Spec.Render

/-!
# How much memory one image needs
-/

namespace Ase.Spec

/-- The bytes needed besides the pixels themselves to decode an image: compressed greyscale and indexed images are first
unpacked, two bytes and one byte a pixel. -/
def unpacked (f : AsepriteFile) (im : Image) : Nat :=
  match f.file.header.colorDepth, im.compressed with
  | .grayscale, true => pixelCount im * 2
  | .indexed, true => pixelCount im
  | _, _ => 0

/-- The bytes needed to draw a cel with this image: its pixels as RGBA, and what decoding needs. -/
def celNeed (f : AsepriteFile) (im : Image) : Nat := pixelCount im * 4 + unpacked f im

/-- The cel is drawn and needs more than `free` bytes. -/
def Short (f : AsepriteFile) (sel : LayerSelection) (free : Nat) (c : FrameCel) : Prop :=
  ∃ layer im, drawnOn f sel c = some layer ∧ f.images[c.imageIndex]? = some im ∧ free < celNeed f im

/-- The cels can be drawn in order onto the canvas `t`: their images can be decoded, their blend modes are known and no
blending fails. -/
def CanDraw (plat : Plat) (inflate : Inflater) (f : AsepriteFile) (sel : LayerSelection) (cels : List FrameCel)
    (t : Bytes) : Prop :=
  (∀ c ∈ cels, ∀ layer im, drawnOn f sel c = some layer → f.images[c.imageIndex]? = some im →
    HasPixels inflate f.file im ∧ isKnown layer.blendMode = true) ∧
  (∀ x y c, x < f.file.header.width.toNat → y < f.file.header.height.toNat → canvasPixel f t x y = some c →
    ∃ out, compose plat inflate f sel x y cels c = .ok out)

end Ase.Spec
