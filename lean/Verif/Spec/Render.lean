import Verif.Spec.Image
import Verif.Spec.Blend

/-!
# What a rendered frame shows

The colour of each canvas pixel, by itself.  Used by the properties C34 to C41, C52 and C53.
-/

namespace Ase.Spec

/-- The selection contains layer number `i`. -/
def Selects (sel : LayerSelection) (i : Nat) (layer : LLayer) : Prop :=
  match sel with
  | .visible => layer.visible = true
  | .all => True
  | .mask m => m[i]? = some true

instance (sel : LayerSelection) (i : Nat) (layer : LLayer) : Decidable (Selects sel i layer) := by
  unfold Selects; cases sel <;> infer_instance

/-- The layer of a cel, if the cel is to be drawn: the layer exists, is not a group and is selected. -/
def drawnOn (f : AsepriteFile) (sel : LayerSelection) (c : FrameCel) : Option LLayer :=
  match f.layers[c.layerIndex]? with
  | some layer => if layer.layerType ≠ .group ∧ Selects sel c.layerIndex layer then some layer else none
  | none => none

/-- The number of the image pixel of a cel that lies on the canvas pixel `(x, y)`. -/
def coveredBy (c : FrameCel) (x y : Nat) : Option Nat :=
  let dx : Int := x - c.origin.1.toInt
  let dy : Int := y - c.origin.2.toInt
  if 0 ≤ dx ∧ dx < c.size.1.toNat ∧ 0 ≤ dy ∧ dy < c.size.2.toNat then
    some (dy.toNat * c.size.1.toNat + dx.toNat)
  else none

/-- The image data inflated or as it is; bytes missing at the end count as zero. -/
def imageBytes (inflate : Inflater) (file : File) (im : Image) : Bytes :=
  let n := pixelCount im * bytesPerPixel file.header.colorDepth
  (if im.compressed then (inflate im.data n).2 else im.data) ++ List.replicate n 0

/-- The colour of pixel number `p` of image number `i` of the sprite. -/
def imageColor (inflate : Inflater) (f : AsepriteFile) (i p : Nat) : Option Color :=
  (f.images[i]?).bind fun im =>
    storedPixel f.file.header.colorDepth f.file.palette (imageBytes inflate f.file im) p

/-- The colour of the canvas pixel `(x, y)` after drawing the cels in order, starting from the colour `c`. -/
def compose (plat : Plat) (inflate : Inflater) (f : AsepriteFile) (sel : LayerSelection) (x y : Nat) :
    List FrameCel → Color → Run Color
  | [], c => .ok c
  | cel :: cels, c =>
    match drawnOn f sel cel, (coveredBy cel x y).bind (imageColor inflate f cel.imageIndex) with
    | some layer, some front =>
      (blend plat layer.blendMode c front layer.opacity).bind (compose plat inflate f sel x y cels)
    | _, _ => compose plat inflate f sel x y cels c

/-- The image can be decoded: the colour depth is known and the data is a complete zlib stream, or has the right
length. -/
def HasPixels (inflate : Inflater) (file : File) (im : Image) : Prop :=
  (∀ n, file.header.colorDepth ≠ .unknown n) ∧
    let n := pixelCount im * bytesPerPixel file.header.colorDepth
    if im.compressed then (inflate im.data n).1 = .streamEnd else im.data.length = n

/-- The canvas size in bytes. -/
def canvasBytes (f : AsepriteFile) : Nat := f.file.header.width.toNat * f.file.header.height.toNat * 4

/-- Pixel `(x, y)` of a canvas. -/
def canvasPixel (f : AsepriteFile) (buf : Bytes) (x y : Nat) : Option Color :=
  pixel buf (y * f.file.header.width.toNat + x)

end Ase.Spec
