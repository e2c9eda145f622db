import Verif.Spec.Render

/-!
# What is painted on one canvas pixel
-/

namespace Ase.Spec

/-- One colour painted on a pixel: how (mode and opacity of the layer) and which. -/
structure Stroke where
  mode : BlendMode
  opacity : UInt8
  color : Color
deriving DecidableEq, Repr

/-- What a cel paints on the canvas pixel `(x, y)`, if it is drawn and covers it. -/
def strokeOf (inflate : Inflater) (f : AsepriteFile) (sel : LayerSelection) (x y : Nat) (c : FrameCel) : Option Stroke :=
  (drawnOn f sel c).bind fun layer => (coveredBy c x y).bind fun p =>
    (imageColor inflate f c.imageIndex p).map fun color => ⟨layer.blendMode, layer.opacity, color⟩

/-- What the cels paint on the canvas pixel `(x, y)`, in order. -/
def strokes (inflate : Inflater) (f : AsepriteFile) (sel : LayerSelection) (x y : Nat) (cels : List FrameCel) :
    List Stroke :=
  cels.filterMap (strokeOf inflate f sel x y)

/-- The looks of a cel in a sprite under a selection: mode and opacity of its layer if it is drawn, its position and
size, and its image. -/
def celLooks (f : AsepriteFile) (sel : LayerSelection) (c : FrameCel) :
    Option (BlendMode × UInt8) × (Int16 × Int16) × (UInt16 × UInt16) × Option Image :=
  ((drawnOn f sel c).map fun l => (l.blendMode, l.opacity), c.origin, c.size, f.images[c.imageIndex]?)

/-- The sprites read the data of images in the same way. -/
def SameColors (f g : AsepriteFile) : Prop :=
  f.file.header.colorDepth = g.file.header.colorDepth ∧
    (f.file.header.colorDepth = .indexed → f.file.palette = g.file.palette)

end Ase.Spec
