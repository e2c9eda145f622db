import Verif.Spec.Strokes

/-!
# Sprites that do not come straight from a file

All fields of `AsepriteFile`, and of what it holds, are public, so a sprite can be changed after loading, or be put
together by hand.  Nothing is assumed of its parts here.
-/

namespace Ase.Spec

/-- What the types of the fields promise: a palette has 256 colours (an array in the code, a list in the model). -/
def Typed (f : AsepriteFile) : Prop := ∀ pal, f.file.palette = some pal → pal.colors.length = 256

/-- The colour number `p` of a cel, counted along its rows: that of its image, whatever the width of the image is, and
transparent black where the image has ended. -/
def shownColor (inflate : Inflater) (f : AsepriteFile) (c : FrameCel) (p : Nat) : Option Color :=
  (f.images[c.imageIndex]?).bind fun im =>
    if p < pixelCount im then imageColor inflate f c.imageIndex p else some ⟨0, 0, 0, 0⟩

/-- The cel can be decoded: its image exists, has pixels, and the palette for them, and no more of them than the cel. -/
def CelFits (inflate : Inflater) (f : AsepriteFile) (c : FrameCel) : Prop :=
  ∃ im, f.images[c.imageIndex]? = some im ∧ HasPixels inflate f.file im ∧
    (f.file.header.colorDepth = .indexed → f.file.palette ≠ none) ∧
    pixelCount im ≤ c.size.1.toNat * c.size.2.toNat

/-- The colour of the canvas pixel `(x, y)` after drawing the cels in order, starting from the colour `c`. -/
def composeShown (plat : Plat) (inflate : Inflater) (f : AsepriteFile) (sel : LayerSelection) (x y : Nat) :
    List FrameCel → Color → Run Color
  | [], c => .ok c
  | cel :: cels, c =>
    match drawnOn f sel cel, (coveredBy cel x y).bind (shownColor inflate f cel) with
    | some layer, some front =>
      (blend plat layer.blendMode c front layer.opacity).bind (composeShown plat inflate f sel x y cels)
    | _, _ => composeShown plat inflate f sel x y cels c

/-- `g` is an edited `f`: colour depth, palette and images are the same, and every cel has image and size of one of the
cels of `f`.  Everything else may differ: the layers, the tags, the size of the canvas, the number of frames, and which
cels there are in a frame, in which order, at which places and on which layers. -/
def EditOf (f g : AsepriteFile) : Prop :=
  g.file.header.colorDepth = f.file.header.colorDepth ∧ g.file.palette = f.file.palette ∧ g.images = f.images ∧
    ∀ lg ∈ g.frames, ∀ c ∈ lg.cels, ∃ lf ∈ f.frames, ∃ c' ∈ lf.cels, c.imageIndex = c'.imageIndex ∧ c.size = c'.size

end Ase.Spec
