import Verif.Spec.Render

/-!
# Flipping, rotating and enlarging
-/

namespace Ase.Spec

/-- What can be done to a sprite.  Other rotations are these, one after the other. -/
inductive Change where
  /-- left and right exchanged -/
  | flipX
  /-- top and bottom exchanged -/
  | flipY
  /-- rows and columns exchanged -/
  | transpose
  /-- every pixel becomes a square of `n` by `n` pixels -/
  | enlarge (n : Nat)
deriving DecidableEq

/-- The size of a changed picture (width, height). -/
def Change.size : Change → Nat × Nat → Nat × Nat
  | .flipX, s | .flipY, s => s
  | .transpose, (w, h) => (h, w)
  | .enlarge n, (w, h) => (n * w, n * h)

/-- Which pixel of a picture of the given size one sees at `(x, y)` in the changed picture. -/
def Change.source : Change → Nat × Nat → Nat × Nat → Nat × Nat
  | .flipX, (w, _), (x, y) => (w - 1 - x, y)
  | .flipY, (_, h), (x, y) => (x, h - 1 - y)
  | .transpose, _, (x, y) => (y, x)
  | .enlarge n, _, (x, y) => (x / n, y / n)

/-- Where the upper left corner of a cel of size `(w, h)` at `(x, y)` on a canvas of the given size gets. -/
def Change.corner : Change → Nat × Nat → Nat × Nat → Int × Int → Int × Int
  | .flipX, (cw, _), (w, _), (x, y) => (cw - x - w, y)
  | .flipY, (_, ch), (_, h), (x, y) => (x, ch - y - h)
  | .transpose, _, _, (x, y) => (y, x)
  | .enlarge n, _, _, (x, y) => (n * x, n * y)

/-- The size of the canvas. -/
def canvasSize (f : AsepriteFile) : Nat × Nat := (f.size.1.toNat, f.size.2.toNat)

/-- The size of a cel. -/
def celSize (c : FrameCel) : Nat × Nat := (c.size.1.toNat, c.size.2.toNat)

/-- Cel `d` of sprite `g` is cel `c` of sprite `f` changed: it is on the same layer, has the changed size, lies where the
change takes it, and shows the changed picture. -/
structure ChangedCel (k : Change) (inflate : Inflater) (f g : AsepriteFile) (c d : FrameCel) : Prop where
  layer : c.layerIndex = d.layerIndex
  size : celSize d = k.size (celSize c)
  corner : (d.origin.1.toInt, d.origin.2.toInt) =
    k.corner (canvasSize f) (celSize c) (c.origin.1.toInt, c.origin.2.toInt)
  colors : ∀ x y, x < (celSize d).1 → y < (celSize d).2 →
    imageColor inflate g d.imageIndex (y * (celSize d).1 + x) =
      imageColor inflate f c.imageIndex
        ((k.source (celSize c) (x, y)).2 * (celSize c).1 + (k.source (celSize c) (x, y)).1)

/-- The second buffer shows the first one changed. -/
def ChangedBuffer (k : Change) (f g : AsepriteFile) (t u : Bytes) : Prop :=
  ∀ x y, x < (canvasSize g).1 → y < (canvasSize g).2 →
    canvasPixel g u x y = canvasPixel f t (k.source (canvasSize f) (x, y)).1 (k.source (canvasSize f) (x, y)).2

end Ase.Spec
