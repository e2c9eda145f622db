import Verif.Spec.Turn
import Verif.Spec.Possible

/-!
# A flipped, turned or enlarged sprite

Used by the property C144.
-/

namespace Ase.Spec

/-- The cel where the change takes it, with the changed size. -/
def changedCel (k : Change) (f : AsepriteFile) (c : FrameCel) : FrameCel :=
  let corner := k.corner (canvasSize f) (celSize c) (c.origin.1.toInt, c.origin.2.toInt)
  { c with origin := (Int16.ofInt corner.1, Int16.ofInt corner.2),
           size := (UInt16.ofNat (k.size (celSize c)).1, UInt16.ofNat (k.size (celSize c)).2) }

/-- The number of the pixel one sees as pixel number `p` of the changed picture of width `w` and height `h`. -/
def sourceNumber (k : Change) (w h p : Nat) : Nat :=
  let source := k.source (w, h) (p % (k.size (w, h)).1, p / (k.size (w, h)).1)
  source.2 * w + source.1

/-- The four bytes of a colour. -/
def rgbaBytes : Option Color → Bytes
  | some c => [c.r, c.g, c.b, c.a]
  | none => [0, 0, 0, 0]

/-- The changed picture of an image, stored pixel by pixel in RGBA. -/
def changedImage (k : Change) (inflate : Inflater) (f : AsepriteFile) (i : Nat) (im : Image) : Image :=
  let size := k.size (im.width.toNat, im.height.toNat)
  { width := UInt16.ofNat size.1, height := UInt16.ofNat size.2, compressed := false,
    data := (List.range (size.1 * size.2)).flatMap fun p =>
      rgbaBytes (imageColor inflate f i (sourceNumber k im.width.toNat im.height.toNat p)) }

/-- The changed sprite, in RGBA colours. -/
def changedSprite (k : Change) (inflate : Inflater) (f : AsepriteFile) : Sprite where
  size := (UInt16.ofNat (k.size (canvasSize f)).1, UInt16.ofNat (k.size (canvasSize f)).2)
  depth := .rgba
  transparent := 0
  palette := none
  layers := f.layers
  frames := f.frames.map fun fr => { fr with cels := fr.cels.map (changedCel k f) }
  tags := f.tags
  images := f.images.mapIdx (changedImage k inflate f)

/-- All sizes and positions of the changed sprite are 16 bit numbers. -/
def CanChange (k : Change) (f : AsepriteFile) : Prop :=
  ((k.size (canvasSize f)).1 < 2 ^ 16 ∧ (k.size (canvasSize f)).2 < 2 ^ 16) ∧
  ∀ fr ∈ f.frames, ∀ c ∈ fr.cels,
    ((k.size (celSize c)).1 < 2 ^ 16 ∧ (k.size (celSize c)).2 < 2 ^ 16) ∧
    let corner := k.corner (canvasSize f) (celSize c) (c.origin.1.toInt, c.origin.2.toInt)
    (-2 ^ 15 ≤ corner.1 ∧ corner.1 < 2 ^ 15) ∧ -2 ^ 15 ≤ corner.2 ∧ corner.2 < 2 ^ 15

instance (k : Change) (f : AsepriteFile) : Decidable (CanChange k f) := by unfold CanChange; infer_instance

end Ase.Spec
