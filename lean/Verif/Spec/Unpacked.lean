import Verif.Spec.Possible

/-!
# A sprite without compression and palette

Used by the property C143.
-/

namespace Ase.Spec

/-- `load_image` succeeds for every image, given a cleared buffer of the right size. -/
def AllDecode (inflate : Inflater) (f : AsepriteFile) : Prop := ∀ (k : Nat) (im : Image), f.images[k]? = some im →
  (f.loadImage inflate k (List.replicate (im.width.toNat * im.height.toNat * 4) 0)).1 = .ok ()

/-- An image that stores the bytes `load_image` leaves in a cleared buffer, as they are. -/
def plainImage (inflate : Inflater) (f : AsepriteFile) (k : Nat) (im : Image) : Image :=
  { im with data := (f.loadImage inflate k (List.replicate (im.width.toNat * im.height.toNat * 4) 0)).2, compressed := false }

/-- The sprite in RGBA colours, without a palette and with no image compressed; everything else as it is. -/
def inPlainRgba (inflate : Inflater) (f : AsepriteFile) : Sprite :=
  { spriteOf f with depth := .rgba, transparent := 0, palette := none,
                    images := f.images.mapIdx (plainImage inflate f) }

end Ase.Spec
