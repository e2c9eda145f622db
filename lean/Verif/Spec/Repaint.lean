import Verif.Spec.Possible
import Verif.Spec.Once

/-!
# A sprite with other pixels

Used by the property C152.
-/

namespace Ase.Spec

/-- The sprite in RGBA colours whose image number `k` holds the bytes `pixels k`; everything else as it is. -/
def withPixels (f : AsepriteFile) (pixels : Nat → Bytes) : Sprite :=
  { spriteOf f with depth := .rgba, transparent := 0, palette := none,
                    images := f.images.mapIdx fun k im => { im with data := pixels k, compressed := false } }

end Ase.Spec
