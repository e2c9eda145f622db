import Verif.Spec.Possible

/-!
# Sprites without groups

Used by the property C150.
-/

namespace Ase.Spec

/-- The cel is on a layer that exists and is not a group. -/
def OnPicture (f : AsepriteFile) (c : FrameCel) : Bool := (f.layers[c.layerIndex]?).any (·.layerType != .group)

/-- What a cel shows: where, how large, on which layer, and which image. -/
def celShows (images : List Image) (c : FrameCel) : (Int16 × Int16) × (UInt16 × UInt16) × Nat × Option Image :=
  (c.origin, c.size, c.layerIndex, images[c.imageIndex]?)

end Ase.Spec
