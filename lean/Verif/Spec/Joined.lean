import Verif.Spec.OneFile

/-!
# Two animations one after the other

Used by the property C140.
-/

namespace Ase.Spec

/-- The same cel with its layer and image under other numbers. -/
def movedCel (layers images : Nat) (c : FrameCel) : FrameCel :=
  { c with layerIndex := layers + c.layerIndex, imageIndex := images + c.imageIndex }

/-- The same tag for frames that come later. -/
def movedTag (frames : Nat) (t : LTag) : LTag :=
  { t with rangeStart := UInt16.ofNat (frames + t.rangeStart.toNat), rangeEnd := UInt16.ofNat (frames + t.rangeEnd.toNat) }

/-- The sprite with the layers of both sprites that shows the frames of the first one, on the lower layers, and then the
frames of the second one, on the upper layers. -/
def joined (f g : AsepriteFile) : Sprite where
  size := f.size
  depth := f.file.header.colorDepth
  transparent := f.file.header.transparentIndex
  palette := f.file.palette
  layers := f.layers ++ g.layers
  frames := f.frames ++ g.frames.map fun fr => { fr with cels := fr.cels.map (movedCel f.layers.length f.images.length) }
  tags := f.tags ++ g.tags.map (movedTag f.frames.length)
  images := f.images ++ g.images

/-- Every cel is on one of the layers. -/
def OnLayers (f : AsepriteFile) : Prop := ∀ fr ∈ f.frames, ∀ c ∈ fr.cels, c.layerIndex < f.layers.length

instance (f : AsepriteFile) : Decidable (OnLayers f) := by unfold OnLayers; infer_instance

instance (s : Sprite) : Decidable (Small s) := by unfold Small; infer_instance

end Ase.Spec
