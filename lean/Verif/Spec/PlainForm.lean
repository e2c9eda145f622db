import Verif.Spec.Trim

/-!
# The simplest kind of sprite

Used by the property C153.
-/

namespace Ase.Spec

/-- A sprite a simple program could read: RGBA colours without a palette, images that are not compressed, only ordinary
layers, and cels that are on a layer, inside the canvas, and each with an image of its own. -/
structure PlainForm (f : AsepriteFile) : Prop where
  rgba : f.file.header.colorDepth = .rgba
  noPalette : f.file.palette = none
  raw : ∀ im ∈ f.images, im.compressed = false
  noGroups : ∀ l ∈ f.layers, l.layerType = .normal
  onLayers : ∀ fr ∈ f.frames, ∀ c ∈ fr.cels, c.layerIndex < f.layers.length
  inside : InsideCanvas f
  ownImages : ∀ (i j : Nat) fr gr, f.frames[i]? = some fr → f.frames[j]? = some gr → ∀ c ∈ fr.cels, ∀ d ∈ gr.cels,
    c.imageIndex = d.imageIndex → i = j ∧ c.layerIndex = d.layerIndex

end Ase.Spec
