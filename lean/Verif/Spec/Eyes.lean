import Verif.Spec.Shown

/-!
# Files that differ in the eyes of their layers
-/

namespace Ase.Spec

/-- What is painted with a layer, whether or not it is shown: type, blend mode and opacity. -/
def layerPaint (c : LayerChunk) : LayerType × BlendMode × UInt8 := (c.layerType, c.blendMode, c.opacity)

/-- The second file is the first one with other eyes: the canvas (size, colour depth, transparent index, palettes) is the
same, so are the layers but for what is shown of them, and so are the cels of each frame. -/
structure OtherEyes (raw raw' : RawFile) : Prop where
  canvas : canvas raw = canvas raw'
  layers : (Doc.layers raw).map layerPaint = (Doc.layers raw').map layerPaint
  cels : raw.frames.map (fun fr => (Doc.cels fr).map celLook) = raw'.frames.map fun fr => (Doc.cels fr).map celLook

instance (raw raw' : RawFile) : Decidable (OtherEyes raw raw') :=
  decidable_of_iff (Spec.canvas raw = Spec.canvas raw' ∧
      (Doc.layers raw).map layerPaint = (Doc.layers raw').map layerPaint ∧
      raw.frames.map (fun fr => (Doc.cels fr).map celLook) = raw'.frames.map fun fr => (Doc.cels fr).map celLook)
    ⟨fun ⟨a, b, c⟩ => ⟨a, b, c⟩, fun ⟨a, b, c⟩ => ⟨a, b, c⟩⟩

end Ase.Spec
