import Verif.Spec.Restack

/-!
# Files with layers of other types: tilemaps, and types that are not known (C125)
-/

namespace Ase.Spec

/-- The normal layers and the groups of a file, from the bottom to the top. -/
def ordinaryLayers (raw : RawFile) : List LayerChunk :=
  (Doc.layers raw).filter fun c => c.layerType = .normal || c.layerType = .group

/-- The second file is the first one without the layers that are neither normal layers nor groups.  The cels keep the layer
numbers they had, whatever layer now has that number; those for which there is no layer any more are removed. -/
structure OthersRemoved (raw raw' : RawFile) : Prop where
  canvas : canvas raw = canvas raw'
  frames : raw.frames.length = raw'.frames.length
  layers : (Doc.layers raw').map layerLook = (ordinaryLayers raw).map layerLook
  cels : ∀ i l, (Doc.celOf raw' i l).map celPlace =
    if l < (ordinaryLayers raw).length then (Doc.celOf raw i l).map celPlace else none

/-- All normal layers and groups are below all layers of other types. -/
def OthersOnTop (raw : RawFile) : Prop :=
  ∃ others : List LayerChunk, Doc.layers raw = ordinaryLayers raw ++ others

end Ase.Spec
