import Verif.Spec.Possible
import Verif.Spec.Render

/-!
# Frames of several sprites in one file

Used by the properties C138 and C139.  A frame of a loaded sprite is given by the sprite and the number of the frame.
-/

namespace Ase.Spec

/-- The two sprites have the same size, colour depth and palette. -/
def SameMedium (f g : AsepriteFile) : Prop :=
  f.size = g.size ∧ f.file.header.colorDepth = g.file.header.colorDepth ∧ f.file.palette = g.file.palette

instance (f g : AsepriteFile) : Decidable (SameMedium f g) := by unfold SameMedium; infer_instance

/-- The cels of the frame. -/
def pageCels (q : AsepriteFile × Nat) : List FrameCel := ((q.1.frames[q.2]?).map (·.cels)).getD []

/-- An estimate of what it takes to store the layers of the sprite and the images of the frame. -/
def pageBytes (q : AsepriteFile × Nat) : Nat :=
  (q.1.layers.map fun l => 64 + (utf8 l.name).length).sum +
    ((pageCels q).map fun c => 64 + (((q.1.images[c.imageIndex]?).map (·.data.length)).getD 0)).sum

/-- All the layers, those of the first sprite being the lowest. -/
def pageLayers (qs : List (AsepriteFile × Nat)) : List LLayer := qs.flatMap (·.1.layers)

/-- Which of all the layers are selected if from every sprite some are selected. -/
def jointMask (qs : List ((AsepriteFile × Nat) × LayerSelection)) : List Bool :=
  qs.flatMap fun q => q.1.1.layers.zipIdx.map fun x => decide (Selects q.2 x.2 x.1)

/-- Calls made one after the other on the same buffer, until one of them fails. -/
def inTurn : List (Buf Unit) → Bytes → Outcome LoadImageError Unit × Bytes
  | [], t => (.ok (), t)
  | call :: calls, t =>
    match call t with
    | (.ok (), t') => inTurn calls t'
    | failure => failure

/-- What is left of a selection for a file that has layer `k` only. -/
def onLayer (sel : LayerSelection) (k : Nat) : LayerSelection :=
  match sel with
  | .visible => .visible
  | .all => .all
  | .mask m => .mask [(m[k]?).getD false]

end Ase.Spec
