import Verif.Spec.Possible

/-!
# A sprite with other names, durations and tags

Used by the property C149.
-/

namespace Ase.Spec

/-- The sprite with other names of the layers, other durations of the frames and other tags. -/
def relabelled (f : AsepriteFile) (names : Nat → String) (durations : Nat → UInt16) (tags : List LTag) : Sprite :=
  { spriteOf f with
    layers := f.layers.mapIdx fun l layer => { layer with name := names l }
    frames := f.frames.mapIdx fun i fr => { fr with duration := durations i }
    tags := tags }

/-- A tag that can be stored. -/
def TagStored (t : LTag) : Prop :=
  t.rangeStart ≤ t.rangeEnd ∧ t.repeats ≠ some 0 ∧ DirectionRead t.direction ∧ FitsStr t.name

end Ase.Spec
