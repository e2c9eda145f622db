import Verif.Spec.Possible

/-!
# A part of the canvas as a sprite

Used by the property C142.
-/

namespace Ase.Spec

/-- The same cel, seen from the place `(x, y)` of the canvas. -/
def seenFrom (x y : Int) (c : FrameCel) : FrameCel :=
  { c with origin := (Int16.ofInt (c.origin.1.toInt - x), Int16.ofInt (c.origin.2.toInt - y)) }

/-- The sprite with a canvas of size `w` by `h` whose upper left corner is at `(x, y)`, and everything else as it is. -/
def windowOf (f : AsepriteFile) (x y : Int) (w h : UInt16) : Sprite :=
  { spriteOf f with size := (w, h),
                    frames := f.frames.map fun fr => { fr with cels := fr.cels.map (seenFrom x y) } }

/-- The positions of all cels, seen from there, are 16 bit numbers. -/
def CanBeSeenFrom (x y : Int) (f : AsepriteFile) : Prop := ∀ fr ∈ f.frames, ∀ c ∈ fr.cels,
  (-2 ^ 15 ≤ c.origin.1.toInt - x ∧ c.origin.1.toInt - x < 2 ^ 15) ∧
  (-2 ^ 15 ≤ c.origin.2.toInt - y ∧ c.origin.2.toInt - y < 2 ^ 15)

instance (x y : Int) (f : AsepriteFile) : Decidable (CanBeSeenFrom x y f) := by unfold CanBeSeenFrom; infer_instance

end Ase.Spec
