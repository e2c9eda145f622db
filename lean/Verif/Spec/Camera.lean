import Verif.Spec.Window

/-!
# Animations made of parts of the canvas

Used by the property C146.
-/

namespace Ase.Spec

/-- For a time, frame number `frame` of a sprite seen from the place `(x, y)` of its canvas. -/
structure Shot where
  duration : UInt16
  frame : Nat
  x : Int
  y : Int

end Ase.Spec
