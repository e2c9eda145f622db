import Verif.Model.Loader

/-!
# Which panics can occur (C131)
-/

namespace Ase.Spec

/-- The panics of `parse_file` and `load`: an index out of bounds, an arithmetic overflow in debug builds, and a stack
overflow. -/
def ParsePanics (plat : Plat) : Panic → Prop
  | .indexOutOfBounds => True
  | .overflow => plat.debug = true
  | .stackOverflow => True
  | _ => False

/-- The panics of rendering a frame that exists: slices of different lengths, `unwrap` on an error, the `panic!` for an
unknown blend mode, and a failed debug assertion in debug builds. -/
def RenderPanics (plat : Plat) : Panic → Prop
  | .lengthMismatch => True
  | .unwrapOnErr => True
  | .explicitPanic => True
  | .debugAssertFailed => plat.debug = true
  | _ => False

/-- The selection can take a layer that a cel may be on: a mask has to have a `true` in its first 65536 entries. -/
def CanSelect : LayerSelection → Prop
  | .visible => True
  | .all => True
  | .mask m => ∃ l < 2 ^ 16, m[l]? = some true

end Ase.Spec
