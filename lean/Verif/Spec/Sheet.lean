import Verif.Spec.Render
import Verif.Spec.Window

/-!
# Sprite sheets

Used by the property C145.
-/

namespace Ase.Spec

/-- No cel reaches over the left or right edge of the canvas. -/
def InsideSides (f : AsepriteFile) : Prop := ∀ fr ∈ f.frames, ∀ c ∈ fr.cels,
  0 ≤ c.origin.1.toInt ∧ c.origin.1.toInt + c.size.1.toNat ≤ f.size.1.toNat

instance (f : AsepriteFile) : Decidable (InsideSides f) := by unfold InsideSides; infer_instance

/-- The same selection for each of `n` copies of `k` layers. -/
def forEachCopy (n k : Nat) : LayerSelection → LayerSelection
  | .visible => .visible
  | .all => .all
  | .mask m => .mask (List.replicate n ((List.range k).map fun l => (m[l]?).getD false)).flatten

end Ase.Spec
