import Verif.Model.Saturation
import Verif.Spec.Grey

/-!
# The switch between the two sorts
-/

namespace Ase.Spec

/-- A pixel blended with the function for the mode, when the switch is on (`true`) or off. -/
def blendC (compatible : Bool) (plat : Plat) (m : BlendMode) (back front : Color) (opacity : UInt8) : Run Color := do
  let f ← blendModeToBlendFnC compatible plat m
  f back front opacity

/-- The colours with a channel that the compatible sort forgets and that is not 0 anyway: red and green are equal and
blue is not less, or green and blue are equal and red is more. -/
def Forgotten (c : Color) : Prop := (c.r = c.g ∧ c.g ≤ c.b ∧ c.r ≠ 0) ∨ (c.g = c.b ∧ c.b < c.r ∧ c.g ≠ 0)

instance (c : Color) : Decidable (Forgotten c) := inferInstanceAs (Decidable (_ ∨ _))

end Ase.Spec
