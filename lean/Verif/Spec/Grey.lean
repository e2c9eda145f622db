import Verif.Model.Blend

/-!
# Grey
-/

namespace Ase.Spec

/-- Red, green and blue are the same. -/
def IsGrey (c : Color) : Prop := c.r = c.g ∧ c.g = c.b

instance (c : Color) : Decidable (IsGrey c) := inferInstanceAs (Decidable (_ ∧ _))

/-- The modes that do not keep greys grey. -/
def coloring : BlendMode → Bool
  | .softLight | .hue | .saturation => true
  | _ => false

end Ase.Spec
