import Verif.Spec.Strokes
import Verif.Spec.Blend

/-!
# Strokes that do nothing more when repeated
-/

namespace Ase.Spec

/-- A stroke of full opacity that sets, or limits from above or below, the channels. -/
def Stroke.Solid (s : Stroke) : Prop :=
  (s.mode = .normal ∨ s.mode = .darken ∨ s.mode = .lighten) ∧ s.color.a = 255 ∧ s.opacity = 255

/-- A stroke that cannot be seen. -/
def Stroke.Unseen (s : Stroke) : Prop := isKnown s.mode = true ∧ isHsl s.mode = false ∧ (s.color.a = 0 ∨ s.opacity = 0)

end Ase.Spec
