import Verif.Spec.Hsl
import Verif.Spec.Strokes

/-!
# What a debug build can draw

Used by the property C135.
-/

namespace Ase.Spec

/-- Painting the stroke on a pixel of the colour `below` passes the assertions of debug builds: it has no HSL mode, or the
pixel is fully transparent, or the stroke has an alpha of at most 1 and either the colour whose luminosity is set has no
saturation or the luminosity it is set to is at most 1 (of 255). -/
def Passes (below : Color) (s : Stroke) : Prop :=
  isHsl s.mode = true → below.a = 0 ∨
    s.color.a.toNat ≤ 1 ∧ (Hsl.sat (Hsl.source s.mode below s.color) = 0 ∨ Hsl.target s.mode below s.color ≤ 1)

/-- All the strokes pass, each on the colour that a release build paints before it. -/
def AllPass : List Stroke → Color → Prop
  | [], _ => True
  | s :: ss, below =>
    Passes below s ∧ ∀ c, blend ⟨false, 0⟩ s.mode below s.color s.opacity = .ok c → AllPass ss c

end Ase.Spec
