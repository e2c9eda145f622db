import Verif.Spec.Strokes
import Mathlib.Algebra.Order.Field.Rat
import Mathlib.Algebra.Order.Group.MinMax

/-!
# Compositing without rounding

Colours and alphas are rational numbers from 0 to 1, as in the definitions of the blend modes for the web
(W3C, Compositing and Blending Level 1), and every operation is exact.
-/

namespace Ase.Spec.Exact

/-- A byte as a number from 0 to 1. -/
def unit (v : UInt8) : ℚ := v.toNat / 255

/-- multiply -/
def multiply (b s : ℚ) : ℚ := b * s
/-- screen -/
def screen (b s : ℚ) : ℚ := b + s - b * s
/-- hard light -/
def hardLight (b s : ℚ) : ℚ := if s ≤ 1 / 2 then multiply b (2 * s) else screen b (2 * s - 1)

/-- The colour channel that a mode makes of the backdrop channel `b` and the source channel `s`.  Soft light and the
modes on hue, saturation and luminosity are not listed; nothing is claimed about them. -/
def channel (m : BlendMode) (b s : ℚ) : ℚ :=
  match m with
  | .multiply => multiply b s
  | .screen => screen b s
  | .overlay => hardLight s b
  | .darken => min b s
  | .lighten => max b s
  | .colorDodge => if b = 0 then 0 else if s = 1 then 1 else min 1 (b / (1 - s))
  | .colorBurn => if b = 1 then 1 else if s = 0 then 0 else 1 - min 1 ((1 - b) / s)
  | .hardLight => hardLight b s
  | .difference => |b - s|
  | .exclusion => b + s - 2 * b * s
  | .addition => min 1 (b + s)
  | .subtract => max 0 (b - s)
  | .divide => if b = 0 then 0 else if s = 0 then 1 else min 1 (b / s)
  | _ => s

/-- How much of what is below a stroke hides: its alpha times the opacity of its layer. -/
def weight (s : Stroke) : ℚ := unit s.color.a * unit s.opacity

/-- A colour channel (`ch` selects red, green or blue) of an opaque pixel after a stroke. -/
def paint (ch : Color → UInt8) (v : ℚ) (s : Stroke) : ℚ := v + (channel s.mode v (unit (ch s.color)) - v) * weight s

/-- The alpha of a pixel after a stroke. -/
def cover (a : ℚ) (s : Stroke) : ℚ := a + (1 - a) * weight s

/-- A colour channel after normal blending on a pixel of any alpha: the channels, weighted by how much is seen of them,
over the alpha of the result. -/
def over (ch : Color → UInt8) (back : Color) (s : Stroke) : ℚ :=
  (unit (ch back) * (unit back.a * (1 - weight s)) + unit (ch s.color) * weight s) / cover (unit back.a) s

/-- The modes whose formulas do not magnify differences of the backdrop. -/
def steady : BlendMode → Bool
  | .normal | .multiply | .screen | .darken | .lighten | .hardLight | .difference | .exclusion | .addition
  | .subtract => true
  | _ => false

end Ase.Spec.Exact
