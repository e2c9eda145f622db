import Verif.Model.Blend

/-!
# What the blend modes compute

Channel values and opacities are natural numbers from 0 to 255 standing for 0 to 1.  Used by the properties C45 to C51.
-/

namespace Ase.Spec

/-- Blend the source colour `front` with the given opacity onto the backdrop `back`: look up the mode's function and
call it, as `render_frame` does for each pixel. -/
def blend (plat : Plat) (m : BlendMode) (back front : Color) (opacity : UInt8) : Run Color :=
  blendModeToBlendFn plat m >>= fun f => f back front opacity

/-- `r` is an integer nearest to `n / d`. -/
def Nearest (n d r : Int) : Prop := -d ≤ 2 * (n - d * r) ∧ 2 * (n - d * r) ≤ d

/-- `n / d` rounded to the nearest integer, halves up. -/
def roundDiv (n d : Nat) : Nat := (2 * n + d) / (2 * d)

/-- From `x` towards `y` by the fraction `o / 255`: the integer nearest to `x + (y - x) * o / 255`, except that going
downwards the fractional part `127/255` is rounded up instead of down. -/
def mix (x y o : Int) : Int := x + ((y - x) * o + if x ≤ y then 127 else 128) / 255

/-- The product of two channel values. -/
def times (b s : Nat) : Nat := roundDiv (b * s) 255

/-- The channel values from the backdrop value `b` and the source value `s`, for the blend modes computed channel by
channel in integers. -/
def multiply (b s : Nat) : Nat := times b s
/-- screen: `1 - (1 - b) (1 - s)` -/
def screen (b s : Nat) : Nat := b + s - times b s
/-- hard light: multiply with, or screen of, twice the source -/
def hardLight (b s : Nat) : Nat := if s < 128 then multiply b (2 * s) else screen b (2 * s - 255)
/-- overlay: hard light with the operands exchanged -/
def overlay (b s : Nat) : Nat := hardLight s b
/-- darken -/
def darken (b s : Nat) : Nat := min b s
/-- lighten -/
def lighten (b s : Nat) : Nat := max b s
/-- color dodge: `b / (1 - s)`, at most 1 -/
def colorDodge (b s : Nat) : Nat :=
  if b = 0 then 0 else if b ≥ 255 - s then 255 else roundDiv (b * 255) (255 - s)
/-- color burn: `1 - (1 - b) / s`, at least 0 -/
def colorBurn (b s : Nat) : Nat :=
  if b = 255 then 255 else if 255 - b ≥ s then 0 else 255 - roundDiv ((255 - b) * 255) s
/-- divide: `b / s`, at most 1 -/
def divide (b s : Nat) : Nat := if b = 0 then 0 else if b ≥ s then 255 else roundDiv (b * 255) s
/-- difference -/
def difference (b s : Nat) : Nat := max b s - min b s
/-- exclusion: `b + s - 2 b s` -/
def exclusion (b s : Nat) : Nat := b + s - 2 * times b s
/-- addition, at most 1 -/
def addition (b s : Nat) : Nat := min (b + s) 255
/-- subtraction, at least 0 -/
def subtract (b s : Nat) : Nat := b - s

/-- The channel function of a mode whose result is computed channel by channel in integers. -/
def channelFn : BlendMode → Option (Nat → Nat → Nat)
  | .normal => some fun _ s => s
  | .multiply => some multiply
  | .screen => some screen
  | .overlay => some overlay
  | .darken => some darken
  | .lighten => some lighten
  | .colorDodge => some colorDodge
  | .colorBurn => some colorBurn
  | .hardLight => some hardLight
  | .difference => some difference
  | .exclusion => some exclusion
  | .addition => some addition
  | .subtract => some subtract
  | .divide => some divide
  | _ => none

/-- The four modes that work on hue, saturation and luminosity. -/
def isHsl : BlendMode → Bool
  | .hue | .saturation | .color | .luminosity => true
  | _ => false

/-- A blend mode the crate knows. -/
def isKnown : BlendMode → Bool
  | .unknown _ => false
  | _ => true

end Ase.Spec
