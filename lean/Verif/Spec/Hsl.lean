import Mathlib.Algebra.Order.Archimedean.Real.Basic
import Mathlib.Algebra.Order.Round
import Verif.Model.Blend

/-!
# The HSL blend modes

"Compositing and Blending Level 1" (W3C), "Non-separable blend modes", over the real numbers.  A colour is
given by its red, green and blue channels 0, 1 and 2.
-/

namespace Ase.Spec.Hsl

abbrev Colour := Fin 3 → ℝ

/-- `Lum(C)` -/
noncomputable def lum (c : Colour) : ℝ := 3 / 10 * c 0 + 59 / 100 * c 1 + 11 / 100 * c 2

/-- The smallest and the largest channel. -/
noncomputable def least (c : Colour) : ℝ := min (c 0) (min (c 1) (c 2))
noncomputable def most (c : Colour) : ℝ := max (c 0) (max (c 1) (c 2))

/-- `Sat(C)` -/
noncomputable def sat (c : Colour) : ℝ := most c - least c

/-- `ClipColor(C)`: luminosity, smallest and largest channel are those of `C` in both steps. -/
noncomputable def clip (c : Colour) : Colour :=
  let low : Colour := if least c < 0 then fun i => lum c + (c i - lum c) * lum c / (lum c - least c) else c
  if 1 < most c then fun i => lum c + (low i - lum c) * (1 - lum c) / (most c - lum c) else low

/-- `SetLum(C, l)` -/
noncomputable def setLum (c : Colour) (l : ℝ) : Colour := clip fun i => c i + (l - lum c)

/-- `SetSat(C, s)`: the largest channel becomes `s`, the smallest 0, and the one between keeps its place between them; if
all channels are equal, all become 0 (division by zero gives 0 here). -/
noncomputable def setSat (c : Colour) (s : ℝ) : Colour := fun i => (c i - least c) * s / (most c - least c)

/-- `SetSat` as Aseprite and the crate compute it.  Their way to sort the channels picks the same channel twice if the two
smallest ones are red and green (or all three are equal), or green and blue.  Then red, or green, is left as it is. -/
noncomputable def setSatTies (c : Colour) (s : ℝ) : Colour := fun i =>
  if (i = 0 ∧ c 0 = c 1 ∧ c 1 ≤ c 2) ∨ (i = 1 ∧ c 1 = c 2 ∧ c 2 < c 0) then c i else setSat c s i

/-- The channels of a pixel as the crate uses them: from 0 to 255, where the formulas of the W3C expect 0 to 1. -/
noncomputable def channels (c : Color) : Colour := fun i =>
  if i = 0 then (c.r.toNat : ℝ) else if i = 1 then (c.g.toNat : ℝ) else (c.b.toNat : ℝ)

/-- The colour that gets another luminosity, for the modes hue, saturation, color and luminosity. -/
noncomputable def source (m : BlendMode) (back front : Color) : Colour :=
  match m with
  | .hue => setSatTies (channels front) (sat (channels back))
  | .saturation => setSatTies (channels back) (sat (channels front))
  | .color => channels front
  | _ => channels back

/-- Whose luminosity it gets. -/
noncomputable def target (m : BlendMode) (back front : Color) : ℝ :=
  match m with
  | .luminosity => lum (channels front)
  | _ => lum (channels back)

/-- `B(Cb, Cs)` of the four modes. -/
noncomputable def colour (m : BlendMode) (back front : Color) : Colour :=
  setLum (source m back front) (target m back front)

/-- The colour the W3C prescribes, with channels from 0 to 1. -/
noncomputable def w3c (m : BlendMode) (back front : Color) : Colour :=
  let cb : Colour := fun i => channels back i / 255
  let cs : Colour := fun i => channels front i / 255
  match m with
  | .hue => setLum (setSat cs (sat cb)) (lum cb)
  | .saturation => setLum (setSat cb (sat cs)) (lum cb)
  | .color => setLum cs (lum cb)
  | _ => setLum cb (lum cs)

/-- `y as i32`: towards zero. -/
noncomputable def truncate (y : ℝ) : ℤ := if 0 ≤ y then ⌊y⌋ else ⌈y⌉

end Ase.Spec.Hsl
