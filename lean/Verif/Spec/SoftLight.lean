import Mathlib.Analysis.Real.Sqrt

/-!
# Soft light

The blend mode "soft light" on real numbers from 0 to 1, as in the W3C specification "Compositing and Blending Level 1",
section 9.1.9.  Used by C47 and C51.
-/

namespace Ase.Spec

/-- The function `D` of the W3C specification. -/
noncomputable def softLightD (b : ℝ) : ℝ := if b ≤ 1 / 4 then ((16 * b - 12) * b + 4) * b else √b

/-- Soft light of the backdrop value `b` and the source value `s`. -/
noncomputable def softLight (b s : ℝ) : ℝ :=
  if s ≤ 1 / 2 then b - (1 - 2 * s) * b * (1 - b) else b + (2 * s - 1) * (softLightD b - b)

/-- `k` is the integer nearest to `x`, halves up. -/
def Rounded (x : ℝ) (k : ℕ) : Prop := (k : ℝ) - 1 / 2 ≤ x ∧ x < k + 1 / 2

/-- `k` is the soft light of the channel values `b` and `s` (0 to 255), exactly rounded. -/
def SoftLight (b s k : ℕ) : Prop := Rounded (255 * softLight (b / 255) (s / 255)) k

end Ase.Spec
