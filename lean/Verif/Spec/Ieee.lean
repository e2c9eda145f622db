import Mathlib.Analysis.Real.Sqrt
import Verif.Model.F64

/-!
# IEEE 754 binary64

What the standard says of the operations of `f64`: an operation gives the number nearest to the exact result, and of two
equally near ones the one with an even significand; numbers are infinite from half a unit above the largest finite one.
Used by C115.
-/

namespace Ase.Spec.Ieee

/-- The real number that a finite number stands for. -/
noncomputable def value : F64 → ℝ
  | .fin s m e => (if s then -1 else 1) * (m * (2 : ℝ) ^ e)
  | _ => 0

/-- The finite numbers: a sign, a significand `m` of 53 bits and an exponent `e` from -1074 to 971.  The significand
has all its 53 bits, unless the exponent is the least one. -/
def IsFinite : F64 → Prop
  | .fin _ m e => m < 2 ^ 53 ∧ -1074 ≤ e ∧ e ≤ 971 ∧ (2 ^ 52 ≤ m ∨ e = -1074)
  | _ => False

/-- All numbers: the finite ones, the infinities and NaN. -/
def Number : F64 → Prop
  | .fin s m e => IsFinite (.fin s m e)
  | _ => True

/-- `r` is the number nearest to `v`, the one with an even significand if there are two; it has the sign of `v` (unless
`v` is 0, which has none), and is infinite if `v` is too large. -/
def Rounded (v : ℝ) : F64 → Prop
  | .nan => False
  | .inf s => 2 ^ 1024 - 2 ^ 970 ≤ |v| ∧ (s = true ↔ v < 0)
  | .fin s m e => |v| < 2 ^ 1024 - 2 ^ 970 ∧ IsFinite (.fin s m e) ∧ (0 < v → s = false) ∧ (v < 0 → s = true) ∧
      ∀ y, IsFinite y → |v - value (.fin s m e)| ≤ |v - value y| ∧
        (|v - value (.fin s m e)| = |v - value y| → value y = value (.fin s m e) ∨ m % 2 = 0)

/-- The integer part of a real number, without what is behind the point. -/
noncomputable def truncate (v : ℝ) : ℤ := if v < 0 then ⌈v⌉ else ⌊v⌋

/-- The sign bit of a number (NaN has none that can be seen). -/
def sign : F64 → Bool
  | .fin s _ _ | .inf s => s
  | .nan => false

/-- The operations that the standard defines (those that the loader uses). -/
structure Arith where
  add : F64 → F64 → F64
  sub : F64 → F64 → F64
  mul : F64 → F64 → F64
  div : F64 → F64 → F64
  sqrt : F64 → F64
  min : F64 → F64 → F64
  max : F64 → F64 → F64

/-- What the standard says of them. -/
structure IsIeee (A : Arith) : Prop where
  /-- NaN gives NaN. -/
  nan : ∀ x, A.add .nan x = .nan ∧ A.add x .nan = .nan ∧ A.sub .nan x = .nan ∧ A.sub x .nan = .nan ∧ A.mul .nan x = .nan ∧
    A.mul x .nan = .nan ∧ A.div .nan x = .nan ∧ A.div x .nan = .nan
  nan_sqrt : A.sqrt .nan = .nan
  /-- Sums are rounded; a sum that is 0 has a minus sign only if both numbers have one. -/
  add : ∀ x y, IsFinite x → IsFinite y → Rounded (value x + value y) (A.add x y) ∧
    (value x + value y = 0 → sign (A.add x y) = (sign x && sign y))
  add_inf : ∀ x s, IsFinite x → A.add (.inf s) x = .inf s ∧ A.add x (.inf s) = .inf s
  inf_add_inf : ∀ s, A.add (.inf s) (.inf s) = .inf s ∧ A.add (.inf s) (.inf !s) = .nan
  sub : ∀ x y, IsFinite x → IsFinite y → Rounded (value x - value y) (A.sub x y) ∧
    (value x - value y = 0 → sign (A.sub x y) = (sign x && !sign y))
  sub_inf : ∀ x s, IsFinite x → A.sub (.inf s) x = .inf s ∧ A.sub x (.inf s) = .inf !s
  inf_sub_inf : ∀ s, A.sub (.inf s) (.inf s) = .nan ∧ A.sub (.inf s) (.inf !s) = .inf s
  /-- Products and quotients are rounded, and have the sign of the product of signs, also if they are 0. -/
  mul : ∀ x y, IsFinite x → IsFinite y → Rounded (value x * value y) (A.mul x y) ∧ sign (A.mul x y) = (sign x != sign y)
  mul_inf : ∀ x s, IsFinite x → value x ≠ 0 → A.mul (.inf s) x = .inf (s != sign x) ∧ A.mul x (.inf s) = .inf (sign x != s)
  zero_mul_inf : ∀ x s, IsFinite x → value x = 0 → A.mul (.inf s) x = .nan ∧ A.mul x (.inf s) = .nan
  inf_mul_inf : ∀ s s', A.mul (.inf s) (.inf s') = .inf (s != s')
  div : ∀ x y, IsFinite x → IsFinite y → value y ≠ 0 →
    Rounded (value x / value y) (A.div x y) ∧ sign (A.div x y) = (sign x != sign y)
  div_zero : ∀ x y, IsFinite x → IsFinite y → value x ≠ 0 → value y = 0 → A.div x y = .inf (sign x != sign y)
  zero_div_zero : ∀ x y, IsFinite x → IsFinite y → value x = 0 → value y = 0 → A.div x y = .nan
  div_inf : ∀ x s, IsFinite x → A.div (.inf s) x = .inf (s != sign x) ∧ A.div x (.inf s) = .fin (sign x != s) 0 (-1074)
  inf_div_inf : ∀ s s', A.div (.inf s) (.inf s') = .nan
  /-- Roots are rounded; the root of -0.0 is -0.0, and that of other negative numbers NaN. -/
  sqrt : ∀ x, IsFinite x → 0 ≤ value x → Rounded (√(value x)) (A.sqrt x) ∧ (value x = 0 → sign (A.sqrt x) = sign x)
  sqrt_neg : ∀ x, IsFinite x → value x < 0 → A.sqrt x = .nan
  sqrt_inf : A.sqrt (.inf false) = .inf false ∧ A.sqrt (.inf true) = .nan
  /-- Minimum and maximum are one of the two numbers; of two zeros it may be any.  NaN is passed over. -/
  min : ∀ x y, IsFinite x → IsFinite y → (A.min x y = x ∨ A.min x y = y) ∧ value (A.min x y) = Min.min (value x) (value y)
  max : ∀ x y, IsFinite x → IsFinite y → (A.max x y = x ∨ A.max x y = y) ∧ value (A.max x y) = Max.max (value x) (value y)
  min_nan : ∀ x, A.min x .nan = x ∧ A.min .nan x = x
  max_nan : ∀ x, A.max x .nan = x ∧ A.max .nan x = x
  min_inf : ∀ x, x ≠ .nan → A.min x (.inf true) = .inf true ∧ A.min (.inf true) x = .inf true ∧
    A.min x (.inf false) = x ∧ A.min (.inf false) x = x
  max_inf : ∀ x, x ≠ .nan → A.max x (.inf false) = .inf false ∧ A.max (.inf false) x = .inf false ∧
    A.max x (.inf true) = x ∧ A.max (.inf true) x = x

end Ase.Spec.Ieee
