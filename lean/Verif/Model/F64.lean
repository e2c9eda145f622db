/-!
# IEEE-754 binary64

The arithmetic of Rust's `f64` as used by `src/loader/blend.rs` (soft light and the HSL modes): every operation is the
exact result rounded to nearest, ties to even (IEEE 754-2008 `roundTiesToEven`, Rust reference "f64"), with infinities,
NaN and signed zeros.  NaN payloads are not modelled.
-/

namespace Ase

/-- A binary64 number: NaN, an infinity, or `(-1)^neg * m * 2^e`.  Results of operations are canonical:
`m < 2^53`, `-1074 ≤ e ≤ 971`, and `2^52 ≤ m` or `e = -1074`. -/
inductive F64 where
  | nan
  | inf (neg : Bool)
  | fin (neg : Bool) (m : Nat) (e : Int)
deriving DecidableEq, Repr

namespace F64

/-- `⌊log₂ (n / d)⌋` for positive `n`, `d`. -/
def ilog (n d : Nat) : Int :=
  let k : Int := (n.log2 : Int) - (d.log2 : Int)
  if n * 2 ^ (-k).toNat < d * 2 ^ k.toNat then k - 1 else k

/-- `q` plus one half or more of `r / b`: the integer nearest to `q + r / b`, ties to even. -/
def tiesToEven (q r b : Nat) : Nat :=
  if b < 2 * r ∨ (2 * r = b ∧ q % 2 = 1) then q + 1 else q

/-- The number nearest to `± n / d`, ties to even (`0 < d`). -/
def round (neg : Bool) (n d : Nat) : F64 :=
  if n = 0 then fin neg 0 (-1074)
  else
    let e : Int := max (ilog n d - 52) (-1074)
    let a := n * 2 ^ (-e).toNat
    let b := d * 2 ^ e.toNat
    let q := tiesToEven (a / b) (a % b) b
    if q = 2 ^ 53 then
      if e + 1 > 971 then inf neg else fin neg (2 ^ 52) (e + 1)
    else if e > 971 then inf neg else fin neg q e

/-- The number nearest to `± (n / d) * 2^e`. -/
def roundScaled (neg : Bool) (n d : Nat) (e : Int) : F64 :=
  round neg (n * 2 ^ e.toNat) (d * 2 ^ (-e).toNat)

/-- `n as f64` for an integer `n` (exact below `2^53`), and integer literals such as `255.0`. -/
def ofInt (n : Int) : F64 := round (decide (n < 0)) n.natAbs 1

/-- The decimal literal with value `n / d`. -/
def lit (n d : Nat) : F64 := round false n d

/-- The signed mantissa scaled to exponent `e ≤ e'`. -/
def mant (neg : Bool) (m : Nat) (e' e : Int) : Int :=
  let n : Int := ((m * 2 ^ (e' - e).toNat : Nat) : Int)
  if neg then -n else n

/-- `-x` -/
def neg : F64 → F64
  | nan => nan
  | inf s => inf !s
  | fin s m e => fin (!s) m e

/-- `x + y`; an exact zero sum is `+0` unless both operands are negative. -/
def add : F64 → F64 → F64
  | nan, _ | _, nan => nan
  | inf s, inf s' => if s = s' then inf s else nan
  | inf s, fin _ _ _ => inf s
  | fin _ _ _, inf s => inf s
  | fin s m e, fin s' m' e' =>
    let f := min e e'
    let n := mant s m e f + mant s' m' e' f
    if n = 0 then fin (s && s') 0 (-1074)
    else roundScaled (decide (n < 0)) n.natAbs 1 f

/-- `x - y` -/
def sub (x y : F64) : F64 := add x (neg y)

/-- `x * y` -/
def mul : F64 → F64 → F64
  | nan, _ | _, nan => nan
  | inf s, inf s' => inf (s != s')
  | inf s, fin s' m _ => if m = 0 then nan else inf (s != s')
  | fin s m _, inf s' => if m = 0 then nan else inf (s != s')
  | fin s m e, fin s' m' e' => roundScaled (s != s') (m * m') 1 (e + e')

/-- `x / y` -/
def div : F64 → F64 → F64
  | nan, _ | _, nan => nan
  | inf _, inf _ => nan
  | inf s, fin s' _ _ => inf (s != s')
  | fin s _ _, inf s' => fin (s != s') 0 (-1074)
  | fin s m e, fin s' m' e' =>
    if m' = 0 then (if m = 0 then nan else inf (s != s'))
    else roundScaled (s != s') m m' (e - e')

/-- `⌊√n⌋` for `n < 4^k`, bit by bit from the top; `r` is the part found so far. -/
def isqrt (n : Nat) : Nat → Nat → Nat
  | 0, r => r
  | k + 1, r => if (r + 2 ^ k) * (r + 2 ^ k) ≤ n then isqrt n k (r + 2 ^ k) else isqrt n k r

/-- `x.sqrt()`.  The root of the mantissa, extended by 128 or 129 bits to an even exponent, is computed as an integer
of at least 64 bits; a last half bit records whether it was exact, so that rounding it is rounding the exact root. -/
def sqrt : F64 → F64
  | nan => nan
  | inf false => inf false
  | inf true => nan
  | fin s m e =>
    if m = 0 then fin s 0 (-1074)
    else if s then nan
    else
      let k : Nat := if e % 2 = 0 then 128 else 129
      let n := m * 2 ^ k
      let r := isqrt n 92 0
      let sticky := if r * r = n then 0 else 1
      roundScaled false (2 * r + sticky) 1 ((e - k) / 2 - 1)

/-- `x < y` -/
def lt : F64 → F64 → Bool
  | nan, _ | _, nan => false
  | inf s, inf s' => s && !s'
  | inf s, fin _ _ _ => s
  | fin _ _ _, inf s => !s
  | fin s m e, fin s' m' e' => decide (mant s m e (min e e') < mant s' m' e' (min e e'))

/-- `x <= y` -/
def le : F64 → F64 → Bool
  | nan, _ | _, nan => false
  | x, y => !(lt y x)

/-- `x.min(y)`: the other operand if one is NaN.  (For `-0.0` and `+0.0` Rust leaves open which one is returned; the
code only compares results of `min`/`max` with numbers or subtracts them from finite numbers.) -/
def min (x y : F64) : F64 :=
  match x, y with
  | nan, y => y
  | x, nan => x
  | x, y => if lt y x then y else x

/-- `x.max(y)` -/
def max (x y : F64) : F64 :=
  match x, y with
  | nan, y => y
  | x, nan => x
  | x, y => if lt x y then y else x

/-- `x as i32`/`x as u32`: truncate towards zero, saturate at `lo` and `hi`, NaN becomes 0. -/
def toIntSat (lo hi : Int) : F64 → Int
  | nan => 0
  | inf s => if s then lo else hi
  | fin s m e =>
    let n : Int := ((m * 2 ^ e.toNat / 2 ^ (-e).toNat : Nat) : Int)
    let n := if s then -n else n
    if n < lo then lo else if hi < n then hi else n

/-- `x as i32` -/
def toI32 (x : F64) : Int := toIntSat (-2147483648) 2147483647 x

/-- `x as u32` -/
def toU32 (x : F64) : Int := toIntSat 0 4294967295 x

end F64
end Ase
