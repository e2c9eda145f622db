import Verif.Model.Enums
import Verif.Model.F64

/-!
# `src/loader/blend.rs`

`i32` values are `Int`s in the `i32` range; every `+`, `-`, `*` on them goes through `i32Op`, which panics on overflow in
debug builds and wraps in release builds.  `a >> 8` on `i32` is the arithmetic shift, i.e. division by 256 rounding down;
`/` on `i32` truncates towards zero.  None of the functions can return an error, so their error type is `Empty`.
-/

namespace Ase

/-- The result of a Rust function that returns no `Result`: a value or a panic. -/
abbrev Run := Outcome Empty

/-- A call of such a function from one that returns a `Result`. -/
def Outcome.lift {ε α : Type} : Run α → Outcome ε α
  | .ok a => .ok a
  | .err e => nomatch e
  | .panic k => .panic k

/-- Whether an integer is an `i32`. -/
def inI32 (n : Int) : Bool := decide (-2147483648 ≤ n ∧ n ≤ 2147483647)

/-- Wrap-around to `i32`. -/
def wrapI32 (n : Int) : Int := (n + 2147483648) % 4294967296 - 2147483648

/-- The result of an `i32` addition, subtraction or multiplication with exact value `n`. -/
def i32Op (plat : Plat) (n : Int) : Run Int :=
  if inI32 n then .ok n else if plat.debug then .panic .overflow else .ok (wrapI32 n)

/-- `a / b` on `i32`: truncates; panics for `b = 0` and for `i32::MIN / -1`. -/
def i32Div (a b : Int) : Run Int :=
  if b = 0 then .panic .divByZero
  else if inI32 (a.tdiv b) then .ok (a.tdiv b) else .panic .overflow

/-- `n as u8` -/
def asU8 (n : Int) : UInt8 := UInt8.ofNat (n % 256).toNat

/-- `a - b` on `u8` -/
def u8Sub (plat : Plat) (a b : UInt8) : Run UInt8 :=
  if b ≤ a then .ok (a - b) else if plat.debug then .panic .overflow else .ok (a - b)

/-- `debug_assert!(c)` -/
def debugAssert (plat : Plat) (c : Bool) : Run Unit :=
  if plat.debug && !c then .panic .debugAssertFailed else .ok ()

/-- blend.rs:7-13 -/
structure Color where
  r : UInt8
  g : UInt8
  b : UInt8
  a : UInt8
deriving DecidableEq, Repr

/-- `u8` to `i32` (blend.rs:16-27, and `x as i32` for `x: u8`) -/
def toI (x : UInt8) : Int := (x.toNat : Int)

/-- `u8` to `f64` (blend.rs:28-39) -/
def toF (x : UInt8) : F64 := .ofInt (toI x)

/-- `(0..=255).contains(&n)` -/
def isByte (n : Int) : Bool := decide (0 ≤ n ∧ n ≤ 255)

/-- blend.rs:66-86 `From<&[i32; 4]>` -/
def Color.ofI32 (plat : Plat) (r g b a : Int) : Run Color := do
  debugAssert plat (isByte r)
  debugAssert plat (isByte g)
  debugAssert plat (isByte b)
  debugAssert plat (isByte a)
  pure { r := asU8 r, g := asU8 g, b := asU8 b, a := asU8 a }

/-- blend.rs:88-106 `From<&[f64; 4]>` -/
def Color.ofF64 (plat : Plat) (r g b a : F64) : Run Color :=
  Color.ofI32 plat (F64.mul r (.ofInt 255)).toI32 (F64.mul g (.ofInt 255)).toI32
    (F64.mul b (.ofInt 255)).toI32 (F64.mul a (.ofInt 255)).toI32

/-! ## Util -/

/-- blend.rs:447-451 -/
def mul8 (plat : Plat) (a b : Int) : Run UInt8 := do
  let t ← i32Op plat (a * b)
  let t ← i32Op plat (t + 0x80)
  let r ← i32Op plat (t / 256 + t)
  pure (asU8 (r / 256))

/-- blend.rs:453-457 -/
def div8 (plat : Plat) (a b : Int) : Run UInt8 := do
  let t ← i32Op plat (a * 0xff)
  let h ← i32Div b 2
  let n ← i32Op plat (t + h)
  let r ← i32Div n b
  pure (asU8 r)

/-- blend.rs:459-467 -/
def blend8 (plat : Plat) (back src opacity : UInt8) : Run UInt8 := do
  let a ← i32Op plat (toI src - toI back)
  let t ← i32Op plat (a * toI opacity)
  let t ← i32Op plat (t + 0x80)
  let r ← i32Op plat (t / 256 + t)
  let s ← i32Op plat (toI back + r / 256)
  pure (asU8 s)

/-- blend.rs:480-482: one colour channel of `normal` -/
def normalChannel (plat : Plat) (back front frontA resA : Int) : Run Int := do
  let d ← i32Op plat (front - back)
  let m ← i32Op plat (d * frontA)
  let q ← i32Div m resA
  i32Op plat (back + q)

/-- blend.rs:469-485 -/
def normal (plat : Plat) (back front : Color) (opacity : UInt8) : Run Color :=
  if back.a = 0 then do
    let alpha ← mul8 plat (toI front.a) (toI opacity)
    pure { r := front.r, g := front.g, b := front.b, a := alpha }
  else if front.a = 0 then pure back
  else do
    let frontA ← mul8 plat (toI front.a) (toI opacity)
    let frontA := toI frontA
    let s ← i32Op plat (frontA + toI back.a)
    let p ← mul8 plat (toI back.a) frontA
    let resA ← i32Op plat (s - toI p)
    let resR ← normalChannel plat (toI back.r) (toI front.r) frontA resA
    let resG ← normalChannel plat (toI back.g) (toI front.g) frontA resA
    let resB ← normalChannel plat (toI back.b) (toI front.b) frontA resA
    Color.ofI32 plat resR resG resB resA

/-- blend.rs:487-512 -/
def merge (plat : Plat) (back front : Color) (opacity : UInt8) : Run Color := do
  let (resR, resG, resB) ←
    (if back.a = 0 then pure (front.r, front.g, front.b)
    else if front.a = 0 then pure (back.r, back.g, back.b)
    else do
      let r ← blend8 plat back.r front.r opacity
      let g ← blend8 plat back.g front.g opacity
      let b ← blend8 plat back.b front.b opacity
      pure (r, g, b) : Run (UInt8 × UInt8 × UInt8))
  let resA ← blend8 plat back.a front.a opacity
  if resA = 0 then pure { r := 0, g := 0, b := 0, a := 0 }
  else pure { r := resR, g := resG, b := resB, a := resA }

/-- blend.rs:420-434 -/
def blender (plat : Plat) (back front : Color) (opacity : UInt8) (f : Color → Color → UInt8 → Run Color) :
    Run Color :=
  if back.a ≠ 0 then do
    let norm ← normal plat back front opacity
    let blend ← f back front opacity
    let normalToBlendMerge ← merge plat norm blend back.a
    let srcTotalAlpha ← mul8 plat (toI front.a) (toI opacity)
    let compositeAlpha ← mul8 plat (toI back.a) (toI srcTotalAlpha)
    merge plat normalToBlendMerge blend compositeAlpha
  else normal plat back front opacity

/-- blend.rs:436-445 -/
def blendChannel (plat : Plat) (back front : Color) (opacity : UInt8) (f : Int → Int → Run UInt8) : Run Color := do
  let r ← f (toI back.r) (toI front.r)
  let g ← f (toI back.g) (toI front.g)
  let b ← f (toI back.b) (toI front.b)
  normal plat back { r, g, b, a := front.a } opacity

/-! ## Addition and subtraction -/

/-- blend.rs:138-148 -/
def additionBaseline (plat : Plat) (back front : Color) (opacity : UInt8) : Run Color := do
  let r ← i32Op plat (toI back.r + toI front.r)
  let g ← i32Op plat (toI back.g + toI front.g)
  let b ← i32Op plat (toI back.b + toI front.b)
  let c ← Color.ofI32 plat (min r 255) (min g 255) (min b 255) (toI front.a)
  normal plat back c opacity

/-- blend.rs:155-165 -/
def subtractBaseline (plat : Plat) (back front : Color) (opacity : UInt8) : Run Color := do
  let r ← i32Op plat (toI back.r - toI front.r)
  let g ← i32Op plat (toI back.g - toI front.g)
  let b ← i32Op plat (toI back.b - toI front.b)
  let c ← Color.ofI32 plat (max r 0) (max g 0) (max b 0) (toI front.a)
  normal plat back c opacity

/-! ## Per-channel functions -/

/-- blend.rs:414-416 -/
def blendMultiply (plat : Plat) (a b : Int) : Run UInt8 := mul8 plat a b

/-- blend.rs:402-404 -/
def blendScreen (plat : Plat) (a b : Int) : Run UInt8 := do
  let s ← i32Op plat (a + b)
  let m ← mul8 plat a b
  let r ← i32Op plat (s - toI m)
  pure (asU8 r)

/-- blend.rs:385-391 (`s << 1` does not check for overflow) -/
def blendHardLight (plat : Plat) (b s : Int) : Run UInt8 :=
  if s < 128 then blendMultiply plat b (wrapI32 (2 * s))
  else do
    let s ← i32Op plat (wrapI32 (2 * s) - 255)
    blendScreen plat b s

/-- blend.rs:382-384 -/
def blendOverlay (plat : Plat) (b s : Int) : Run UInt8 := blendHardLight plat s b

/-- blend.rs:370-372 -/
def blendDarken (b s : Int) : Run UInt8 := pure (asU8 (min b s))

/-- blend.rs:357-359 -/
def blendLighten (b s : Int) : Run UInt8 := pure (asU8 (max b s))

/-- blend.rs:335-346 -/
def blendColorDodge (plat : Plat) (b s : Int) : Run UInt8 :=
  if b = 0 then pure 0
  else do
    let s ← i32Op plat (255 - s)
    if b ≥ s then pure 255 else div8 plat b s

/-- blend.rs:315-325 -/
def blendColorBurn (plat : Plat) (b s : Int) : Run UInt8 :=
  if b = 255 then pure 255
  else do
    let b ← i32Op plat (255 - b)
    if b ≥ s then pure 0
    else do
      let q ← div8 plat b s
      u8Sub plat 255 q

/-- blend.rs:255-263 -/
def blendDivide (plat : Plat) (b s : Int) : Run UInt8 :=
  if b = 0 then pure 0
  else if b ≥ s then pure 255
  else div8 plat b s

/-- blend.rs:243-245 (`unsigned_abs() as u8`) -/
def blendDifference (plat : Plat) (b s : Int) : Run UInt8 := do
  let d ← i32Op plat (b - s)
  pure (asU8 d.natAbs)

/-- blend.rs:230-233 -/
def blendExclusion (plat : Plat) (b s : Int) : Run UInt8 := do
  let t ← mul8 plat b s
  let x ← i32Op plat (b + s)
  let y ← i32Op plat (2 * toI t)
  let r ← i32Op plat (x - y)
  pure (asU8 r)

/-- blend.rs:277-296; the literals `255.0`, `0.25`, `16.0`, `12.0`, `4.0`, `0.5`, `1.0`, `2.0` are exact.
`as u32 as i32` wraps. -/
def blendSoftLight (b s : Int) : Int :=
  let b : F64 := F64.div (.ofInt b) (.ofInt 255)
  let s : F64 := F64.div (.ofInt s) (.ofInt 255)
  let d :=
    if F64.le b (.lit 1 4) then
      F64.mul (F64.add (F64.mul (F64.sub (F64.mul (.ofInt 16) b) (.ofInt 12)) b) (.ofInt 4)) b
    else F64.sqrt b
  let r :=
    if F64.le s (.lit 1 2) then
      F64.sub b (F64.mul (F64.mul (F64.sub (.ofInt 1) (F64.mul (.ofInt 2) s)) b) (F64.sub (.ofInt 1) b))
    else
      F64.add b (F64.mul (F64.sub (F64.mul (.ofInt 2) s) (.ofInt 1)) (F64.sub d b))
  wrapI32 (F64.add (F64.mul r (.ofInt 255)) (.lit 1 2)).toU32

/-- blend.rs:269-275 (the blue channel really is `(back.b_i32(), back.b_i32())`) -/
def softLightBaseline (plat : Plat) (back front : Color) (opacity : UInt8) : Run Color := do
  let r := blendSoftLight (toI back.r) (toI front.r)
  let g := blendSoftLight (toI back.g) (toI front.g)
  let b := blendSoftLight (toI back.b) (toI back.b)
  let c ← Color.ofI32 plat r g b (toI front.a)
  normal plat back c opacity

/-! ## HSL -/

/-- blend.rs:542-544 -/
def luminosity (r g b : F64) : F64 :=
  F64.add (F64.add (F64.mul (.lit 3 10) r) (F64.mul (.lit 59 100) g)) (F64.mul (.lit 11 100) b)

/-- blend.rs:538-540 -/
def saturation (r g b : F64) : F64 :=
  F64.sub (F64.max r (F64.max g b)) (F64.min r (F64.min g b))

/-- blend.rs:514-531 -/
def clipColor (r g b : F64) : F64 × F64 × F64 :=
  let lum := luminosity r g b
  let mn := F64.min r (F64.min g b)
  let mx := F64.max r (F64.max g b)
  let lower := fun x => F64.add lum (F64.div (F64.mul (F64.sub x lum) lum) (F64.sub lum mn))
  let (r, g, b) := if F64.lt mn (.ofInt 0) then (lower r, lower g, lower b) else (r, g, b)
  let upper := fun x =>
    F64.add lum (F64.div (F64.mul (F64.sub x lum) (F64.sub (.ofInt 1) lum)) (F64.sub mx lum))
  if F64.lt (.ofInt 1) mx then (upper r, upper g, upper b) else (r, g, b)

/-- blend.rs:533-536 -/
def setLuminocity (r g b lum : F64) : F64 × F64 × F64 :=
  let delta := F64.sub lum (luminosity r g b)
  clipColor (F64.add r delta) (F64.add g delta) (F64.add b delta)

/-- blend.rs:573-625; the indices 0, 1, 2 denote r, g, b.  (`static_sort3`, blend.rs:546-569, is dead code, see
blend.rs:627.) -/
def staticSort3Orig (r g b : F64) : Fin 3 × Fin 3 × Fin 3 :=
  let mn : Fin 3 := if F64.lt r (F64.min g b) then 0 else if F64.lt g b then 1 else 2
  let mx : Fin 3 := if F64.lt (F64.max g b) r then 0 else if F64.lt b g then 1 else 2
  let mid : Fin 3 :=
    if F64.lt g r then
      if F64.lt b g then 1 else if F64.lt b r then 2 else 0
    else if F64.lt b g then
      if F64.lt r b then 2 else 0
    else 1
  (mn, mid, mx)

/-- An array `[f64; 3]` indexed by 0, 1, 2. -/
def upd (col : Fin 3 → F64) (i : Fin 3) (x : F64) : Fin 3 → F64 := fun j => if j = i then x else col j

/-- blend.rs:629-646 -/
def setSaturation (r g b sat : F64) : F64 × F64 × F64 :=
  let col : Fin 3 → F64 := fun i => if i = 0 then r else if i = 1 then g else b
  let (mn, mid, mx) := staticSort3Orig r g b
  let col :=
    if F64.lt (col mn) (col mx) then
      let col := upd col mid (F64.div (F64.mul (F64.sub (col mid) (col mn)) sat) (F64.sub (col mx) (col mn)))
      upd col mx sat
    else
      let col := upd col mid (.ofInt 0)
      upd col mx (.ofInt 0)
  let col := upd col mn (.ofInt 0)
  (col 0, col 1, col 2)

/-- blend.rs:172-180 -/
def hslHueBaseline (plat : Plat) (back front : Color) (opacity : UInt8) : Run Color := do
  let sat := saturation (toF back.r) (toF back.g) (toF back.b)
  let lum := luminosity (toF back.r) (toF back.g) (toF back.b)
  let (r, g, b) := setSaturation (toF front.r) (toF front.g) (toF front.b) sat
  let (r, g, b) := setLuminocity r g b lum
  let c ← Color.ofF64 plat r g b (toF front.a)
  normal plat back c opacity

/-- blend.rs:187-195 -/
def hslSaturationBaseline (plat : Plat) (back front : Color) (opacity : UInt8) : Run Color := do
  let sat := saturation (toF front.r) (toF front.g) (toF front.b)
  let lum := luminosity (toF back.r) (toF back.g) (toF back.b)
  let (r, g, b) := setSaturation (toF back.r) (toF back.g) (toF back.b) sat
  let (r, g, b) := setLuminocity r g b lum
  let c ← Color.ofF64 plat r g b (toF front.a)
  normal plat back c opacity

/-- blend.rs:202-206 -/
def hslColorBaseline (plat : Plat) (back front : Color) (opacity : UInt8) : Run Color := do
  let lum := luminosity (toF back.r) (toF back.g) (toF back.b)
  let (r, g, b) := setLuminocity (toF front.r) (toF front.g) (toF front.b) lum
  let c ← Color.ofF64 plat r g b (toF front.a)
  normal plat back c opacity

/-- blend.rs:213-218 -/
def hslLuminosityBaseline (plat : Plat) (back front : Color) (opacity : UInt8) : Run Color := do
  let lum := luminosity (toF front.r) (toF front.g) (toF front.b)
  let (r, g, b) := setLuminocity (toF back.r) (toF back.g) (toF back.b) lum
  let c ← Color.ofF64 plat r g b (toF front.a)
  normal plat back c opacity

/-! ## Dispatch -/

/-- blend.rs:108 -/
abbrev BlendFn := Color → Color → UInt8 → Run Color

/-- blend.rs:109-132 and the one-line functions `multiply`, `screen`, ... (blend.rs:135-137, 151-153, 168-170, 183-185,
198-200, 209-211, 221-227, 235-241, 247-253, 265-267, 298-304, 307-313, 328-334, 349-355, 362-368, 374-380, 393-399,
406-412) -/
def blendModeToBlendFn (plat : Plat) : BlendMode → Run BlendFn
  | .normal => pure (normal plat)
  | .multiply => pure fun b f o => blender plat b f o fun b f o => blendChannel plat b f o (blendMultiply plat)
  | .screen => pure fun b f o => blender plat b f o fun b f o => blendChannel plat b f o (blendScreen plat)
  | .overlay => pure fun b f o => blender plat b f o fun b f o => blendChannel plat b f o (blendOverlay plat)
  | .darken => pure fun b f o => blender plat b f o fun b f o => blendChannel plat b f o blendDarken
  | .lighten => pure fun b f o => blender plat b f o fun b f o => blendChannel plat b f o blendLighten
  | .colorDodge => pure fun b f o => blender plat b f o fun b f o => blendChannel plat b f o (blendColorDodge plat)
  | .colorBurn => pure fun b f o => blender plat b f o fun b f o => blendChannel plat b f o (blendColorBurn plat)
  | .hardLight => pure fun b f o => blender plat b f o fun b f o => blendChannel plat b f o (blendHardLight plat)
  | .softLight => pure fun b f o => blender plat b f o (softLightBaseline plat)
  | .difference => pure fun b f o => blender plat b f o fun b f o => blendChannel plat b f o (blendDifference plat)
  | .exclusion => pure fun b f o => blender plat b f o fun b f o => blendChannel plat b f o (blendExclusion plat)
  | .hue => pure fun b f o => blender plat b f o (hslHueBaseline plat)
  | .saturation => pure fun b f o => blender plat b f o (hslSaturationBaseline plat)
  | .color => pure fun b f o => blender plat b f o (hslColorBaseline plat)
  | .luminosity => pure fun b f o => blender plat b f o (hslLuminosityBaseline plat)
  | .addition => pure fun b f o => blender plat b f o (additionBaseline plat)
  | .subtract => pure fun b f o => blender plat b f o (subtractBaseline plat)
  | .divide => pure fun b f o => blender plat b f o fun b f o => blendChannel plat b f o (blendDivide plat)
  | .unknown _ => .panic .explicitPanic

end Ase
