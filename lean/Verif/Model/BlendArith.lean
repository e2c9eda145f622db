import Verif.Model.Blend
import Verif.Spec.Ieee

/-!
# Blending with any arithmetic

The functions of `loader/blend.rs` that compute with `f64`, once more, with the operations of `f64` as a parameter.  Comparisons,
conversions of integers and casts are not parameters: they are exact.
-/

namespace Ase

open Spec.Ieee (Arith)

/-- blend.rs:277-296 -/
def blendSoftLightA (A : Arith) (b s : Int) : Int :=
  let b : F64 := A.div (.ofInt b) (.ofInt 255)
  let s : F64 := A.div (.ofInt s) (.ofInt 255)
  let d : F64 :=
    if F64.le b (.lit 1 4) then A.mul (A.add (A.mul (A.sub (A.mul (.ofInt 16) b) (.ofInt 12)) b) (.ofInt 4)) b
    else A.sqrt b
  let r : F64 :=
    if F64.le s (.lit 1 2) then A.sub b (A.mul (A.mul (A.sub (.ofInt 1) (A.mul (.ofInt 2) s)) b) (A.sub (.ofInt 1) b))
    else A.add b (A.mul (A.sub (A.mul (.ofInt 2) s) (.ofInt 1)) (A.sub d b))
  wrapI32 (A.add (A.mul r (.ofInt 255)) (.lit 1 2)).toU32

/-- blend.rs:88-106 -/
def Color.ofF64A (A : Arith) (plat : Plat) (r g b a : F64) : Run Color :=
  Color.ofI32 plat (A.mul r (.ofInt 255)).toI32 (A.mul g (.ofInt 255)).toI32
    (A.mul b (.ofInt 255)).toI32 (A.mul a (.ofInt 255)).toI32

/-- blend.rs:269-275 -/
def softLightBaselineA (A : Arith) (plat : Plat) (back front : Color) (opacity : UInt8) : Run Color := do
  let r := blendSoftLightA A (toI back.r) (toI front.r)
  let g := blendSoftLightA A (toI back.g) (toI front.g)
  let b := blendSoftLightA A (toI back.b) (toI back.b)
  let c ← Color.ofI32 plat r g b (toI front.a)
  normal plat back c opacity

/-- blend.rs:542-544 -/
def luminosityA (A : Arith) (r g b : F64) : F64 :=
  A.add (A.add (A.mul (.lit 3 10) r) (A.mul (.lit 59 100) g)) (A.mul (.lit 11 100) b)

/-- blend.rs:538-540 -/
def saturationA (A : Arith) (r g b : F64) : F64 := A.sub (A.max r (A.max g b)) (A.min r (A.min g b))

/-- blend.rs:514-531 -/
def clipColorA (A : Arith) (r g b : F64) : F64 × F64 × F64 :=
  let lum := luminosityA A r g b
  let mn := A.min r (A.min g b)
  let mx := A.max r (A.max g b)
  let lower := fun x => A.add lum (A.div (A.mul (A.sub x lum) lum) (A.sub lum mn))
  let (r, g, b) := if F64.lt mn (.ofInt 0) then (lower r, lower g, lower b) else (r, g, b)
  let upper := fun x => A.add lum (A.div (A.mul (A.sub x lum) (A.sub (.ofInt 1) lum)) (A.sub mx lum))
  if F64.lt (.ofInt 1) mx then (upper r, upper g, upper b) else (r, g, b)

/-- blend.rs:533-536 -/
def setLuminocityA (A : Arith) (r g b lum : F64) : F64 × F64 × F64 :=
  let delta := A.sub lum (luminosityA A r g b)
  clipColorA A (A.add r delta) (A.add g delta) (A.add b delta)

/-- blend.rs:573-625 -/
def staticSort3OrigA (A : Arith) (r g b : F64) : Fin 3 × Fin 3 × Fin 3 :=
  let mn : Fin 3 := if F64.lt r (A.min g b) then 0 else if F64.lt g b then 1 else 2
  let mx : Fin 3 := if F64.lt (A.max g b) r then 0 else if F64.lt b g then 1 else 2
  let mid : Fin 3 :=
    if F64.lt g r then
      if F64.lt b g then 1 else if F64.lt b r then 2 else 0
    else if F64.lt b g then
      if F64.lt r b then 2 else 0
    else 1
  (mn, mid, mx)

/-- blend.rs:629-646 -/
def setSaturationA (A : Arith) (r g b sat : F64) : F64 × F64 × F64 :=
  let col : Fin 3 → F64 := fun i => if i = 0 then r else if i = 1 then g else b
  let (mn, mid, mx) := staticSort3OrigA A r g b
  let col :=
    if F64.lt (col mn) (col mx) then
      let col := upd col mid (A.div (A.mul (A.sub (col mid) (col mn)) sat) (A.sub (col mx) (col mn)))
      upd col mx sat
    else
      let col := upd col mid (.ofInt 0)
      upd col mx (.ofInt 0)
  let col := upd col mn (.ofInt 0)
  (col 0, col 1, col 2)

/-- blend.rs:172-180 -/
def hslHueBaselineA (A : Arith) (plat : Plat) (back front : Color) (opacity : UInt8) : Run Color := do
  let sat := saturationA A (toF back.r) (toF back.g) (toF back.b)
  let lum := luminosityA A (toF back.r) (toF back.g) (toF back.b)
  let (r, g, b) := setSaturationA A (toF front.r) (toF front.g) (toF front.b) sat
  let (r, g, b) := setLuminocityA A r g b lum
  let c ← Color.ofF64A A plat r g b (toF front.a)
  normal plat back c opacity

/-- blend.rs:187-195 -/
def hslSaturationBaselineA (A : Arith) (plat : Plat) (back front : Color) (opacity : UInt8) : Run Color := do
  let sat := saturationA A (toF front.r) (toF front.g) (toF front.b)
  let lum := luminosityA A (toF back.r) (toF back.g) (toF back.b)
  let (r, g, b) := setSaturationA A (toF back.r) (toF back.g) (toF back.b) sat
  let (r, g, b) := setLuminocityA A r g b lum
  let c ← Color.ofF64A A plat r g b (toF front.a)
  normal plat back c opacity

/-- blend.rs:202-206 -/
def hslColorBaselineA (A : Arith) (plat : Plat) (back front : Color) (opacity : UInt8) : Run Color := do
  let lum := luminosityA A (toF back.r) (toF back.g) (toF back.b)
  let (r, g, b) := setLuminocityA A (toF front.r) (toF front.g) (toF front.b) lum
  let c ← Color.ofF64A A plat r g b (toF front.a)
  normal plat back c opacity

/-- blend.rs:213-218 -/
def hslLuminosityBaselineA (A : Arith) (plat : Plat) (back front : Color) (opacity : UInt8) : Run Color := do
  let lum := luminosityA A (toF front.r) (toF front.g) (toF front.b)
  let (r, g, b) := setLuminocityA A (toF back.r) (toF back.g) (toF back.b) lum
  let c ← Color.ofF64A A plat r g b (toF front.a)
  normal plat back c opacity

/-- blend.rs:109-132: the modes that compute with `f64`; the others are as before -/
def blendModeToBlendFnA (A : Arith) (plat : Plat) : BlendMode → Run BlendFn
  | .softLight => pure fun b f o => blender plat b f o (softLightBaselineA A plat)
  | .hue => pure fun b f o => blender plat b f o (hslHueBaselineA A plat)
  | .saturation => pure fun b f o => blender plat b f o (hslSaturationBaselineA A plat)
  | .color => pure fun b f o => blender plat b f o (hslColorBaselineA A plat)
  | .luminosity => pure fun b f o => blender plat b f o (hslLuminosityBaselineA A plat)
  | mode => blendModeToBlendFn plat mode

end Ase
