import Verif.Model.Blend

/-!
# The constant `ASEPRITE_SATURATION_BUG_COMPATIBLE`

The constant (blend.rs:627) is `true`; it chooses the sort that `set_saturation` uses.  Here it is a parameter, so that the branch
that is not compiled in (`static_sort3`) is modelled too.
-/

namespace Ase

/-- blend.rs:546-569; the indices 0, 1, 2 denote r, g, b -/
def staticSort3 (r g b : F64) : Fin 3 × Fin 3 × Fin 3 :=
  let min0 : F64 × Fin 3 := (r, 0)
  let mid0 : F64 × Fin 3 := (g, 1)
  let max0 : F64 × Fin 3 := (b, 2)
  let p := if F64.lt min0.1 mid0.1 then (min0, mid0) else (mid0, min0)
  let min1 := p.1
  let mid1 := p.2
  let p := if F64.lt min1.1 max0.1 then (min1, max0) else (max0, min1)
  let min2 := p.1
  let max1 := p.2
  let p := if F64.lt mid1.1 max1.1 then (mid1, max1) else (max1, mid1)
  let mid2 := p.1
  let max2 := p.2
  (min2.2, mid2.2, max2.2)

/-- blend.rs:629-646 -/
def setSaturationC (compatible : Bool) (r g b sat : F64) : F64 × F64 × F64 :=
  let col : Fin 3 → F64 := fun i => if i = 0 then r else if i = 1 then g else b
  let (mn, mid, mx) := if compatible then staticSort3Orig r g b else staticSort3 r g b
  let col :=
    if F64.lt (col mn) (col mx) then
      let col := upd col mid (F64.div (F64.mul (F64.sub (col mid) (col mn)) sat) (F64.sub (col mx) (col mn)))
      upd col mx sat
    else
      let col := upd col mid (.ofInt 0)
      upd col mx (.ofInt 0)
  let col := upd col mn (.ofInt 0)
  (col 0, col 1, col 2)

/-- blend.rs:172-180 -/
def hslHueBaselineC (compatible : Bool) (plat : Plat) (back front : Color) (opacity : UInt8) : Run Color := do
  let sat := saturation (toF back.r) (toF back.g) (toF back.b)
  let lum := luminosity (toF back.r) (toF back.g) (toF back.b)
  let (r, g, b) := setSaturationC compatible (toF front.r) (toF front.g) (toF front.b) sat
  let (r, g, b) := setLuminocity r g b lum
  let c ← Color.ofF64 plat r g b (toF front.a)
  normal plat back c opacity

/-- blend.rs:187-195 -/
def hslSaturationBaselineC (compatible : Bool) (plat : Plat) (back front : Color) (opacity : UInt8) : Run Color := do
  let sat := saturation (toF front.r) (toF front.g) (toF front.b)
  let lum := luminosity (toF back.r) (toF back.g) (toF back.b)
  let (r, g, b) := setSaturationC compatible (toF back.r) (toF back.g) (toF back.b) sat
  let (r, g, b) := setLuminocity r g b lum
  let c ← Color.ofF64 plat r g b (toF front.a)
  normal plat back c opacity

/-- blend.rs:109-132: the two modes that use `set_saturation`; the others are as before -/
def blendModeToBlendFnC (compatible : Bool) (plat : Plat) : BlendMode → Run BlendFn
  | .hue => pure fun b f o => blender plat b f o (hslHueBaselineC compatible plat)
  | .saturation => pure fun b f o => blender plat b f o (hslSaturationBaselineC compatible plat)
  | mode => blendModeToBlendFn plat mode

end Ase
