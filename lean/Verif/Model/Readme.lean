import Verif.Model.Loader

/-!
# The program in `README.md`
-/

namespace Ase

/-- README.md:18-24, from the bytes of the file on: load, ask for the size, make a buffer, render frame 0 with the visible
layers.  Both `?` return the error.  (Reading the file from disk is left out.) -/
def readme (plat : Plat) (inflate : Inflater) (data : Bytes) : Outcome (LoadSpriteError ⊕ LoadImageError) Bytes :=
  match AsepriteFile.load plat data with
  | .err e => .err (.inl e)
  | .panic k => .panic k
  | .ok file =>
    let (width, height) := file.size
    let rgba := List.replicate (width.toNat * height.toNat * 4) (0 : UInt8)
    match file.renderFrame plat inflate 0 .visible rgba with
    | (.ok (), rgba) => .ok rgba
    | (.err e, _) => .err (.inr e)
    | (.panic k, _) => .panic k

end Ase
