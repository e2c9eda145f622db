import Verif.Spec.Render

/-!
# What one test run tells

Used by the property C134.
-/

namespace Ase.Spec

/-- Rendering frame `i` onto the buffer succeeds. -/
def RendersOk (plat : Plat) (inflate : Inflater) (f : AsepriteFile) (i : Nat) (sel : LayerSelection) (t : Bytes) : Prop :=
  (f.renderFrame plat inflate i sel t).1 = .ok ()

/-- The buffer is large enough for the canvas. -/
def HoldsCanvas (f : AsepriteFile) (t : Bytes) : Prop := f.size.1.toNat * f.size.2.toNat * 4 ≤ t.length

/-- Layer number `l` of the sprite can show something and is selected. -/
def TakesLayer (f : AsepriteFile) (sel : LayerSelection) (l : Nat) : Prop :=
  ∃ layer, f.layers[l]? = some layer ∧ layer.layerType ≠ .group ∧ Selects sel l layer

/-- The build has no debug assertions, or no selected layer has one of the modes hue, saturation, color and
luminosity. -/
def NoAssertions (plat : Plat) (f : AsepriteFile) (sel : LayerSelection) : Prop :=
  plat.debug = false ∨ ∀ l layer, f.layers[l]? = some layer → TakesLayer f sel l → isHsl layer.blendMode = false

/-- The selection of layer number `l` alone. -/
def onlyLayer (l : Nat) : LayerSelection := .mask (List.replicate l false ++ [true])

end Ase.Spec
