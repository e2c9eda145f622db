import Verif.Spec.Possible
import Verif.Spec.Render

/-!
# A sprite with other layers switched on

Used by the property C148.
-/

namespace Ase.Spec

/-- The sprite in which exactly the selected layers are marked visible. -/
def chosenSprite (f : AsepriteFile) (sel : LayerSelection) : Sprite :=
  { spriteOf f with layers := f.layers.mapIdx fun l layer => { layer with visible := decide (Selects sel l layer) } }

end Ase.Spec
