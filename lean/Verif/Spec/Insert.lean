import Verif.Spec.Possible

/-!
# A sprite with one more layer

Used by the property C151.
-/

namespace Ase.Spec

/-- The number of layer `l` after a layer was inserted at `k`. -/
def movedUp (k l : Nat) : Nat := if l < k then l else l + 1

/-- The sprite with the layer `new`, without cels, inserted at `k`. -/
def withLayerAt (f : AsepriteFile) (k : Nat) (new : LLayer) : Sprite :=
  { spriteOf f with
    layers := f.layers.take k ++ new :: f.layers.drop k
    frames := f.frames.map fun fr => { fr with cels := fr.cels.map fun c => { c with layerIndex := movedUp k c.layerIndex } } }

end Ase.Spec
