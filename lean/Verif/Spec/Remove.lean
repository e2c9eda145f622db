import Verif.Spec.Possible

/-!
# A sprite with one layer less

Used by the property C154.
-/

namespace Ase.Spec

/-- The number of layer `l` after layer `k` was removed. -/
def movedDown (k l : Nat) : Nat := if l < k then l else l - 1

/-- The sprite without layer `k`. -/
def withoutLayer (f : AsepriteFile) (k : Nat) : Sprite :=
  { spriteOf f with
    layers := f.layers.eraseIdx k
    frames := f.frames.map fun fr => { fr with cels := fr.cels.map fun c => { c with layerIndex := movedDown k c.layerIndex } } }

end Ase.Spec
