import Verif.Model.Loader

/-!
# What a loaded sprite contains, in terms of the parsed file

Used by the properties C29 to C34.
-/

namespace Ase.Spec

/-- The cel in the slot of layer `l` of frame `i`, if there is one. -/
def celAt (file : File) (i l : Nat) : Option CelChunk := (file.frames[i]?).bind fun fr => (fr.cels[l]?).join

/-- The image of a cel that stores one. -/
def ownImage (c : CelChunk) : Option Image :=
  match c.content with
  | .image im => some im
  | _ => none

/-- The image stored on layer `l` in frame `i`. -/
def imageAt (file : File) (i l : Nat) : Option Image := (celAt file i l).bind ownImage

/-- The frame where the image of a cel of frame `i` is stored. -/
def sourceFrame (i : Nat) (c : CelChunk) : Nat :=
  match c.content with
  | .linkedCel f => f.toNat
  | _ => i

/-- The cel shows an image: it stores one, or it links to a frame that stores one on the same layer. -/
def Resolvable (file : File) (l : Nat) (c : CelChunk) : Prop :=
  match c.content with
  | .image _ => True
  | .linkedCel f => (imageAt file f.toNat l).isSome = true
  | _ => False

/-- Normal layers and groups. -/
def isDrawn (l : LayerChunk) : Bool := l.layerType = .normal || l.layerType = .group

/-- A layer of the file as `layers()` presents it; it is visible if bit 0 of its flags is set. -/
def asLayer (l : LayerChunk) : LLayer :=
  ⟨l.name, l.opacity, l.blendMode, l.flags.bits &&& 1 = 1, l.layerType⟩

end Ase.Spec
