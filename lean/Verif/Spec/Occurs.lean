import Verif.Model.Loader

/-!
# Which errors can occur (C130)
-/

namespace Ase.Spec

/-- The errors of `parse_file` that some input gives.
* `Eof`, pointing at any bytes;
* `Tag`, pointing at the contents of a frame that do not start with the magic number of frames, or at the part of a header
  (124, 108 or 104 bytes long) that should start with the magic number of files or four zeros and does not;
* a UTF-8 error in a STRING of at most 65535 bytes: at byte `n`, where the text ends too early, or where 1 to 3 bytes are
  wrong (2 or 3 if the byte after them is not the one they call for, so there has to be one more);
* a frame size below 4, an inverted range of a tag, any problem with a palette, a layer index out of bounds. -/
def Occurs : NomErr → Prop
  | .error (.nom _ .eof) => True
  | .error (.nom s .tag) => (s.length + 4 < 2 ^ 32 ∧ s.take 2 ≠ [0xFA, 0xF1]) ∨
      (s.length = 124 ∧ s.take 2 ≠ [0xE0, 0xA5]) ∨ ((s.length = 108 ∨ s.length = 104) ∧ s.take 4 ≠ [0, 0, 0, 0])
  | .error (.utf8Error n none) => n < 65535
  | .error (.utf8Error n (some k)) => (k = 1 ∧ n < 65535) ∨ (k = 2 ∧ n < 65533) ∨ (k = 3 ∧ n < 65532)
  | .failure (.invalidFrameSize n) => n.toNat < 4
  | .failure (.invalidFrameRange a z) => z < a
  | .failure (.paletteError _) => True
  | .failure .layerIndexOutOfBounds => True
  | _ => False

/-- The error does not point at 4 GiB or more. -/
def PointsAtLess (e : NomErr) : Prop := ∀ s, e = .error (.nom s .eof) → s.length + 5 < 2 ^ 32

/-- The errors of `load`: those of `parse_file`, a link without an image at any frame and layer, a cel without an image. -/
def LoadOccurs : LoadSpriteError → Prop
  | .parse e => Occurs e
  | .invalidLinkedCel _ _ => True
  | .invalidCel => True

end Ase.Spec
