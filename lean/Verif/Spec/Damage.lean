import Verif.Spec.Reserved

/-!
# Files that differ in the data of one image
-/

namespace Ase.Spec

/-- The lists are equal except that possibly one member is exchanged for a related one. -/
inductive OneChanged {α : Type} (R : α → α → Prop) : List α → List α → Prop
  /-- no difference -/
  | same (xs : List α) : OneChanged R xs xs
  /-- another first member -/
  | here {x x' : α} (xs : List α) : R x x' → OneChanged R (x :: xs) (x' :: xs)
  /-- a difference further on -/
  | there (x : α) {xs xs' : List α} : OneChanged R xs xs' → OneChanged R (x :: xs) (x :: xs')

/-- Two images that are equal except that at position `n` the data of the one has the bytes `m`, and that of the other
one `m'`. -/
structure Damaged (n : Nat) (m m' : Bytes) (im im' : Image) : Prop where
  width : im'.width = im.width
  height : im'.height = im.height
  compressed : im'.compressed = im.compressed
  data : ∃ a q, a.length = n ∧ im.data = a ++ m ++ q ∧ im'.data = a ++ m' ++ q

/-- Two files that are equal except that at position `n` of the data of one image the first one has the bytes `m`, the
second one as many other bytes `m'`.  The image is in the cel chunk behind `chunks` in the frame behind `frames`; its cel
type is 0 (image data as it is) or 2 (compressed).  Before the data the chunk has 7 bytes (layer, position and opacity),
the cel type, and 11 bytes (z-index, reserved, width and height). -/
inductive OtherBytes (n : Nat) (m m' : Bytes) : Bytes → Bytes → Prop
  | mk (head frames frameHead chunks p r a q y z : Bytes) (celType : UInt16) : head.length = 128 → Records frames →
      frameHead.length = 12 → Records chunks → p.length = 7 → (celType = 0 ∨ celType = 2) → r.length = 11 →
      a.length = n → m'.length = m.length →
      4 + (le16 0x2005 ++ p ++ le16 celType ++ r ++ a ++ m ++ q).length < 2 ^ 32 →
      4 + (frameHead ++ chunks ++ sizedRecord (le16 0x2005 ++ p ++ le16 celType ++ r ++ a ++ m ++ q) ++ y).length < 2 ^ 32 →
      OtherBytes n m m'
        (head ++ frames ++ sizedRecord (frameHead ++ chunks ++
          sizedRecord (le16 0x2005 ++ p ++ le16 celType ++ r ++ a ++ m ++ q) ++ y) ++ z)
        (head ++ frames ++ sizedRecord (frameHead ++ chunks ++
          sizedRecord (le16 0x2005 ++ p ++ le16 celType ++ r ++ a ++ m' ++ q) ++ y) ++ z)

end Ase.Spec
