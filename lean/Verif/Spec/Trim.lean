import Verif.Spec.Sheet
import Verif.Spec.Turned

/-!
# Cels cut off at the edges of the canvas

Used by the property C147.
-/

namespace Ase.Spec

/-- No cel reaches over an edge of the canvas. -/
def InsideCanvas (f : AsepriteFile) : Prop := ∀ fr ∈ f.frames, ∀ c ∈ fr.cels,
  (0 ≤ c.origin.1.toInt ∧ c.origin.1.toInt + c.size.1.toNat ≤ f.size.1.toNat) ∧
  (0 ≤ c.origin.2.toInt ∧ c.origin.2.toInt + c.size.2.toNat ≤ f.size.2.toNat)

instance (f : AsepriteFile) : Decidable (InsideCanvas f) := by unfold InsideCanvas; infer_instance

/-- Where the part of a line from `pos` on begins that is on a canvas of that length. -/
def trimmedStart (canvas : Nat) (pos : Int) : Nat := min canvas pos.toNat

/-- How long this part is. -/
def trimmedLength (canvas : Nat) (pos : Int) (length : Nat) : Nat :=
  min canvas (pos + length).toNat - trimmedStart canvas pos

/-- The upper left corner of the part of the cel that is on the canvas. -/
def trimmedCorner (f : AsepriteFile) (c : FrameCel) : Nat × Nat :=
  (trimmedStart f.size.1.toNat c.origin.1.toInt, trimmedStart f.size.2.toNat c.origin.2.toInt)

/-- The size of this part. -/
def trimmedSize (f : AsepriteFile) (c : FrameCel) : Nat × Nat :=
  (trimmedLength f.size.1.toNat c.origin.1.toInt c.size.1.toNat, trimmedLength f.size.2.toNat c.origin.2.toInt c.size.2.toNat)

/-- The pixels of this part, one after the other in RGBA. -/
def trimmedImage (inflate : Inflater) (f : AsepriteFile) (c : FrameCel) : Image :=
  let size := trimmedSize f c
  { width := UInt16.ofNat size.1, height := UInt16.ofNat size.2, compressed := false,
    data := (List.range (size.1 * size.2)).flatMap fun p =>
      let x : Int := (trimmedCorner f c).1 + (p % size.1 : Nat) - c.origin.1.toInt
      let y : Int := (trimmedCorner f c).2 + (p / size.1 : Nat) - c.origin.2.toInt
      rgbaBytes (imageColor inflate f c.imageIndex (y.toNat * c.size.1.toNat + x.toNat)) }

end Ase.Spec
