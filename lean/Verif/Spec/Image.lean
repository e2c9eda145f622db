import Verif.Model.Loader

/-!
# Pixels of stored images and of RGBA buffers

Used by the properties C22, C36 to C44 and C53.
-/

namespace Ase.Spec

/-- Pixel number `p` of a buffer of RGBA pixels. -/
def pixel (buf : Bytes) (p : Nat) : Option Color :=
  match buf.drop (4 * p) with
  | r :: g :: b :: a :: _ => some ⟨r, g, b, a⟩
  | _ => none

/-- The number of bytes of a stored pixel. -/
def bytesPerPixel : ColorDepth → Nat
  | .rgba => 4
  | .grayscale => 2
  | .indexed => 1
  | .unknown _ => 0

/-- The colour of pixel number `p` in stored image data: four bytes red, green, blue, alpha; or two bytes value, alpha;
or one byte, an index into the palette. -/
def storedPixel (depth : ColorDepth) (palette : Option Palette) (raw : Bytes) (p : Nat) : Option Color :=
  match depth with
  | .rgba => pixel raw p
  | .grayscale =>
    match raw.drop (2 * p) with
    | v :: a :: _ => some ⟨v, v, v, a⟩
    | _ => none
  | .indexed => do
    let i ← raw[p]?
    let pal ← palette
    let c ← pal.colors[i.toNat]?
    pure ⟨c.red, c.green, c.blue, c.alpha⟩
  | .unknown _ => none

/-- The number of pixels of an image. -/
def pixelCount (im : Image) : Nat := im.width.toNat * im.height.toNat

/-- The bytes the image data stands for: the data itself, or what it inflates to if it is a complete zlib stream that
fits into `n` bytes. -/
def Stored (inflate : Inflater) (im : Image) (n : Nat) (raw : Bytes) : Prop :=
  if im.compressed then inflate im.data n = (.streamEnd, raw) ∧ raw.length ≤ n else raw = im.data

/-- What is assumed of zlib: it does not write past the end of the buffer it is given. -/
def Fits (inflate : Inflater) : Prop := ∀ data n, (inflate data n).2.length ≤ n

end Ase.Spec

namespace Ase.Sample

/-- Inflates zlib streams consisting of one stored block (RFC 1950, RFC 1951), ignoring the checksum. -/
def inflate : Inflater := fun data n =>
  match data with
  | 0x78 :: 0x01 :: 1 :: l0 :: l1 :: _ :: _ :: rest =>
    let len := l0.toNat + 256 * l1.toNat
    if len ≤ n ∧ len + 4 ≤ rest.length then (.streamEnd, rest.take len)
    else (.bufError, (rest.take len).take n)
  | _ => (.error, [])

/-- A zlib stream with one stored block (the checksum is left at zero). -/
def deflate (data : Bytes) : Bytes :=
  [0x78, 0x01, 1] ++ [UInt8.ofNat data.length, UInt8.ofNat (data.length / 256)] ++ [0, 0] ++ data ++ [0, 0, 0, 0]

theorem inflate_fits : Spec.Fits inflate := by
  intro data n
  unfold inflate
  split
  · simp only
    split
    · next h => simp only [List.length_take]; omega
    · simp only [List.length_take]; omega
  · simp

end Ase.Sample
