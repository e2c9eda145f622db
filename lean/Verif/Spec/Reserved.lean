import Verif.Spec.File

/-!
# Reserved bytes

Where the format document has reserved bytes ("for future", "set to zero", "ignored") at a fixed place of the header, of
a frame and of the chunks, and what it means that two files differ only there.
-/

namespace Ase.Spec

/-- A sized record: a DWORD with its total length, then the rest.  Frames and chunks are such records. -/
def sizedRecord (l : Bytes) : Bytes := leNat32 (4 + l.length) ++ l

/-- Sized records one after the other. -/
inductive Records : Bytes → Prop
  | nil : Records []
  | cons {l r : Bytes} : 4 + l.length < 2 ^ 32 → Records r → Records (sizedRecord l ++ r)

/-- The reserved ranges of the 128 byte header: first position and length. -/
def reservedHeader : List (Nat × Nat) := [(29, 3), (44, 84)]

/-- The reserved ranges of the chunks: type, first position behind the type, length.  For layers the first range is the
default width and height of the layer, which the format document declares ignored. -/
def reservedChunk : List (UInt16 × Nat × Nat) :=
  [(0x2004, 6, 4), (0x2004, 13, 3), (0x2005, 11, 5), (0x2007, 8, 8), (0x2008, 4, 8), (0x2016, 8, 8), (0x2018, 2, 8),
   (0x2019, 12, 8), (0x2022, 8, 4), (0x2023, 18, 14)]

/-- The two files differ only in reserved bytes: of the header, of any frames and of any chunks. -/
inductive SameButReserved : Bytes → Bytes → Prop
  /-- no difference -/
  | refl (b : Bytes) : SameButReserved b b
  /-- several differences -/
  | trans {a b c : Bytes} : SameButReserved a b → SameButReserved b c → SameButReserved a c
  /-- another `m` in the header -/
  | header (a m m' z : Bytes) : (a.length, m.length) ∈ reservedHeader → m'.length = m.length →
      SameButReserved (a ++ m ++ z) (a ++ m' ++ z)
  /-- another `m` in the frame behind `frames`; the reserved bytes of a frame are those at 10 and 11 -/
  | frame (head frames a m m' y z : Bytes) : head.length = 128 → Records frames → a.length = 6 → m.length = 2 →
      m'.length = 2 → 4 + (a ++ m ++ y).length < 2 ^ 32 →
      SameButReserved (head ++ frames ++ sizedRecord (a ++ m ++ y) ++ z) (head ++ frames ++ sizedRecord (a ++ m' ++ y) ++ z)
  /-- another `m` in the chunk behind `chunks` in the frame behind `frames` -/
  | chunk (head frames frameHead chunks p m m' q y z : Bytes) (code : UInt16) : head.length = 128 → Records frames →
      frameHead.length = 12 → Records chunks → (code, p.length, m.length) ∈ reservedChunk → m'.length = m.length →
      4 + (le16 code ++ p ++ m ++ q).length < 2 ^ 32 →
      4 + (frameHead ++ chunks ++ sizedRecord (le16 code ++ p ++ m ++ q) ++ y).length < 2 ^ 32 →
      SameButReserved
        (head ++ frames ++ sizedRecord (frameHead ++ chunks ++ sizedRecord (le16 code ++ p ++ m ++ q) ++ y) ++ z)
        (head ++ frames ++ sizedRecord (frameHead ++ chunks ++ sizedRecord (le16 code ++ p ++ m' ++ q) ++ y) ++ z)

end Ase.Spec
