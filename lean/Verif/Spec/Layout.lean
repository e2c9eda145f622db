import Verif.Model.File

/-!
# Byte layouts of the Aseprite format

Written from the Aseprite file format document (`ase-file-specs.md`), not from the parsers: how values are
laid out as bytes.  Only the *data types* of the model (`Header`, `LayerChunk`, ...) are used here, none of
its functions, except for the named constants of flag words and the numeric codes of enumerations, which are
described in `Verif/Spec/Codes.lean`.
-/

namespace Ase.Spec

/-- `n` bytes, least significant first. -/
def leBytes : Nat → Nat → Bytes
  | 0, _ => []
  | n + 1, v => UInt8.ofNat (v % 256) :: leBytes n (v / 256)

/-- WORD -/
def le16 (x : UInt16) : Bytes := leBytes 2 x.toNat
/-- DWORD -/
def le32 (x : UInt32) : Bytes := leBytes 4 x.toNat
/-- QWORD -/
def le64 (x : UInt64) : Bytes := leBytes 8 x.toNat
/-- UUID -/
def le128 (x : BitVec 128) : Bytes := leBytes 16 x.toNat
/-- a DWORD holding a natural number (a count or a size) -/
def leNat32 (n : Nat) : Bytes := leBytes 4 n
/-- a WORD holding a natural number -/
def leNat16 (n : Nat) : Bytes := leBytes 2 n
/-- SHORT: 16-bit two's complement -/
def les16 (x : Int16) : Bytes := leBytes 2 (x.toInt % 2 ^ 16).toNat
/-- LONG: 32-bit two's complement -/
def les32 (x : Int32) : Bytes := leBytes 4 (x.toInt % 2 ^ 32).toNat
/-- LONG64 -/
def les64 (x : Int64) : Bytes := leBytes 8 (x.toInt % 2 ^ 64).toNat
/-- signed BYTE -/
def les8 (x : Int8) : Bytes := leBytes 1 (x.toInt % 2 ^ 8).toNat

/-- The UTF-8 encoding of a text (RFC 3629; `String.utf8EncodeChar` is Lean's own encoder). -/
def utf8 (s : String) : Bytes := s.toList.flatMap String.utf8EncodeChar

/-- STRING: WORD length in bytes, then UTF-8. -/
def str (s : String) : Bytes := leNat16 (utf8 s).length ++ utf8 s

/-- A text fits a STRING field. -/
def FitsStr (s : String) : Prop := (utf8 s).length < 2 ^ 16

/-- FIXED 16.16: the fraction word first. `Fixed(integer part, fraction)`. -/
def fixed (f : Fixed) : Bytes := le16 f.snd ++ le16 f.fst
/-- POINT -/
def point (p : Point) : Bytes := les32 p.x ++ les32 p.y
/-- SIZE -/
def size (s : Size) : Bytes := les32 s.width ++ les32 s.height
/-- RECT -/
def rect (r : Rect) : Bytes := point r.point ++ size r.size
/-- four colour bytes -/
def color (c : PColor) : Bytes := [c.red, c.green, c.blue, c.alpha]
/-- three colour bytes -/
def rgb (c : RGB) : Bytes := [c.red, c.green, c.blue]

/-- Concatenation of `bss` where the pieces encode the elements of `xs` one by one. -/
inductive Seq {α : Type} (G : α → Bytes → Prop) : List α → Bytes → Prop
  | nil : Seq G [] []
  | cons {x xs b bs} : G x b → Seq G xs bs → Seq G (x :: xs) (b ++ bs)

end Ase.Spec
