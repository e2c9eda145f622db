import Verif.Spec.Assemble
import Verif.Spec.File

/-!
# Inputs on which the parser panics

Where a user data chunk lies in a file, and what in it makes the parser of property values run out of stack.
-/

namespace Ase.Spec

/-- The list of `n` elements in `b` starts with some well formed elements (`G`), and the next one satisfies `D`. -/
def SomeElem {α : Type} (G : α → Bytes → Prop) (D : Bytes → Prop) (n : Nat) (b : Bytes) : Prop :=
  ∃ (xs : List α) (l r : Bytes), Seq G xs l ∧ b = l ++ r ∧ xs.length < n ∧ D r

mutual

/-- The bytes `b`, read as a property value, lead to more than `d` nested values, vectors, maps and properties; what
comes before the place where this happens is well formed. -/
def DeepValue : Nat → Bytes → Prop
  | 0, _ => True
  | d + 1, b => (∃ r, b = le16 0x11 ++ r ∧ DeepVector d r) ∨ (∃ r, b = le16 0x12 ++ r ∧ DeepMap d r)

/-- The same for a vector: number of elements, type of the elements, elements. -/
def DeepVector : Nat → Bytes → Prop
  | 0, _ => True
  | d + 1, b => ∃ (n : UInt32) (r : Bytes),
      (b = le32 n ++ le16 0x00 ++ r ∧ SomeElem (IsValue true d) (DeepValue d) n.toNat r) ∨
      (b = le32 n ++ le16 0x11 ++ r ∧ SomeElem (IsVector true d) (DeepVector d) n.toNat r) ∨
      (b = le32 n ++ le16 0x12 ++ r ∧ SomeElem (IsMap true true d) (DeepMap d) n.toNat r)

/-- The same for a properties map: key, number of properties, properties. -/
def DeepMap : Nat → Bytes → Prop
  | 0, _ => True
  | d + 1, b => ∃ (key n : UInt32) (r : Bytes), b = le32 key ++ le32 n ++ r ∧
      SomeElem (IsProperty true d) (DeepProperty d) n.toNat r

/-- The same for a property: name and value. -/
def DeepProperty : Nat → Bytes → Prop
  | 0, _ => True
  | d + 1, b => ∃ (name : String) (r : Bytes), FitsStr name ∧ b = str name ++ r ∧ DeepValue d r

end

/-- The file `b` is well formed up to a user data chunk with the given body: a header, complete frames, the start of a
frame of the size it declares, complete chunks, fewer than the frame has, and then the chunk. -/
def ReachesUserData (U : UserDataChunk → Bytes → Prop) (b body : Bytes) : Prop :=
  ∃ (h : Header) (header : Bytes) (fs : List RawFrame) (frames frame rest : Bytes) (old duration : UInt16) (new : UInt32)
    (reserved : Bytes) (cs : List Chunk) (chunks extra : Bytes),
    IsHeader h header ∧ Seq (IsFrame U) fs frames ∧
    4 + frame.length < 2 ^ 32 ∧ b = header ++ frames ++ (leNat32 (4 + frame.length) ++ frame ++ rest) ∧
    reserved.length = 2 ∧ Seq (IsChunk U) cs chunks ∧ cs.length < chunkCount old new ∧
    6 + body.length < 2 ^ 32 ∧
    frame = [0xFA, 0xF1] ++ le16 old ++ le16 duration ++ reserved ++ le32 new ++ chunks ++
      (leNat32 (6 + body.length) ++ le16 0x2020 ++ body ++ extra)

/-- The body of a user data chunk has properties (flag bit 2), of the declared size and number. -/
def HasProperties (body : Bytes) (size count : UInt32) (maps : Bytes) : Prop :=
  ∃ (flags : UInt32) (text : Option String) (color : Option PColor) (t c : Bytes),
    Opt (bit32 flags 0) IsStr text t ∧ Opt (bit32 flags 1) (As Spec.color) color c ∧ bit32 flags 2 ∧
    body = le32 flags ++ t ++ c ++ le32 size ++ le32 count ++ maps

/-- In a debug build the size of the properties is less than the 8 bytes that hold the size and the number of maps. -/
def OverflowAt (body : Bytes) : Prop := ∃ size count rest, HasProperties body size count rest ∧ size.toNat < 8

/-- The properties are nested more than `stack` deep. -/
def TooDeepAt (stack : Nat) (body : Bytes) : Prop :=
  ∃ (size count : UInt32) (maps rest : Bytes), HasProperties body size count (maps ++ rest) ∧
    size.toNat = 8 + maps.length ∧ SomeElem (IsMap true true stack) (DeepMap stack) count.toNat maps

end Ase.Spec
