import Verif.Spec.Chunks

/-!
# Layout of user data (0x2020)

The recursive part (property values) is a relation by recursion on a bound `d` of the nesting: "`l` is the
encoding of the value `v`, whose values, vectors, maps and properties are nested at most `d` deep".

The format document stores the key (DWORD) of a properties map only for the maps directly in the chunk, a map
*nested* in a value has none.  The parameter `keyed` selects between the documented layout (`keyed = false`) and
the one with a key in nested maps too (`keyed = true`), which is what the crate reads (see property C16).
-/

namespace Ase.Spec

/-- BOOL: 0 is false, everything else is true. -/
def IsBool (b : Bool) (l : Bytes) : Prop := ∃ c : UInt8, b = (c != 0) ∧ l = [c]

/-- The body of a vector: number of elements, type code of the elements, elements. -/
def Elems {α : Type} (code : UInt16) (G : α → Bytes → Prop) (xs : List α) (l : Bytes) : Prop :=
  ∃ e, xs.length < 2 ^ 32 ∧ Seq G xs e ∧ l = leNat32 xs.length ++ le16 code ++ e

mutual

/-- A property value: type code, then the value. -/
def IsValue (keyed : Bool) : Nat → Value → Bytes → Prop
  | 0, _, _ => False
  | _ + 1, .bool b, l => ∃ e, IsBool b e ∧ l = le16 0x01 ++ e
  | _ + 1, .int8 v, l => l = le16 0x02 ++ les8 v
  | _ + 1, .uint8 v, l => l = le16 0x03 ++ [v]
  | _ + 1, .int16 v, l => l = le16 0x04 ++ les16 v
  | _ + 1, .uint16 v, l => l = le16 0x05 ++ le16 v
  | _ + 1, .int32 v, l => l = le16 0x06 ++ les32 v
  | _ + 1, .uint32 v, l => l = le16 0x07 ++ le32 v
  | _ + 1, .int64 v, l => l = le16 0x08 ++ les64 v
  | _ + 1, .uint64 v, l => l = le16 0x09 ++ le64 v
  | _ + 1, .fixed v, l => l = le16 0x0A ++ fixed v
  | _ + 1, .float bits, l => l = le16 0x0B ++ le32 bits
  | _ + 1, .double bits, l => l = le16 0x0C ++ le64 bits
  | _ + 1, .string s, l => FitsStr s ∧ l = le16 0x0D ++ str s
  | _ + 1, .point v, l => l = le16 0x0E ++ point v
  | _ + 1, .size v, l => l = le16 0x0F ++ size v
  | _ + 1, .rect v, l => l = le16 0x10 ++ rect v
  | d + 1, .vector v, l => ∃ e, IsVector keyed d v e ∧ l = le16 0x11 ++ e
  | _ + 1, .mixedVector _, _ => False
  | d + 1, .propertiesMap m, l => ∃ e, IsMap keyed keyed d m e ∧ l = le16 0x12 ++ e
  | _ + 1, .uuid v, l => l = le16 0x13 ++ le128 v

/-- A vector: element type 0 means that every element carries its own type. -/
def IsVector (keyed : Bool) : Nat → PVector → Bytes → Prop
  | 0, _, _ => False
  | d + 1, .mixed vs, l => Elems 0x00 (IsValue keyed d) vs l
  | _ + 1, .bool vs, l => Elems 0x01 IsBool vs l
  | _ + 1, .int8 vs, l => Elems 0x02 (As les8) vs l
  | _ + 1, .uint8 vs, l => Elems 0x03 (As fun v => [v]) vs l
  | _ + 1, .int16 vs, l => Elems 0x04 (As les16) vs l
  | _ + 1, .uint16 vs, l => Elems 0x05 (As le16) vs l
  | _ + 1, .int32 vs, l => Elems 0x06 (As les32) vs l
  | _ + 1, .uint32 vs, l => Elems 0x07 (As le32) vs l
  | _ + 1, .int64 vs, l => Elems 0x08 (As les64) vs l
  | _ + 1, .uint64 vs, l => Elems 0x09 (As le64) vs l
  | _ + 1, .fixed vs, l => Elems 0x0A (As fixed) vs l
  | _ + 1, .float vs, l => Elems 0x0B (As le32) vs l
  | _ + 1, .double vs, l => Elems 0x0C (As le64) vs l
  | _ + 1, .string vs, l => Elems 0x0D IsStr vs l
  | _ + 1, .point vs, l => Elems 0x0E (As point) vs l
  | _ + 1, .size vs, l => Elems 0x0F (As size) vs l
  | _ + 1, .rect vs, l => Elems 0x10 (As rect) vs l
  | d + 1, .vector vs, l => Elems 0x11 (IsVector keyed d) vs l
  | d + 1, .propertiesMap vs, l => Elems 0x12 (IsMap keyed keyed d) vs l
  | _ + 1, .uuid vs, l => Elems 0x13 (As le128) vs l

/-- A properties map: its key (if it has one; otherwise it is the user map, key 0), the number of
properties, the properties. -/
def IsMap (keyed hasKey : Bool) : Nat → PropertiesMap → Bytes → Prop
  | 0, _, _ => False
  | d + 1, .mk key props, l => ∃ k e, (if hasKey then k = le32 key else k = [] ∧ key = 0) ∧
      props.length < 2 ^ 32 ∧ Seq (IsProperty keyed d) props e ∧ l = k ++ leNat32 props.length ++ e

/-- A property: name and value. -/
def IsProperty (keyed : Bool) : Nat → Property → Bytes → Prop
  | 0, _, _ => False
  | d + 1, .mk name value, l => ∃ e, FitsStr name ∧ IsValue keyed d value e ∧ l = str name ++ e

end

mutual

/-- The value contains no nested properties map. -/
def mapFree : Value → Bool
  | .vector v => vectorMapFree v
  | .mixedVector vs => valuesMapFree vs
  | .propertiesMap _ => false
  | _ => true

/-- The vector contains no nested properties map. -/
def vectorMapFree : PVector → Bool
  | .mixed vs => valuesMapFree vs
  | .vector vs => vectorsMapFree vs
  | .propertiesMap _ => false
  | _ => true

/-- None of the values contains a nested properties map. -/
def valuesMapFree : List Value → Bool
  | [] => true
  | v :: vs => mapFree v && valuesMapFree vs

/-- None of the vectors contains a nested properties map. -/
def vectorsMapFree : List PVector → Bool
  | [] => true
  | v :: vs => vectorMapFree v && vectorsMapFree vs

end

/-- No property of the map has a nested properties map in its value. -/
def propsMapFree : PropertiesMap → Bool
  | .mk _ props => props.all fun | .mk _ v => mapFree v

/-- The documented properties section of a user data chunk: total size in bytes (including the two size fields
themselves), number of maps, the maps, each with its key; `rest` are unused bytes within the size. -/
def IsProperties (keyed : Bool) (v : Bytes × List PropertiesMap) (l : Bytes) : Prop :=
  ∃ d e, 8 + e.length + v.1.length < 2 ^ 32 ∧ v.2.length < 2 ^ 32 ∧ Seq (IsMap keyed true d) v.2 e ∧
    l = leNat32 (8 + e.length + v.1.length) ++ leNat32 v.2.length ++ e ++ v.1

/-- User data chunk (0x2020): flags; text, colour and properties are stored when bit 0, 1, 2 of the flags are set. -/
def IsUserData (keyed : Bool) (text : Option String) (color : Option PColor)
    (props : Option (Bytes × List PropertiesMap)) (l : Bytes) : Prop :=
  ∃ (flags : UInt32) (t c p : Bytes), Opt (bit32 flags 0) IsStr text t ∧
    Opt (bit32 flags 1) (As Spec.color) color c ∧ Opt (bit32 flags 2) (IsProperties keyed) props p ∧
    l = le32 flags ++ t ++ c ++ p

end Ase.Spec
