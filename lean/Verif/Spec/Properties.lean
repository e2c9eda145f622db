import Verif.Spec.Encode
import Verif.Spec.Occurs

/-!
# Which properties of user data can be read (C133)

Property values, vectors, maps and properties contain each other.  The number is how deep they are nested at most: each of
them takes one call on the stack.
-/

namespace Ase.Spec

mutual

/-- A value that can be read: strings of less than 64 KiB, and no `MixedVector` (vectors of mixed type are read as
`Vector`). -/
def ReadableValue : Nat → Value → Prop
  | 0, _ => False
  | _ + 1, .string s => FitsStr s
  | d + 1, .vector v => ReadableVector d v
  | _ + 1, .mixedVector _ => False
  | d + 1, .propertiesMap m => ReadableMap d m
  | _ + 1, _ => True

/-- A vector that can be read: fewer than 2^32 elements, all of which can be read. -/
def ReadableVector : Nat → PVector → Prop
  | 0, _ => False
  | d + 1, .mixed vs => vs.length < 2 ^ 32 ∧ ∀ v ∈ vs, ReadableValue d v
  | d + 1, .vector vs => vs.length < 2 ^ 32 ∧ ∀ v ∈ vs, ReadableVector d v
  | d + 1, .propertiesMap vs => vs.length < 2 ^ 32 ∧ ∀ v ∈ vs, ReadableMap d v
  | _ + 1, v => FitsVector v

/-- A map that can be read: any key, fewer than 2^32 properties. -/
def ReadableMap : Nat → PropertiesMap → Prop
  | 0, _ => False
  | d + 1, .mk _ props => props.length < 2 ^ 32 ∧ ∀ p ∈ props, ReadableProperty d p

/-- A property that can be read: a name of less than 64 KiB. -/
def ReadableProperty : Nat → Property → Prop
  | 0, _ => False
  | d + 1, .mk name v => FitsStr name ∧ ReadableValue d v

end

mutual

/-- How a value is stored.  Unlike in the format document maps have a key also where they are nested. -/
def storedValue : Nat → Value → Bytes
  | 0, _ => []
  | d + 1, .vector v => le16 0x11 ++ storedVector d v
  | d + 1, .propertiesMap m => le16 0x12 ++ storedMap d m
  | _ + 1, v => valueBytes v

/-- How a vector is stored. -/
def storedVector : Nat → PVector → Bytes
  | 0, _ => []
  | d + 1, .mixed vs => elems 0x00 (storedValue d) vs
  | d + 1, .vector vs => elems 0x11 (storedVector d) vs
  | d + 1, .propertiesMap vs => elems 0x12 (storedMap d) vs
  | _ + 1, v => vectorBytes v

/-- How a map is stored: key, number of properties, properties. -/
def storedMap : Nat → PropertiesMap → Bytes
  | 0, _ => []
  | d + 1, .mk key props => le32 key ++ leNat32 props.length ++ props.flatMap (storedProperty d)

/-- How a property is stored: name and value. -/
def storedProperty : Nat → Property → Bytes
  | 0, _ => []
  | d + 1, .mk name v => str name ++ storedValue d v

end

/-- The errors that are reported in place of properties: the end of the data, less than 65535 bytes before it; a name or
text that is not UTF-8; a type that does not exist. -/
def PropertiesError : NomErr → Prop
  | .error (.nom s .eof) => s.length < 65535
  | .error (.utf8Error n k) => Occurs (.error (.utf8Error n k))
  | .failure (.invalidPropertyType c) => c = 0 ∨ 0x13 < c
  | _ => False

/-- The flags, text and colour of user data take this many bytes. -/
def startSize (u : UserDataChunk) : Nat :=
  4 + ((u.text.map str).getD []).length + ((u.color.map color).getD []).length

/-- User data that can be read. -/
def ReadableUserData (plat : Plat) (u : UserDataChunk) : Prop :=
  (∀ s, u.text = some s → FitsStr s) ∧
  match u.propertiesMaps with
  | none => True
  | some (.ok (rest, ms)) => (∀ m ∈ ms, ReadableMap plat.stack m) ∧
      startSize u + 8 + (ms.map fun m => (storedMap plat.stack m).length).sum + rest.length < 2 ^ 32
  | some (.error e) => PropertiesError e

end Ase.Spec
