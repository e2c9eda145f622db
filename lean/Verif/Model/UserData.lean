import Verif.Model.Enums

/-! # `src/binary/chunks/user_data.rs` -/

namespace Ase

mutual

/-- user_data.rs:73-95.  `f32` and `f64` values are represented by their bit patterns. -/
inductive Value where
  | bool (b : Bool)
  | int8 (v : Int8)
  | uint8 (v : UInt8)
  | int16 (v : Int16)
  | uint16 (v : UInt16)
  | int32 (v : Int32)
  | uint32 (v : UInt32)
  | int64 (v : Int64)
  | uint64 (v : UInt64)
  | fixed (v : Fixed)
  | float (bits : UInt32)
  | double (bits : UInt64)
  | string (s : String)
  | point (v : Point)
  | size (v : Size)
  | rect (v : Rect)
  | vector (v : PVector)
  | mixedVector (vs : List Value)
  | propertiesMap (m : PropertiesMap)
  | uuid (v : BitVec 128)

/-- user_data.rs:97-119 `Vector` -/
inductive PVector where
  | mixed (vs : List Value)
  | bool (vs : List Bool)
  | int8 (vs : List Int8)
  | uint8 (vs : List UInt8)
  | int16 (vs : List Int16)
  | uint16 (vs : List UInt16)
  | int32 (vs : List Int32)
  | uint32 (vs : List UInt32)
  | int64 (vs : List Int64)
  | uint64 (vs : List UInt64)
  | fixed (vs : List Fixed)
  | float (vs : List UInt32)
  | double (vs : List UInt64)
  | string (vs : List String)
  | point (vs : List Point)
  | size (vs : List Size)
  | rect (vs : List Rect)
  | vector (vs : List PVector)
  | propertiesMap (vs : List PropertiesMap)
  | uuid (vs : List (BitVec 128))

/-- user_data.rs:37-41 -/
inductive PropertiesMap where
  | mk (extensionEntryId : UInt32) (properties : List Property)

/-- user_data.rs:43-47 -/
inductive Property where
  | mk (name : String) (value : Value)

end

mutual

/-- user_data.rs:174-202.  The first argument is the number of nested calls the stack can still hold. -/
def parseValue : Nat → P Value
  | 0 => P.panic .stackOverflow
  | d + 1 => do
    let code ← word
    match PropertyType.fromRepr code.toNat with
    | none => P.fail (.failure (.invalidPropertyType code))
    | some .bool => do pure (.bool ((← byte) != 0))
    | some .int8 => do pure (.int8 (← leI8))
    | some .uint8 => do pure (.uint8 (← byte))
    | some .int16 => do pure (.int16 (← short))
    | some .uint16 => do pure (.uint16 (← word))
    | some .int32 => do pure (.int32 (← long))
    | some .uint32 => do pure (.uint32 (← dword))
    | some .int64 => do pure (.int64 (← leI64))
    | some .uint64 => do pure (.uint64 (← leU64))
    | some .fixed => do pure (.fixed (← fixed))
    | some .float => do pure (.float (← dword))
    | some .double => do pure (.double (← leU64))
    | some .string => do pure (.string (← parseString))
    | some .point => do pure (.point (← parsePoint))
    | some .size => do pure (.size (← parseSize))
    | some .rect => do pure (.rect (← parseRect))
    | some .vector => do pure (.vector (← parseVector d))
    | some .propertiesMap => do pure (.propertiesMap (← parsePropertiesMap d))
    | some .uuid => do pure (.uuid (← parseUuid))

/-- user_data.rs:204-245 -/
def parseVector : Nat → P PVector
  | 0 => P.panic .stackOverflow
  | d + 1 => do
    let n ← parseDwordAsUsize
    let code ← word
    if code = 0 then do pure (.mixed (← count (parseValue d) n))
    else match PropertyType.fromRepr code.toNat with
    | none => P.fail (.failure (.invalidPropertyType code))
    | some .bool => do pure (.bool (← count (do pure ((← byte) != 0)) n))
    | some .int8 => do pure (.int8 (← count leI8 n))
    | some .uint8 => do pure (.uint8 (← count byte n))
    | some .int16 => do pure (.int16 (← count short n))
    | some .uint16 => do pure (.uint16 (← count word n))
    | some .int32 => do pure (.int32 (← count long n))
    | some .uint32 => do pure (.uint32 (← count dword n))
    | some .int64 => do pure (.int64 (← count leI64 n))
    | some .uint64 => do pure (.uint64 (← count leU64 n))
    | some .fixed => do pure (.fixed (← count fixed n))
    | some .float => do pure (.float (← count dword n))
    | some .double => do pure (.double (← count leU64 n))
    | some .string => do pure (.string (← count parseString n))
    | some .point => do pure (.point (← count parsePoint n))
    | some .size => do pure (.size (← count parseSize n))
    | some .rect => do pure (.rect (← count parseRect n))
    | some .vector => do pure (.vector (← count (parseVector d) n))
    | some .propertiesMap => do pure (.propertiesMap (← count (parsePropertiesMap d) n))
    | some .uuid => do pure (.uuid (← count parseUuid n))

/-- user_data.rs:155-166 -/
def parsePropertiesMap : Nat → P PropertiesMap
  | 0 => P.panic .stackOverflow
  | d + 1 => do
    let extensionEntryId ← dword
    let numProps ← parseDwordAsUsize
    let properties ← count (parseProperty d) numProps
    pure (.mk extensionEntryId properties)

/-- user_data.rs:168-172 -/
def parseProperty : Nat → P Property
  | 0 => P.panic .stackOverflow
  | d + 1 => do
    let name ← parseString
    let value ← parseValue d
    pure (.mk name value)

end

/-- user_data.rs:30-35.  `properties_maps` is an `Option<ParseResult<..>>`: a nested result (rest of the
property bytes and the maps, or the error). -/
structure UserDataChunk where
  text : Option String
  color : Option PColor
  propertiesMaps : Option (Except NomErr (Bytes × List PropertiesMap))

/-- `size_maps - 8` on `usize` (user_data.rs:148): panics on underflow with overflow checks, wraps
without. -/
def usizeSub8 (plat : Plat) (n : Nat) : Outcome NomErr Nat :=
  if 8 ≤ n then .ok (n - 8) else if plat.debug then .panic .overflow else .ok (2 ^ 64 + n - 8)

/-- user_data.rs:142-153.  The inner parse error is a value; a panic is not. -/
def parsePropertiesMaps (plat : Plat) : P (Except NomErr (Bytes × List PropertiesMap)) := do
  let sizeMaps ← parseDwordAsUsize
  let numMaps ← parseDwordAsUsize
  let n ← fun b => (usizeSub8 plat sizeMaps).bind (fun n => .ok (b, n))
  let inputMaps ← take n
  fun b => match count (parsePropertiesMap plat.stack) numMaps inputMaps with
    | .ok v => .ok (b, .ok v)
    | .err e => .ok (b, .error e)
    | .panic k => .panic k

/-- user_data.rs:121-140 -/
def parseUserDataChunk (plat : Plat) : P UserDataChunk := do
  let flags ← dword
  let flags := UserDataFlags.fromBitsTruncate flags
  let text ← cond (flags.contains UserDataFlags.HAS_TEXT) parseString
  let color ← cond (flags.contains UserDataFlags.HAS_COLOR) parseColor
  let propertiesMaps ← cond (flags.contains UserDataFlags.HAS_PROPERTIES) (parsePropertiesMaps plat)
  pure { text, color, propertiesMaps }

end Ase
