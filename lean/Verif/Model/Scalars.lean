import Verif.Model.Core
import Verif.Model.Utf8

/-! # `src/binary/scalars.rs` -/

namespace Ase

/-- The value of a byte string read in little-endian order. -/
def leNat : Bytes → Nat
  | [] => 0
  | b :: bs => b.toNat + 256 * leNat bs

/-- `nom::number::complete::le_uint(n)`, the common core of `le_u8` .. `le_u128`. -/
def leUint (n : Nat) : P Nat := do
  let bs ← take n
  pure (leNat bs)

/-- scalars.rs:65-68 (`le_u8`) -/
def byte : P UInt8 := do pure (UInt8.ofNat (← leUint 1))

/-- scalars.rs:70-73 (`le_u16`) -/
def word : P UInt16 := do pure (UInt16.ofNat (← leUint 2))

/-- scalars.rs:75-78 (`le_i16`) -/
def short : P Int16 := do pure (UInt16.ofNat (← leUint 2)).toInt16

/-- scalars.rs:80-83 (`le_u32`) -/
def dword : P UInt32 := do pure (UInt32.ofNat (← leUint 4))

/-- scalars.rs:85-88 (`le_i32`) -/
def long : P Int32 := do pure (UInt32.ofNat (← leUint 4)).toInt32

/-- `nom::number::complete::le_i8`, used in user_data.rs:181,217 -/
def leI8 : P Int8 := do pure (UInt8.ofNat (← leUint 1)).toInt8

/-- `nom::number::complete::le_u64`, used in user_data.rs:188,224 -/
def leU64 : P UInt64 := do pure (UInt64.ofNat (← leUint 8))

/-- `nom::number::complete::le_i64`, used in user_data.rs:187,223 -/
def leI64 : P Int64 := do pure (UInt64.ofNat (← leUint 8)).toInt64

/-- scalars.rs:29-33 -/
structure Point where
  x : Int32
  y : Int32
deriving DecidableEq, Repr

/-- scalars.rs:35-39 -/
structure Size where
  width : Int32
  height : Int32
deriving DecidableEq, Repr

/-- scalars.rs:41-45 -/
structure Rect where
  point : Point
  size : Size
deriving DecidableEq, Repr

/-- scalars.rs:47-48 `Fixed(pub u16, pub u16)` -/
structure Fixed where
  fst : UInt16
  snd : UInt16
deriving DecidableEq, Repr

/-- scalars.rs:50-55 -/
structure RGB where
  red : UInt8
  green : UInt8
  blue : UInt8
deriving DecidableEq, Repr

/-- scalars.rs:57-63 (`Color`; named `PColor` here, the blend module has its own `Color`) -/
structure PColor where
  red : UInt8
  green : UInt8
  blue : UInt8
  alpha : UInt8
deriving DecidableEq, Repr, Inhabited

/-- scalars.rs:90-94 -/
def parsePoint : P Point := do
  let x ← long
  let y ← long
  pure { x, y }

/-- scalars.rs:96-100 -/
def parseSize : P Size := do
  let width ← long
  let height ← long
  pure { width, height }

/-- scalars.rs:102-106 -/
def parseRect : P Rect := do
  let point ← parsePoint
  let size ← parseSize
  pure { point, size }

/-- scalars.rs:112-119 -/
def dwordSize (f : UInt32 → ParseError) : P UInt32 := do
  let size ← dword
  if 4 ≤ size.toNat then pure size else P.fail (.failure (f size))

/-- scalars.rs:121-127; `u32` always fits a 64-bit `usize` -/
def parseDwordAsUsize : P Nat := do
  let size ← dword
  pure size.toNat

/-- scalars.rs:129-133 -/
def parseDwordAsU8 (e : ParseError) : P UInt8 := do
  let size ← dword
  if size.toNat < 256 then pure (UInt8.ofNat size.toNat) else P.fail (.failure e)

/-- scalars.rs:135-137: `map_res(flat_map(word, take), from_utf8)`; a UTF-8 error is a recoverable error -/
def parseString : P String := do
  let n ← word
  let bs ← take n.toNat
  match utf8Decode bs with
  | some cs => pure (String.ofList cs)
  | none => P.fail (.error (.utf8Error (utf8Fault 0 bs).1 (utf8Fault 0 bs).2))

/-- scalars.rs:139-141 (`le_u128`) -/
def parseUuid : P (BitVec 128) := do pure (BitVec.ofNat 128 (← leUint 16))

/-- scalars.rs:143-147: the low word is stored first and ends up in the *second* field -/
def fixed : P Fixed := do
  let low ← word
  let high ← word
  pure { fst := high, snd := low }

/-- scalars.rs:149-163 -/
def parseColor : P PColor := do
  let red ← byte
  let green ← byte
  let blue ← byte
  let alpha ← byte
  pure { red, green, blue, alpha }

/-- scalars.rs:165-170 -/
def parseRgb : P RGB := do
  let red ← byte
  let green ← byte
  let blue ← byte
  pure { red, green, blue }

end Ase
