import Verif.Model.Enums

/-! # `src/binary/header.rs` -/

namespace Ase

/-- header.rs:12 `0xA5E0u16.to_le_bytes()` -/
def headerMagic : Bytes := [0xE0, 0xA5]

/-- header.rs:15-54 -/
structure Header where
  fileSize : UInt32
  frames : UInt16
  width : UInt16
  height : UInt16
  colorDepth : ColorDepth
  flags : UInt32
  speed : UInt16
  transparentIndex : UInt8
  colorCount : UInt16
  pixelWidth : UInt8
  pixelHeight : UInt8
  gridX : Int16
  gridY : Int16
  gridWidth : UInt16
  gridHeight : UInt16
deriving DecidableEq, Repr

/-- header.rs:58-100: the fields, read from the 128 byte slice; the `assert_eq!(input.len(), 0)` of
line 79 is an explicit panic -/
def parseHeaderFields : P Header := do
  let fileSize ← dword
  let _ ← tag headerMagic
  let frames ← word
  let width ← word
  let height ← word
  let colorDepth ← parseColorDepth
  let flags ← dword
  let speed ← word
  let _ ← tag [0, 0, 0, 0]
  let _ ← tag [0, 0, 0, 0]
  let transparentIndex ← byte
  let _ ← take 3
  let colorCount ← word
  let pixelWidth ← byte
  let pixelHeight ← byte
  let gridX ← short
  let gridY ← short
  let gridWidth ← word
  let gridHeight ← word
  let _ ← take 84
  let rest ← P.remaining
  if rest.length = 0 then
    pure { fileSize, frames, width, height, colorDepth, flags, speed, transparentIndex, colorCount,
           pixelWidth, pixelHeight, gridX, gridY, gridWidth, gridHeight }
  else P.panic .assertFailed

/-- header.rs:56-101 -/
def parseHeader : P Header := do
  let input ← take 128
  P.onSlice parseHeaderFields input

end Ase
