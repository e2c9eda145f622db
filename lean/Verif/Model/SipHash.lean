import Verif.Model.Loader

/-!
# The hash of `combined_frame_image`

`combined_frame_image` feeds tuples to a `std::collections::hash_map::DefaultHasher` (loader/mod.rs:274-279).  Everywhere
else its result is an arbitrary function of the tuples.  This file says what it is on a 64-bit little-endian platform with
the standard library of the time: `DefaultHasher::new()` is SipHash-1-3 with both keys zero, integers are hashed as their
bytes in native order, tuples as their components.  (The standard library does not promise this; its source is not part
of the repository.)
-/

namespace Ase

/-- The bytes of a number, least significant first. -/
def nativeBytes : Nat → Nat → Bytes
  | 0, _ => []
  | k + 1, n => UInt8.ofNat n :: nativeBytes k (n / 256)

/-- loader/mod.rs:277: the bytes one cel feeds to the hasher: `usize`, `usize`, `(i16, i16)`, `(u16, u16)` -/
def celHashBytes (c : HashInput) : Bytes :=
  nativeBytes 8 c.1 ++ nativeBytes 8 c.2.1 ++ nativeBytes 2 c.2.2.1.1.toUInt16.toNat ++ nativeBytes 2 c.2.2.1.2.toUInt16.toNat
    ++ nativeBytes 2 c.2.2.2.1.toNat ++ nativeBytes 2 c.2.2.2.2.toNat

/-- loader/mod.rs:276-278: the loop -/
def hashBytes (cs : List HashInput) : Bytes := cs.flatMap celHashBytes

namespace SipHash

/-- The state of SipHash: four words. -/
structure St where
  v0 : UInt64
  v1 : UInt64
  v2 : UInt64
  v3 : UInt64
deriving DecidableEq, Repr

/-- Rotate left. -/
def rotl (x : UInt64) (k : UInt64) : UInt64 := (x <<< k) ||| (x >>> (64 - k))

/-- SipRound -/
def round (s : St) : St :=
  let v0 := s.v0 + s.v1
  let v1 := rotl s.v1 13 ^^^ v0
  let v0 := rotl v0 32
  let v2 := s.v2 + s.v3
  let v3 := rotl s.v3 16 ^^^ v2
  let v0 := v0 + v3
  let v3 := rotl v3 21 ^^^ v0
  let v2 := v2 + v1
  let v1 := rotl v1 17 ^^^ v2
  let v2 := rotl v2 32
  ⟨v0, v1, v2, v3⟩

/-- The initial state for the keys zero. -/
def init : St := ⟨0x736f6d6570736575, 0x646f72616e646f6d, 0x6c7967656e657261, 0x7465646279746573⟩

/-- One word of the message, one round. -/
def absorb (s : St) (m : UInt64) : St :=
  let s := round { s with v3 := s.v3 ^^^ m }
  { s with v0 := s.v0 ^^^ m }

/-- A little-endian word. -/
def word (b : Bytes) : UInt64 := b.foldr (fun x acc => acc <<< 8 ||| x.toUInt64) 0

/-- The message in words of eight bytes; the last one is what is left over, with the length of the message in the highest
byte. -/
def absorbAll (len : Nat) (s : St) (b : Bytes) : St :=
  if b.length < 8 then absorb s (word b ||| (UInt64.ofNat len <<< 56))
  else absorbAll len (absorb s (word (b.take 8))) (b.drop 8)
termination_by b.length
decreasing_by simp only [List.length_drop]; omega

/-- SipHash-1-3 with the keys zero. -/
def hash (b : Bytes) : UInt64 :=
  let s := absorbAll b.length init b
  let s := round (round (round { s with v2 := s.v2 ^^^ 0xff }))
  s.v0 ^^^ s.v1 ^^^ s.v2 ^^^ s.v3

end SipHash

/-- loader/mod.rs:274-279: the hash of a list of cels -/
def defaultHash (cs : List HashInput) : UInt64 := SipHash.hash (hashBytes cs)

/-- The hash of nothing, `DefaultHasher::new().finish()`. -/
example : defaultHash [] = 15130871412783076140 := by decide +kernel

/-! Values computed with another implementation of SipHash-1-3, the one CPython hashes `bytes` with (seed 0). -/

example : SipHash.hash [97, 98, 99] = 13851880170939887858 := by decide +kernel

example : defaultHash [(3, 7, (-1, 2), (300, 5))] = 1668068957372143059 := by decide +kernel

example : defaultHash [(3, 7, (-1, 2), (300, 5)), (3, 7, (-1, 2), (300, 5))] = 16336484755574959246 := by decide +kernel

end Ase
