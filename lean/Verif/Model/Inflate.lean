import Verif.Model.Loader

/-!
# A concrete zlib decoder

The crate decompresses images with `flate2::Decompress::new(true).decompress(data, target, Finish)` (loader/mod.rs:450-457).
The source of flate2 is not part of the repository; everywhere else the decompressor is an arbitrary parameter
(`Inflater`).  This file is an executable decoder written from RFC 1950 and RFC 1951, so that statements about arbitrary
decompressors can be specialised, and so that the model can be run on real files.  Two simplifications: running out of
input is reported as `BufError`, and incomplete codes with more than one symbol are always rejected; the crate does not
distinguish the ways of failing.
-/

namespace Ase.Zlib

/-- The state of the decoder: the bits not yet read, the room left in the target, the output so far (last byte
first). -/
structure St where
  bits : List Bool
  room : Nat
  out : Bytes

/-- A decoding step; if it fails, what has been written remains. -/
abbrev D (α : Type) := StateT St (Except (InflateStatus × Bytes)) α

/-- Stop with a status. -/
def fail {α : Type} (s : InflateStatus) : D α := fun st => .error (s, st.out.reverse)

/-- RFC 1951, 3.1.1: the bits of a byte, starting with the least significant one. -/
def byteBits (x : UInt8) : List Bool := (List.range 8).map x.toNat.testBit

/-- Read one bit. -/
def bit : D Bool := fun st =>
  match st.bits with
  | [] => .error (.bufError, st.out.reverse)
  | b :: bs => .ok (b, { st with bits := bs })

/-- RFC 1951, 3.1.1: read a number of `k` bits, least significant bit first. -/
def number : Nat → D Nat
  | 0 => pure 0
  | k + 1 => do
    let b ← bit
    let r ← number k
    pure (b.toNat + 2 * r)

/-- Skip to the next byte boundary. -/
def align : D Unit := fun st => .ok ((), { st with bits := st.bits.drop (st.bits.length % 8) })

/-- Write a byte, if there is room. -/
def emit (x : UInt8) : D Unit := fun st =>
  match st.room with
  | 0 => .error (.bufError, st.out.reverse)
  | r + 1 => .ok ((), { st with room := r, out := x :: st.out })

/-- RFC 1951, 3.2.3: repeat `length` bytes starting `distance` bytes ago. -/
def copy (distance : Nat) : Nat → D Unit
  | 0 => pure ()
  | length + 1 => do
    let st ← get
    match st.out[distance - 1]? with
    | some x => emit x; copy distance length
    | none => fail .error

/-- Copy bytes from the input. -/
def copyRaw : Nat → D Unit
  | 0 => pure ()
  | n + 1 => do
    let x ← number 8
    emit x.toUInt8
    copyRaw n

/-- RFC 1951, 3.2.4: a stored block. -/
def stored : D Unit := do
  align
  let len ← number 16
  let nlen ← number 16
  if len + nlen = 65535 then copyRaw len else fail .error

/-- RFC 1951, 3.2.2: a canonical Huffman code is given by the symbols of length 1, of length 2 and so on, each in
increasing order.  `c` is the number of the code read so far among those that are not codes of a symbol. -/
def symbol : List (List Nat) → Nat → D Nat
  | [], _ => fail .error
  | g :: gs, c => do
    let b ← bit
    let c := 2 * c + b.toNat
    match g[c]? with
    | some s => pure s
    | none => symbol gs (c - g.length)

/-- The symbols by code length, from the code lengths of the symbols. -/
def groups (lens : List Nat) : List (List Nat) :=
  (List.range 15).map fun l => (lens.zipIdx.filter fun p => p.1 = l + 1).map (·.2)

/-- The number of codes of the length of the last group that are left, if there never were too many. -/
def codesLeft : List (List Nat) → Nat → Option Nat
  | [], n => some n
  | g :: gs, n => if 2 * n < g.length then none else codesLeft gs (2 * n - g.length)

/-- A code is usable if it is complete or has at most one symbol. -/
def usable (gs : List (List Nat)) : Bool :=
  match codesLeft gs 1 with
  | none => false
  | some 0 => true
  | some _ => (gs.map List.length).sum ≤ 1

/-- RFC 1951, 3.2.5: base and number of extra bits of the length symbols from 257 on. -/
def lengthTable : List (Nat × Nat) :=
  [(3, 0), (4, 0), (5, 0), (6, 0), (7, 0), (8, 0), (9, 0), (10, 0), (11, 1), (13, 1), (15, 1), (17, 1), (19, 2), (23, 2),
   (27, 2), (31, 2), (35, 3), (43, 3), (51, 3), (59, 3), (67, 4), (83, 4), (99, 4), (115, 4), (131, 5), (163, 5), (195, 5),
   (227, 5), (258, 0)]

/-- RFC 1951, 3.2.5: base and number of extra bits of the distance symbols. -/
def distanceTable : List (Nat × Nat) :=
  [(1, 0), (2, 0), (3, 0), (4, 0), (5, 1), (7, 1), (9, 2), (13, 2), (17, 3), (25, 3), (33, 4), (49, 4), (65, 5), (97, 5),
   (129, 6), (193, 6), (257, 7), (385, 7), (513, 8), (769, 8), (1025, 9), (1537, 9), (2049, 10), (3073, 10), (4097, 11),
   (6145, 11), (8193, 12), (12289, 12), (16385, 13), (24577, 13)]

/-- A number given by a base and extra bits. -/
def extended (table : List (Nat × Nat)) (i : Nat) : D Nat :=
  match table[i]? with
  | some (base, extra) => do
    let e ← number extra
    pure (base + e)
  | none => fail .error

/-- RFC 1951, 3.2.3: the symbols of a compressed block.  Every symbol takes at least one bit, so the number of bits is
enough `fuel`. -/
def codes (lit dist : List (List Nat)) : Nat → D Unit
  | 0 => fail .error
  | fuel + 1 => do
    let s ← symbol lit 0
    if s < 256 then
      emit s.toUInt8
      codes lit dist fuel
    else if s = 256 then pure ()
    else
      let length ← extended lengthTable (s - 257)
      let d ← symbol dist 0
      let distance ← extended distanceTable d
      copy distance length
      codes lit dist fuel

/-- RFC 1951, 3.2.6: the fixed codes. -/
def fixedLit : List (List Nat) :=
  groups (List.replicate 144 8 ++ List.replicate 112 9 ++ List.replicate 24 7 ++ List.replicate 8 8)
/-- RFC 1951, 3.2.6: the fixed codes of the distances. -/
def fixedDist : List (List Nat) := groups (List.replicate 32 5)

/-- RFC 1951, 3.2.7: the order of the code lengths of the code length alphabet. -/
def lengthOrder : List Nat := [16, 17, 18, 0, 8, 7, 9, 6, 10, 5, 11, 4, 12, 3, 13, 2, 14, 1, 15]

/-- Read `k` numbers of three bits. -/
def threeBits : Nat → D (List Nat)
  | 0 => pure []
  | k + 1 => do
    let x ← number 3
    let xs ← threeBits k
    pure (x :: xs)

/-- RFC 1951, 3.2.7: read code lengths until there are `n`; `acc` are those read so far, the last one first. -/
def codeLengths (gs : List (List Nat)) (n : Nat) : Nat → List Nat → D (List Nat)
  | 0, _ => fail .error
  | fuel + 1, acc =>
    if n ≤ acc.length then (if acc.length = n then pure acc.reverse else fail .error)
    else do
      let s ← symbol gs 0
      if s < 16 then codeLengths gs n fuel (s :: acc)
      else if s = 16 then
        match acc with
        | [] => fail .error
        | x :: _ => do
          let r ← number 2
          codeLengths gs n fuel (List.replicate (3 + r) x ++ acc)
      else if s = 17 then
        let r ← number 3
        codeLengths gs n fuel (List.replicate (3 + r) 0 ++ acc)
      else
        let r ← number 7
        codeLengths gs n fuel (List.replicate (11 + r) 0 ++ acc)

/-- RFC 1951, 3.2.7: a block with its own codes. -/
def dynamic : D Unit := do
  let hlit ← number 5
  let hdist ← number 5
  let hclen ← number 4
  if 286 < hlit + 257 ∨ 30 < hdist + 1 then fail .error
  let ls ← threeBits (hclen + 4)
  let gs := groups ((List.range 19).map fun i => ((lengthOrder.zip ls).lookup i).getD 0)
  if !usable gs then fail .error
  let lens ← codeLengths gs (hlit + 257 + (hdist + 1)) (hlit + hdist + 259) []
  let lit := groups (lens.take (hlit + 257))
  let dist := groups (lens.drop (hlit + 257))
  if !(usable lit && usable dist) then fail .error
  let st ← get
  codes lit dist (st.bits.length + 1)

/-- RFC 1951, 3.2.3: the blocks.  Every block takes at least three bits, so the number of bits is enough `fuel`. -/
def blocks : Nat → D Unit
  | 0 => fail .error
  | fuel + 1 => do
    let final ← bit
    let type ← number 2
    if type = 0 then stored
    else if type = 1 then
      let st ← get
      codes fixedLit fixedDist (st.bits.length + 1)
    else if type = 2 then dynamic
    else fail .error
    if final then pure () else blocks fuel

/-- RFC 1950, section 9: Adler-32, `(a, b)` are the two sums. -/
def adler (a b : Nat) : Bytes → Nat
  | [] => b * 65536 + a
  | x :: xs => adler ((a + x.toNat) % 65521) ((b + a + x.toNat) % 65521) xs

/-- RFC 1950, 2.2: header, compressed data, checksum (most significant byte first). -/
def stream : D Unit := do
  let cmf ← number 8
  let flg ← number 8
  if (cmf * 256 + flg) % 31 ≠ 0 ∨ cmf % 16 ≠ 8 ∨ 7 < cmf / 16 ∨ flg / 32 % 2 ≠ 0 then fail .error
  let st ← get
  blocks (st.bits.length + 1)
  align
  let c3 ← number 8
  let c2 ← number 8
  let c1 ← number 8
  let c0 ← number 8
  let st ← get
  if ((c3 * 256 + c2) * 256 + c1) * 256 + c0 ≠ adler 1 0 st.out.reverse then fail .error

/-- The decoder: status and output for the given data and size of the target. -/
def inflate : Inflater := fun data room =>
  match stream ⟨data.flatMap byteBits, room, []⟩ with
  | .ok (_, st) => (.streamEnd, st.out.reverse)
  | .error e => e

end Ase.Zlib
