import Verif.Model.Core

/-!
# Zlib streams

What a zlib stream is (RFC 1950) and what its content is, with the compressed data format of RFC 1951.  Nothing here
refers to a decoder: bits are given by the numbers and code words they stand for.
-/

namespace Ase.Spec.Deflate

/-! ## Bits (RFC 1951, 3.1.1) -/

/-- A number in `k` bits, least significant bit first. -/
def lsb (k v : Nat) : List Bool := (List.range k).map v.testBit

/-- A number in `k` bits, most significant bit first. -/
def msb (k v : Nat) : List Bool := (lsb k v).reverse

/-- The bits of a sequence of bytes. -/
def bits (data : Bytes) : List Bool := data.flatMap fun x => lsb 8 x.toNat

/-! ## Huffman codes (RFC 1951, 3.2.2)

A code is given by the lengths of the code words of the symbols 0, 1, 2, …; length 0 means that the symbol has none. -/

/-- The smallest code of length `l`: step 2 of the algorithm of 3.2.2. -/
def firstCode (lens : List Nat) : Nat → Nat
  | 0 => 0
  | l + 1 => 2 * (firstCode lens l + if l = 0 then 0 else lens.count l)

/-- `w` is the code word of the symbol `s`: step 3 of the algorithm of 3.2.2. -/
def Codeword (lens : List Nat) (s : Nat) (w : List Bool) : Prop :=
  ∃ l, lens[s]? = some l ∧ 0 < l ∧ l ≤ 15 ∧ w = msb l (firstCode lens l + (lens.take s).count l)

/-- A code can be used if its words fill the words of 15 bits exactly, or if it has at most one word. -/
def Usable (lens : List Nat) : Prop :=
  ((List.range 15).map fun l => lens.count (l + 1) * 2 ^ (14 - l)).sum = 2 ^ 15 ∨
    ((List.range 15).map fun l => lens.count (l + 1)).sum ≤ 1

/-! ## Compressed data (RFC 1951, 3.2.5) -/

/-- The number of extra bits of the length symbol `257 + i`. -/
def lengthExtra (i : Nat) : Nat := if i = 28 then 0 else (i - 4) / 4

/-- The smallest length of the length symbol `257 + i`: lengths are numbered in order, but 258 has a symbol of its own. -/
def lengthBase (i : Nat) : Nat := if i = 28 then 258 else 3 + ((List.range i).map fun j => 2 ^ lengthExtra j).sum

/-- The number of extra bits of the distance symbol `i`. -/
def distanceExtra (i : Nat) : Nat := i / 2 - 1

/-- The smallest distance of the distance symbol `i`. -/
def distanceBase (i : Nat) : Nat := 1 + ((List.range i).map fun j => 2 ^ distanceExtra j).sum

/-- `out'` is `out` followed by `length` bytes, each of which is the byte `distance` places before it. -/
def Copied (out : Bytes) (length distance : Nat) (out' : Bytes) : Prop :=
  distance ≤ out.length ∧ out <+: out' ∧ out'.length = out.length + length ∧
    ∀ i, out.length ≤ i → i < out'.length → out'[i]? = out'[i - distance]?

/-- The bits of a block of compressed data, with the output before and after it. -/
inductive Items (lit dist : List Nat) : Bytes → List Bool → Bytes → Prop
  | stop {out w} : Codeword lit 256 w → Items lit dist out w out
  | literal {out w ws out'} (x : UInt8) : Codeword lit x.toNat w → Items lit dist (out ++ [x]) ws out' →
      Items lit dist out (w ++ ws) out'
  | copy {out w v ws mid out'} (i e j d : Nat) : Codeword lit (257 + i) w → i < 29 → e < 2 ^ lengthExtra i →
      Codeword dist j v → j < 30 → d < 2 ^ distanceExtra j →
      Copied out (lengthBase i + e) (distanceBase j + d) mid → Items lit dist mid ws out' →
      Items lit dist out (w ++ lsb (lengthExtra i) e ++ v ++ lsb (distanceExtra j) d ++ ws) out'

/-! ## Codes (RFC 1951, 3.2.6 and 3.2.7) -/

/-- The lengths of the fixed code of literals and lengths. -/
def fixedLit : List Nat :=
  List.replicate 144 8 ++ List.replicate 112 9 ++ List.replicate 24 7 ++ List.replicate 8 8

/-- The lengths of the fixed code of distances. -/
def fixedDist : List Nat := List.replicate 32 5

/-- A sequence of code lengths, written with the code `cl`, after those before it; the symbols 16, 17 and 18 repeat. -/
inductive Lengths (cl : List Nat) : List Nat → List Bool → List Nat → Prop
  | done {xs} : Lengths cl xs [] xs
  | one {xs w ws ys} (s : Nat) : s < 16 → Codeword cl s w → Lengths cl (xs ++ [s]) ws ys → Lengths cl xs (w ++ ws) ys
  | again {xs w ws ys} (r x : Nat) : Codeword cl 16 w → r < 4 → xs.getLast? = some x →
      Lengths cl (xs ++ List.replicate (3 + r) x) ws ys → Lengths cl xs (w ++ lsb 2 r ++ ws) ys
  | zeros {xs w ws ys} (r : Nat) : Codeword cl 17 w → r < 8 →
      Lengths cl (xs ++ List.replicate (3 + r) 0) ws ys → Lengths cl xs (w ++ lsb 3 r ++ ws) ys
  | manyZeros {xs w ws ys} (r : Nat) : Codeword cl 18 w → r < 128 →
      Lengths cl (xs ++ List.replicate (11 + r) 0) ws ys → Lengths cl xs (w ++ lsb 7 r ++ ws) ys

/-- The order in which the lengths of the code of code lengths are given. -/
def order : List Nat := [16, 17, 18, 0, 8, 7, 9, 6, 10, 5, 11, 4, 12, 3, 13, 2, 14, 1, 15]

/-- The lengths `cl` of the code of code lengths are given by `ls`, in that order; those not given are 0. -/
def InOrder (ls cl : List Nat) : Prop :=
  cl.length = 19 ∧ ∀ k s : Nat, order[k]? = some s → cl[s]? = some (ls[k]?.getD 0)

/-! ## Blocks (RFC 1951, 3.2.3) -/

/-- A block of the given type without its first three bits, which starts `pos` bits into the data. -/
inductive Block (pos : Nat) : Nat → Bytes → List Bool → Bytes → Prop
  | stored {out} (pad : List Bool) (data : Bytes) : pad.length < 8 → (pos + pad.length) % 8 = 0 → data.length < 65536 →
      Block pos 0 out (pad ++ lsb 16 data.length ++ lsb 16 (65535 - data.length) ++ bits data) (out ++ data)
  | fixed {out ws out'} : Items fixedLit fixedDist out ws out' → Block pos 1 out ws out'
  | dynamic {out vs ws out'} (nlit ndist : Nat) (ls cl ys : List Nat) : 257 ≤ nlit → nlit ≤ 286 → 1 ≤ ndist → ndist ≤ 30 →
      4 ≤ ls.length → ls.length ≤ 19 → (∀ l ∈ ls, l < 8) → InOrder ls cl → Usable cl →
      Lengths cl [] vs ys → ys.length = nlit + ndist → Usable (ys.take nlit) → Usable (ys.drop nlit) →
      Items (ys.take nlit) (ys.drop nlit) out ws out' →
      Block pos 2 out (lsb 5 (nlit - 257) ++ lsb 5 (ndist - 1) ++ lsb 4 (ls.length - 4) ++ ls.flatMap (lsb 3) ++ vs ++ ws) out'

/-- The blocks of the data: only the last one is marked as the last one. -/
inductive Blocks : Nat → Bytes → List Bool → Bytes → Prop
  | last {pos out ws out'} (type : Nat) : Block (pos + 3) type out ws out' →
      Blocks pos out ([true] ++ lsb 2 type ++ ws) out'
  | more {pos out ws mid vs out'} (type : Nat) : Block (pos + 3) type out ws mid →
      Blocks (pos + 3 + ws.length) mid vs out' → Blocks pos out ([false] ++ lsb 2 type ++ ws ++ vs) out'

/-! ## Streams (RFC 1950) -/

/-- The sums of Adler-32: 1 plus the bytes, and the sum of the first sums after each byte (RFC 1950, section 8.2). -/
def sum1 (data : Bytes) : Nat := (1 + (data.map UInt8.toNat).sum) % 65521
/-- The second sum of Adler-32. -/
def sum2 (data : Bytes) : Nat := ((List.range data.length).map fun i => sum1 (data.take (i + 1))).sum % 65521

/-- The checksum, most significant byte first. -/
def checksum (data : Bytes) : Bytes :=
  [sum2 data / 256, sum2 data % 256, sum1 data / 256, sum1 data % 256].map UInt8.ofNat

/-- `z` is a zlib stream with the content `content` (no preset dictionary). -/
def IsZlib (z content : Bytes) : Prop :=
  ∃ (cmf flg : UInt8) (body : Bytes) (ws pad : List Bool), z = [cmf, flg] ++ body ++ checksum content ∧
    (cmf.toNat * 256 + flg.toNat) % 31 = 0 ∧ cmf.toNat % 16 = 8 ∧ cmf.toNat / 16 ≤ 7 ∧ flg.toNat / 32 % 2 = 0 ∧
    bits body = ws ++ pad ∧ pad.length < 8 ∧ Blocks 0 [] ws content

end Ase.Spec.Deflate
