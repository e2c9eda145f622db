import Verif.Spec.Reserved
import Verif.Spec.Look

/-!
# Files that differ in one frame record, or in one chunk record
-/

namespace Ase.Spec

/-- Sized records (frames, or chunks) one after the other. -/
def records (ls : List Bytes) : Bytes := ls.flatMap sizedRecord

/-- The record is not too long for its length field. -/
def FitsRecord (l : Bytes) : Prop := 4 + l.length < 2 ^ 32

instance (l : Bytes) : Decidable (FitsRecord l) := by unfold FitsRecord; infer_instance

/-- The files have the same header and the same frame records, except that frame record number `i` is `l` in the one and
`l'` in the other. -/
inductive OtherFrame (i : Nat) (l l' : Bytes) : Bytes → Bytes → Prop
  | mk (head : Bytes) (before : List Bytes) (after : Bytes) : head.length = 128 → (∀ r ∈ before, FitsRecord r) →
      before.length = i → FitsRecord l → FitsRecord l' →
      OtherFrame i l l' (head ++ records before ++ sizedRecord l ++ after) (head ++ records before ++ sizedRecord l' ++ after)

/-- The frame records (without their length fields) have the same twelve bytes of magic number, duration and chunk counts,
and the same chunk records, except that chunk record number `k` is `m` in the one and `m'` in the other. -/
inductive OtherChunk (k : Nat) (m m' : Bytes) : Bytes → Bytes → Prop
  | mk (head : Bytes) (before : List Bytes) (after : Bytes) : head.length = 12 → (∀ r ∈ before, FitsRecord r) →
      before.length = k → FitsRecord m → FitsRecord m' →
      OtherChunk k m m' (head ++ records before ++ sizedRecord m ++ after) (head ++ records before ++ sizedRecord m' ++ after)

/-- The raw file with `fr` as its frame number `i`. -/
def withFrame (raw : RawFile) (i : Nat) (fr : RawFrame) : RawFile := { raw with frames := raw.frames.set i fr }

/-- The raw frame with `c` as its chunk number `k`. -/
def withChunk (fr : RawFrame) (k : Nat) (c : Chunk) : RawFrame := { fr with chunks := fr.chunks.set k c }

end Ase.Spec
