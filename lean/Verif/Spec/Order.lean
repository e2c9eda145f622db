import Verif.Spec.Assemble
import Verif.Spec.File

/-!
# The same chunks in another order
-/

namespace Ase.Spec

/-- The kinds of chunks between which the order does not matter.  There is one kind for the cels of each layer, one for
palettes of all types, and one for everything that is not in the parsed file. -/
inductive Kind where
  | layer | tags | slice | palette | cel (layer : UInt16) | other
deriving DecidableEq

/-- The kind of a chunk. -/
def kindOf : Chunk → Kind
  | .layer _ => .layer
  | .tags _ => .tags
  | .slice _ => .slice
  | .palette0004 _ | .palette0011 _ | .palette _ => .palette
  | .cel c => .cel c.layerIndex
  | _ => .other

/-- The blocks of a kind, in their order.  A block is a chunk with the user data chunks directly following it. -/
def blocksOf (k : Kind) (cs : List Chunk) : List (Chunk × List UserDataChunk) :=
  (owned cs).filter fun block => kindOf block.1 = k

/-- The two files have the same header and durations; the same blocks of layers, tags, slices and palettes, each kind in
the same order, but perhaps in other frames; in each frame the same cels for each layer, in the same order; and the same
user data after the palette chunks of the first frame.  Blocks of other kinds may be anywhere. -/
structure SameButOrder (raw raw' : RawFile) : Prop where
  header : raw.header = raw'.header
  durations : raw.frames.map (·.duration) = raw'.frames.map (·.duration)
  anywhere : ∀ k, k = .layer ∨ k = .tags ∨ k = .slice ∨ k = .palette →
    raw.frames.flatMap (fun f => blocksOf k f.chunks) = raw'.frames.flatMap fun f => blocksOf k f.chunks
  cels : ∀ n, raw.frames.map (fun f => blocksOf (.cel n) f.chunks) = raw'.frames.map fun f => blocksOf (.cel n) f.chunks
  sprite : raw.frames.head?.bind (fun f => spriteUserData f.chunks) = raw'.frames.head?.bind fun f => spriteUserData f.chunks

/-- A frame record: a duration, and the chunk records `l` with what is in them. -/
def frameRecord (duration : UInt16) (l : List (Chunk × Bytes)) : Bytes :=
  leNat32 (16 + (l.flatMap (·.2)).length) ++ [0xFA, 0xF1] ++ [0, 0] ++ le16 duration ++ [0, 0] ++ leNat32 l.length
    ++ l.flatMap (·.2)

end Ase.Spec
