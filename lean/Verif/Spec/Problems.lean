import Verif.Spec.Fields
import Verif.Spec.File
import Verif.Spec.Assemble

/-!
# What can be wrong with a file

From the header down to the fields of a chunk (`Verif/Spec/Fields.lean`): what is wrong first, in file order, and the error
that says so.
-/

namespace Ase.Spec

/-- What is wrong with a header: it is not complete, its magic number is another one, or one of its two reserved numbers is
not zero. -/
inductive HeaderProblem (b : Bytes) : NomErr → Prop
  | short : b.length < 128 → HeaderProblem b (.error (.nom b .eof))
  | magic : 128 ≤ b.length → (b.drop 4).take 2 ≠ [0xE0, 0xA5] → HeaderProblem b (.error (.nom ((b.take 128).drop 4) .tag))
  | firstZero : 128 ≤ b.length → (b.drop 4).take 2 = [0xE0, 0xA5] → (b.drop 20).take 4 ≠ [0, 0, 0, 0] →
      HeaderProblem b (.error (.nom ((b.take 128).drop 20) .tag))
  | secondZero : 128 ≤ b.length → (b.drop 4).take 2 = [0xE0, 0xA5] → (b.drop 20).take 4 = [0, 0, 0, 0] →
      (b.drop 24).take 4 ≠ [0, 0, 0, 0] → HeaderProblem b (.error (.nom ((b.take 128).drop 24) .tag))

/-- What is wrong with the size of a record that starts with its own size: the size is not complete, it is too small to
count itself, or the input is shorter. -/
inductive SizeProblem (b : Bytes) : NomErr → Prop
  | noSize : b.length < 4 → SizeProblem b (.error (.nom b .eof))
  | tooSmall {n : UInt32} {rest} : b = le32 n ++ rest → n.toNat < 4 → SizeProblem b (.failure (.invalidFrameSize n))
  | tooLarge {n : UInt32} {rest} : b = le32 n ++ rest → 4 ≤ n.toNat → b.length < n.toNat →
      SizeProblem b (.error (.nom rest .eof))

/-- What is wrong with a chunk: its size, its type is not complete, or a field of its body. -/
inductive ChunkProblem (debug : Bool) (b : Bytes) : NomErr → Prop
  | size {e} : SizeProblem b e → ChunkProblem debug b e
  | noType {l rest} : b = leNat32 (4 + l.length) ++ l ++ rest → l.length < 2 → ChunkProblem debug b (.error (.nom l .eof))
  | body {code : UInt16} {body rest e} : 6 + body.length < 2 ^ 32 →
      b = leNat32 (6 + body.length) ++ le16 code ++ body ++ rest → Problem (bodyForm debug code) body e →
      ChunkProblem debug b e

/-- What is wrong with a frame: its size, its magic number, a field of its header that is not complete (they have 2, 2, 2
and 4 bytes), or one of its chunks, all chunks before being good (`U` tells what good user data chunks are). -/
inductive FrameProblem (debug : Bool) (U : UserDataChunk → Bytes → Prop) (b : Bytes) : NomErr → Prop
  | size {e} : SizeProblem b e → FrameProblem debug U b e
  | magic {l rest} : 4 + l.length < 2 ^ 32 → b = leNat32 (4 + l.length) ++ l ++ rest → l.take 2 ≠ [0xFA, 0xF1] →
      FrameProblem debug U b (.error (.nom l .tag))
  | field {l rest e} : 4 + ([0xFA, 0xF1] ++ l).length < 2 ^ 32 →
      b = leNat32 (4 + ([0xFA, 0xF1] ++ l).length) ++ ([0xFA, 0xF1] ++ l) ++ rest →
      Problem (skips [2, 2, 2, 4] .done) l e → FrameProblem debug U b e
  | chunk {old duration : UInt16} {new : UInt32} {reserved : Bytes} {cs : List Chunk} {good bad rest : Bytes} {e} :
      reserved.length = 2 → 16 + good.length + bad.length < 2 ^ 32 →
      b = leNat32 (16 + good.length + bad.length) ++ [0xFA, 0xF1] ++ le16 old ++ le16 duration ++ reserved ++ le32 new
        ++ good ++ bad ++ rest →
      Seq (IsChunk U) cs good → cs.length < chunkCount old new → ChunkProblem debug bad e → FrameProblem debug U b e

/-- What is wrong with a file: its header; its first frame; a later frame (if what is wrong there is a failure, that is the
error, else the error points at the start of that frame and says `Eof`); the palette of an indexed file; or the layer number
of a cel. -/
inductive FileProblem (debug : Bool) (U : UserDataChunk → Bytes → Prop) (b : Bytes) : NomErr → Prop
  | header {e} : HeaderProblem b e → FileProblem debug U b e
  | firstFrame {h header rest e} : b = header ++ rest → IsHeader h header → FrameProblem debug U rest e →
      FileProblem debug U b e
  | failure {h header fs frames rest e} : b = header ++ frames ++ rest → IsHeader h header → fs ≠ [] →
      Seq (IsFrame U) fs frames → FrameProblem debug U rest (.failure e) → FileProblem debug U b (.failure e)
  | laterFrame {h header fs frames rest e} : b = header ++ frames ++ rest → IsHeader h header → fs ≠ [] →
      Seq (IsFrame U) fs frames → rest ≠ [] → FrameProblem debug U rest (.error e) →
      FileProblem debug U b (.error (.nom rest .eof))
  | palette {h header fs frames e} : b = header ++ frames → IsHeader h header → fs ≠ [] → Seq (IsFrame U) fs frames →
      h.colorDepth = .indexed → paletteProblem (allChunks fs) = some e → FileProblem debug U b (.failure (.paletteError e))
  | layerIndex {h header fs frames pre c post} : b = header ++ frames → IsHeader h header → fs ≠ [] →
      Seq (IsFrame U) fs frames → (h.colorDepth = .indexed → paletteProblem (allChunks fs) = none) →
      allCels fs = pre ++ c :: post → (∀ c' ∈ pre, c'.layerIndex.toNat < (allLayers fs).length) →
      (allLayers fs).length < c.layerIndex.toNat → FileProblem debug U b (.failure .layerIndexOutOfBounds)

end Ase.Spec
