import Verif.Spec.UserData

/-!
# Layout of chunks, frames and files

`U u body` says what it means for the body of a user data chunk to be read as `u`; everything else is fixed.
-/

namespace Ase.Spec

/-- The body of a chunk starts with the layout; surplus bytes are ignored. -/
def StartsWith {α : Type} (G : α → Bytes → Prop) (x : α) (body : Bytes) : Prop :=
  ∃ l extra, G x l ∧ body = l ++ extra

/-- What a chunk with type `code` and the given body (everything after the type) contains. -/
def IsContent (U : UserDataChunk → Bytes → Prop) (c : Chunk) (code : UInt16) (body : Bytes) : Prop :=
  match c with
  | .palette0004 x => code = 0x0004 ∧ StartsWith IsOldPalette x body
  | .palette0011 x => code = 0x0011 ∧ StartsWith IsOldPalette x body
  | .layer x => code = 0x2004 ∧ StartsWith IsLayer x body
  | .cel x => code = 0x2005 ∧ IsCel { x with content := swapFlips x.content } body
  | .celExtra x => code = 0x2006 ∧ IsCelExtra x body
  | .colorProfile x => code = 0x2007 ∧ StartsWith IsColorProfile x body
  | .externalFiles x => code = 0x2008 ∧ StartsWith IsExternalFiles x body
  | .mask x => code = 0x2016 ∧ IsMask x body
  | .path => code = 0x2017
  | .tags x => code = 0x2018 ∧ StartsWith IsTags x body
  | .palette x => code = 0x2019 ∧ StartsWith (fun c => IsPalette c.entries.length c) x body
  | .userData x => code = 0x2020 ∧ U x body
  | .slice x => code = 0x2022 ∧ StartsWith IsSlice x body
  | .tileset x => code = 0x2023 ∧ StartsWith IsTileset x body
  | .unsupported n => chunkTypes.lookup code = none ∧ n = code

/-- A chunk record: its total size in bytes, its type, its body. -/
def IsChunk (U : UserDataChunk → Bytes → Prop) (c : Chunk) (l : Bytes) : Prop :=
  ∃ (code : UInt16) (body : Bytes), 6 + body.length < 2 ^ 32 ∧ IsContent U c code body ∧
    l = leNat32 (6 + body.length) ++ le16 code ++ body

/-- The number of chunks of a frame: the new DWORD field, or the old WORD field if the new one is zero. -/
def chunkCount (old : UInt16) (new : UInt32) : Nat := if new = 0 then old.toNat else new.toNat

/-- A frame record: its total size in bytes, magic number 0xF1FA, old chunk count, duration, two reserved bytes, new
chunk count, the chunks; surplus bytes up to the size are ignored. -/
def IsFrame (U : UserDataChunk → Bytes → Prop) (f : RawFrame) (l : Bytes) : Prop :=
  ∃ (old : UInt16) (new : UInt32) (reserved chunks extra : Bytes), reserved.length = 2 ∧
    f.chunks.length = chunkCount old new ∧ Seq (IsChunk U) f.chunks chunks ∧
    16 + chunks.length + extra.length < 2 ^ 32 ∧
    l = leNat32 (16 + chunks.length + extra.length) ++ [0xFA, 0xF1] ++ le16 old ++ le16 f.duration ++ reserved
      ++ le32 new ++ chunks ++ extra

/-- A file: a header, then one or more frames, and nothing else. -/
def IsFile (U : UserDataChunk → Bytes → Prop) (f : RawFile) (l : Bytes) : Prop :=
  ∃ header frames, IsHeader f.header header ∧ f.frames ≠ [] ∧ Seq (IsFrame U) f.frames frames ∧ l = header ++ frames

/-- The meaning of user data chunk bodies for the crate (properties C16 and C17 say what this is). -/
def readsUserData (plat : Plat) (u : UserDataChunk) (body : Bytes) : Prop :=
  ∃ extra, parseUserDataChunk plat body = .ok (extra, u)

end Ase.Spec
