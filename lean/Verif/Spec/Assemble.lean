import Verif.Model.File

/-!
# What a `File` contains, in terms of the frames and chunks of the file

Used by the properties C06, C21 to C26 and C13, C28.
-/

namespace Ase.Spec

/-! ## User data and its owners -/

/-- The user data chunks directly at the front of a list of chunks. -/
def run : List Chunk → List UserDataChunk
  | .userData u :: cs => u :: run cs
  | _ => []

/-- Every chunk that is not a user data chunk, in order, with the user data chunks directly following it. -/
def owned : List Chunk → List (Chunk × List UserDataChunk)
  | [] => []
  | .userData _ :: cs => owned cs
  | c :: cs => (c, run cs) :: owned cs

/-- The layers: a layer takes the first of the user data chunks directly following it. -/
def layersOf (cs : List Chunk) : List LayerChunk :=
  (owned cs).filterMap fun | (.layer l, us) => some { l with userData := us.head? } | _ => none

/-- The cels, likewise. -/
def celsOf (cs : List Chunk) : List CelChunk :=
  (owned cs).filterMap fun | (.cel c, us) => some { c with userData := us.head? } | _ => none

/-- The slices, likewise. -/
def slicesOf (cs : List Chunk) : List SliceChunk :=
  (owned cs).filterMap fun | (.slice s, us) => some { s with userData := us.head? } | _ => none

/-- The tags: the `i`-th user data chunk directly following a tags chunk belongs to its `i`-th tag. -/
def tagsOf (cs : List Chunk) : List Tag :=
  (owned cs).flatMap fun
    | (.tags t, us) => t.tags.mapIdx fun i tag => { tag with userData := us[i]? }
    | _ => []

/-- The sprite's user data: the first user data chunk directly following a palette chunk. -/
def spriteUserData (cs : List Chunk) : Option UserDataChunk :=
  (owned cs).findSome? fun
    | (.palette0004 _, us) | (.palette0011 _, us) | (.palette _, us) => us.head?
    | _ => none

/-! ## Cel slots -/

/-- The last cel of the list that belongs to layer `i`. -/
def slot (cels : List CelChunk) (i : Nat) : Option CelChunk :=
  (cels.filter fun c => c.layerIndex.toNat = i).getLast?

/-- All cels of a file in file order. -/
def allCels (frames : List RawFrame) : List CelChunk := frames.flatMap fun f => celsOf f.chunks

/-- All layers of a file in file order. -/
def allLayers (frames : List RawFrame) : List LayerChunk := frames.flatMap fun f => layersOf f.chunks

/-! ## Palettes -/

/-- The colours `cs` written to consecutive indices starting at `i`. -/
def writesAt (i : Nat) (cs : List PColor) : List (Nat × PColor) := (List.range' i cs.length).zip cs

/-- A new-style palette chunk writes its entries to the indices `first..=last`; entries beyond that range are
ignored. -/
def newWrites (c : PaletteChunk) : List (Nat × PColor) :=
  writesAt c.firstIndex.toNat ((c.entries.map (·.color)).take (c.lastIndex.toNat + 1 - c.firstIndex.toNat))

/-- An opaque colour. -/
def opaqueColor (c : RGB) : PColor := ⟨c.red, c.green, c.blue, 255⟩

/-- The packets of an old-style palette chunk; each first skips a number of indices after the previous one. -/
def packetWrites (i : Nat) : List Packet → List (Nat × PColor)
  | [] => []
  | k :: ks =>
    writesAt (i + k.entriesToSkip.toNat) (k.colors.map opaqueColor)
      ++ packetWrites (i + k.entriesToSkip.toNat + k.colors.length) ks

/-- Every packet ends within the 256 palette entries. -/
def packetsFit (i : Nat) : List Packet → Bool
  | [] => true
  | k :: ks =>
    decide (i + k.entriesToSkip.toNat + k.colors.length ≤ 256)
      && packetsFit (i + k.entriesToSkip.toNat + k.colors.length) ks

/-- The colour written last to index `i`, transparent black if there is none. -/
def lastWrite (ws : List (Nat × PColor)) (i : Nat) : PColor :=
  (((ws.filter fun w => w.1 = i).getLast?).map (·.2)).getD ⟨0, 0, 0, 0⟩

/-- The 256 colours after the writes, with the entry at the transparent index made transparent. -/
def paletteOf (transparent : UInt8) (ws : List (Nat × PColor)) : Palette :=
  ⟨(List.range 256).map fun i =>
    if i = transparent.toNat then { lastWrite ws i with alpha := 0 } else lastWrite ws i⟩

/-- The chunks of all frames in file order. -/
def allChunks (frames : List RawFrame) : List Chunk := frames.flatMap (·.chunks)

/-- The new-style palette chunks among the chunks. -/
def newPalettes (cs : List Chunk) : List PaletteChunk := cs.filterMap fun | .palette c => some c | _ => none
/-- The old palette chunks 0x0004. -/
def oldPalettes4 (cs : List Chunk) : List OldPaletteChunk := cs.filterMap fun | .palette0004 c => some c | _ => none
/-- The old palette chunks 0x0011. -/
def oldPalettes11 (cs : List Chunk) : List OldPaletteChunk := cs.filterMap fun | .palette0011 c => some c | _ => none

/-- The old-style palette chunks that count: those of type 0x0004 if there are any, else those of type 0x0011. -/
def oldPalettes (cs : List Chunk) : List OldPaletteChunk :=
  if oldPalettes4 cs ≠ [] then oldPalettes4 cs else oldPalettes11 cs

/-- All writes to the palette in file order: those of the new-style chunks if there are any, else those of the
old-style chunks. -/
def paletteWrites (cs : List Chunk) : List (Nat × PColor) :=
  if newPalettes cs ≠ [] then (newPalettes cs).flatMap newWrites
  else (oldPalettes cs).flatMap fun c => packetWrites 0 c.packets

/-- What is wrong with the palette chunks of an indexed file, if anything: there are none, an old-style chunk in use
writes past the last entry, or no colour is written. -/
def paletteProblem (cs : List Chunk) : Option PaletteError :=
  if newPalettes cs = [] ∧ oldPalettes cs = [] then some .missing
  else if newPalettes cs = [] ∧ ¬ (oldPalettes cs).all (packetsFit 0 ·.packets) then some .indexOutOfBounds
  else if paletteWrites cs = [] then some .empty
  else none

/-! ## Sizes -/

/-- The number of elements of the lists inside a chunk. -/
def chunkItems : Chunk → Nat
  | .palette0004 c | .palette0011 c => c.packets.length + (c.packets.map (·.colors.length)).sum
  | .externalFiles c => c.files.length
  | .tags c => c.tags.length
  | .palette c => c.entries.length
  | .slice c => c.sliceKeys.length
  | .mask c => c.data.length
  | .cel c =>
    match c.content with
    | .image i => i.data.length
    | .compressedTilemap _ _ _ _ _ _ _ data => data.length
    | .unknown _ data => data.length
    | .linkedCel _ => 0
  | .tileset c => (c.tiles.getD []).length
  | _ => 0

end Ase.Spec
