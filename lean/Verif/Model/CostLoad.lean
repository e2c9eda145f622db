import Verif.Model.Cost

/-!
# What a run costs: `src/binary/palette.rs`, `file.rs` and `load` of `src/loader/mod.rs`

See `Model/Cost` for what counts as a step.  Copying a text takes one step per byte; looking up or inserting
a key of a `HashMap` and moving a value take no step of their own.
-/

namespace Ase.Timed

/-- A result together with the number of steps it took. -/
def S (ε α : Type) : Type := Nat × Outcome ε α

namespace S

/-- a value, no step -/
def pure {ε α : Type} (a : α) : S ε α := (0, .ok a)

/-- sequencing; `?` and panics stop -/
def bind {ε α β : Type} (x : S ε α) (f : α → S ε β) : S ε β :=
  match x with
  | (t, .ok a) => (t + (f a).1, (f a).2)
  | (t, .err e) => (t, .err e)
  | (t, .panic k) => (t, .panic k)

instance {ε : Type} : Monad (S ε) where
  pure := S.pure
  bind := S.bind

/-- `n` steps -/
def tick {ε : Type} (n : Nat) : S ε Unit := (n, .ok ())

/-- an outcome that takes no step of its own -/
def lift {ε α : Type} (x : Outcome ε α) : S ε α := (0, x)

end S

/-- `n` more steps -/
def more {α : Type} (n : Nat) (x : Nat × α) : Nat × α := (n + x.1, x.2)

/-! ## `palette.rs` -/

/-- palette.rs:87-90: one step per turn -/
def storeEntries (p : Palette) (ok : Bool) :
    List PaletteEntry → (idx : Nat) → (last : Nat) → S PaletteError (Palette × Bool)
  | [], _, _ => pure (p, ok)
  | e :: es, idx, last =>
    if idx ≤ last then do
      S.tick 1
      let p ← S.lift (p.setColor idx e.color)
      storeEntries p true es (idx + 1) last
    else pure (p, ok)

/-- palette.rs:83-91: one step per chunk -/
def storePaletteChunks (p : Palette) (ok : Bool) : List PaletteChunk → S PaletteError (Palette × Bool)
  | [] => pure (p, ok)
  | c :: cs => do
    S.tick 1
    let (p, ok) ← storeEntries p ok c.entries c.firstIndex.toNat c.lastIndex.toNat
    storePaletteChunks p ok cs

/-- palette.rs:77-98 -/
def processPaletteChunks (transparentIndex : UInt8) (chunks : List PaletteChunk) (p : Palette) :
    S PaletteError Palette := do
  let (p, ok) ← storePaletteChunks p false chunks
  if ok then S.lift (p.setTransparent transparentIndex.toNat) else S.lift (.err .empty)

/-- palette.rs:113-122: one step per colour -/
def storeColors (p : Palette) (ok : Bool) (idx : Nat) : List RGB → S PaletteError (Palette × Bool × Nat)
  | [] => pure (p, ok, idx)
  | c :: cs => do
    S.tick 1
    let p ← S.lift (p.setColor idx ⟨c.red, c.green, c.blue, 255⟩)
    storeColors p true (idx + 1) cs

/-- palette.rs:108-123: one step per packet -/
def storePackets (p : Palette) (ok : Bool) (idx : Nat) : List Packet → S PaletteError (Palette × Bool)
  | [] => pure (p, ok)
  | k :: ks => do
    S.tick 1
    if idx + k.entriesToSkip.toNat + k.colors.length > 256 then S.lift (.err .indexOutOfBounds)
    else do
      let (p, ok, idx) ← storeColors p ok (idx + k.entriesToSkip.toNat) k.colors
      storePackets p ok idx ks

/-- palette.rs:106-124: one step per chunk -/
def storeOldChunks (p : Palette) (ok : Bool) : List OldPaletteChunk → S PaletteError (Palette × Bool)
  | [] => pure (p, ok)
  | c :: cs => do
    S.tick 1
    let (p, ok) ← storePackets p ok 0 c.packets
    storeOldChunks p ok cs

/-- palette.rs:100-131 -/
def processOldPaletteChunks (transparentIndex : UInt8) (chunks : List OldPaletteChunk) (p : Palette) :
    S PaletteError Palette := do
  let (p, ok) ← storeOldChunks p false chunks
  if ok then S.lift (p.setTransparent transparentIndex.toNat) else S.lift (.err .empty)

/-- palette.rs:26-37, 42-53, 58-69: one look at every frame and every chunk -/
def scan (frames : List RawFrame) : Nat := (frames.map fun f => 1 + f.chunks.length).sum

/-- palette.rs:24-75: up to three scans -/
def createPalette (header : Header) (frames : List RawFrame) : S PaletteError Palette := do
  S.tick (scan frames)
  if !(paletteChunks frames).isEmpty then
    processPaletteChunks header.transparentIndex (paletteChunks frames) .default
  else do
    S.tick (scan frames)
    if !(palette0004Chunks frames).isEmpty then
      processOldPaletteChunks header.transparentIndex (palette0004Chunks frames) .default
    else do
      S.tick (scan frames)
      if !(palette0011Chunks frames).isEmpty then
        processOldPaletteChunks header.transparentIndex (palette0011Chunks frames) .default
      else S.lift (.err .missing)

/-! ## `file.rs` -/

/-- file.rs:74-79: one step per turn -/
def attachTags : List Tag → List Chunk → Nat × (List Tag × List Chunk)
  | [], chunks => (0, ([], chunks))
  | t :: ts, chunks =>
    match nextUserData chunks with
    | (some u, rest) =>
      let r := attachTags ts rest
      (1 + r.1, ({ t with userData := some u } :: r.2.1, r.2.2))
    | (none, rest) => (1, ({ t with userData := none } :: ts, rest))

theorem attachTags_erase (ts : List Tag) (cs : List Chunk) : (attachTags ts cs).2 = Ase.attachTags ts cs := by
  induction ts generalizing cs with
  | nil => rfl
  | cons t ts ih =>
    unfold attachTags Ase.attachTags
    rcases nextUserData cs with ⟨_ | u, rest⟩
    · rfl
    · simp only [ih rest]

/-- file.rs:48-90: one step per turn, and one per tag for handing over the tags -/
def collectChunks (first : Bool) (acc : Collected) (chunks : List Chunk) : Nat × Collected :=
  match chunks with
  | [] => (0, acc)
  | .palette0004 _ :: rest | .palette0011 _ :: rest | .palette _ :: rest =>
    if first && acc.userData.isNone then
      more 1 (collectChunks first { acc with userData := (nextUserData rest).1 } (nextUserData rest).2)
    else more 1 (collectChunks first acc rest)
  | .layer l :: rest =>
    more 1 (collectChunks first
      { acc with layers := acc.layers ++ [{ l with userData := (nextUserData rest).1 }] }
      (nextUserData rest).2)
  | .cel c :: rest =>
    more 1 (collectChunks first
      { acc with cels := acc.cels ++ [{ c with userData := (nextUserData rest).1 }] }
      (nextUserData rest).2)
  | .celExtra _ :: rest => more 1 (collectChunks first acc rest)
  | .colorProfile _ :: rest => more 1 (collectChunks first acc rest)
  | .externalFiles _ :: rest => more 1 (collectChunks first acc rest)
  | .mask _ :: rest => more 1 (collectChunks first acc rest)
  | .path :: rest => more 1 (collectChunks first acc rest)
  | .tags t :: rest =>
    more (1 + (attachTags t.tags rest).1 + t.tags.length)
      (collectChunks first { acc with tags := acc.tags ++ (attachTags t.tags rest).2.1 }
        (attachTags t.tags rest).2.2)
  | .userData _ :: rest => more 1 (collectChunks first acc rest)
  | .slice s :: rest =>
    more 1 (collectChunks first
      { acc with slices := acc.slices ++ [{ s with userData := (nextUserData rest).1 }] }
      (nextUserData rest).2)
  | .tileset _ :: rest => more 1 (collectChunks first acc rest)
  | .unsupported _ :: rest => more 1 (collectChunks first acc rest)
termination_by chunks.length
decreasing_by
  all_goals simp only [List.length_cons]
  all_goals first
    | omega
    | (have := nextUserData_length rest; omega)
    | (have := attachTags_length t.tags rest; rw [← attachTags_erase] at this; omega)

/-- file.rs:45-92: one step per frame -/
def collectFrames (acc : Collected) (done : List (UInt16 × List CelChunk)) :
    List RawFrame → Nat × (Collected × List (UInt16 × List CelChunk))
  | [] => (0, (acc, done))
  | f :: fs =>
    let r := collectChunks done.isEmpty { acc with cels := [] } f.chunks
    more (1 + r.1) (collectFrames r.2 (done ++ [(f.duration, r.2.cels)]) fs)

/-- file.rs:105-111: one step per cel -/
def placeCels (nLayers : Nat) (slots : List (Option CelChunk)) :
    List CelChunk → S NomErr (List (Option CelChunk))
  | [] => pure slots
  | c :: cs => do
    S.tick 1
    let layerIndex := c.layerIndex.toNat
    if layerIndex > nLayers then S.lift (.err (.failure .layerIndexOutOfBounds))
    else if layerIndex < slots.length then placeCels nLayers (slots.set layerIndex (some c)) cs
    else S.lift (.panic .indexOutOfBounds)

/-- file.rs:93-116: one step per frame, one per slot -/
def buildFrames (nLayers : Nat) : List (UInt16 × List CelChunk) → S NomErr (List Frame)
  | [] => pure []
  | (duration, frameCels) :: rest => do
    S.tick (1 + nLayers)
    let cels ← placeCels nLayers (List.replicate nLayers none) frameCels
    let frames ← buildFrames nLayers rest
    pure ({ duration, cels } :: frames)

/-- file.rs:33-39 -/
def filePalette (raw : RawFile) : S NomErr (Option Palette) :=
  match raw.header.colorDepth with
  | .indexed =>
    match createPalette raw.header raw.frames with
    | (t, .ok p) => (t, .ok (some p))
    | (t, .err e) => (t, .err (.failure (.paletteError e)))
    | (t, .panic k) => (t, .panic k)
  | _ => pure none

/-- file.rs:33-125 -/
def assembleFile (raw : RawFile) : S NomErr File := do
  let palette ← filePalette raw
  let r := collectFrames ⟨[], [], [], none, []⟩ [] raw.frames
  S.tick r.1
  let frames ← buildFrames r.2.1.layers.length r.2.2
  pure { header := raw.header, palette, layers := r.2.1.layers, frames, tags := r.2.1.tags,
         slices := r.2.1.slices, userData := r.2.1.userData }

/-- file.rs:31-126 -/
def parseFile (plat : Plat) (input : Bytes) : S NomErr File := do
  let raw ← parseRawFile plat input
  assembleFile raw

/-! ## `load` -/

/-- the length of a text in bytes -/
def textBytes (s : String) : Nat := (s.toList.map Char.utf8Size).sum

/-- mod.rs:134-150: a look at every layer, and its name is copied if it is kept -/
def layerSteps (layers : List LayerChunk) : Nat :=
  (layers.map fun l => 1 + match toLLayer l with | some l' => textBytes l'.name | none => 0).sum

/-- mod.rs:155-163: a look at every slot of every frame -/
def imageSteps (frames : List Frame) : Nat := (frames.map fun f => 1 + f.cels.length).sum

/-- mod.rs:168-179: every tag, and its name is copied -/
def tagSteps (tags : List Tag) : Nat := (tags.map fun t => 1 + textBytes (toLTag t).name).sum

/-- mod.rs:182-208: a look at every slot -/
def toFrameCels (images : List Image) (imageMap : ImageMap) (index : Nat) :
    List (Option CelChunk) → S LoadSpriteError (List FrameCel)
  | [] => pure []
  | none :: cels => do
    S.tick 1
    toFrameCels images imageMap index cels
  | some cel :: cels => do
    S.tick 1
    let c ← S.lift (toFrameCel images imageMap index cel)
    let cs ← toFrameCels images imageMap index cels
    pure (c :: cs)

/-- mod.rs:181-215: one step per frame -/
def toLFrames (images : List Image) (imageMap : ImageMap) (index : Nat) :
    List Frame → S LoadSpriteError (List LFrame)
  | [] => pure []
  | frame :: frames => do
    S.tick 1
    let cels ← toFrameCels images imageMap index frame.cels
    let rest ← toLFrames images imageMap (index + 1) frames
    pure ({ duration := frame.duration, origin := (0, 0), cels } :: rest)

/-- mod.rs:134-223 -/
def ofFile (file : File) : S LoadSpriteError AsepriteFile := do
  S.tick (layerSteps file.layers)
  let layers := file.layers.filterMap toLLayer
  S.tick (imageSteps file.frames)
  let r := collectImages 0 ([], []) file.frames
  S.tick (tagSteps file.tags)
  let tags := file.tags.map toLTag
  let frames ← toLFrames r.1 r.2 0 file.frames
  pure { file, layers, frames, tags, images := r.1 }

/-- mod.rs:130-224.  (Building the message of a parse error is not counted.) -/
def load (plat : Plat) (data : Bytes) : S LoadSpriteError AsepriteFile :=
  match parseFile plat data with
  | (t, .ok file) => more t (ofFile file)
  | (t, .err e) => (t, .err (.parse e))
  | (t, .panic k) => (t, .panic k)

end Ase.Timed
