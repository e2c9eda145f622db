import Verif.Spec.Look
import Verif.Spec.Reference

/-!
# What a frame of a file shows
-/

namespace Ase.Spec

/-- What frame `i` shows on layer `l`: the position of the cel, and its own image or that of the frame it links to. -/
def shown (raw : RawFile) (i l : Nat) : Option (Int16 × Int16 × Image) :=
  (Doc.celOf raw i l).bind fun c => (Doc.imageOf raw l c).map fun im => (c.x, c.y, im)

/-- What matters of a chunk that is not a cel. -/
def setting : Chunk → Option ChunkLook
  | .cel _ => none
  | c => chunkLook c

/-- Everything that matters for pictures and is not a cel: the size of the canvas, the colour depth, the transparent index,
and the layers (type, visibility, blend mode, opacity) and palettes of the whole file in file order, in whatever frames
they are. -/
structure Stage where
  width : UInt16
  height : UInt16
  colorDepth : ColorDepth
  transparentIndex : UInt8
  chunks : List ChunkLook
deriving DecidableEq

/-- The stage of a file. -/
def stage (raw : RawFile) : Stage :=
  { width := raw.header.width, height := raw.header.height, colorDepth := raw.header.colorDepth,
    transparentIndex := raw.header.transparentIndex,
    chunks := (allChunks raw.frames).filterMap setting }

/-- What matters of a cel: layer, position and contents. -/
def celLook (c : CelChunk) : UInt16 × Int16 × Int16 × CelContent := (c.layerIndex, c.x, c.y, c.content)

/-- The cel with a copy of the image it links to, if it links to one. -/
def withImage (raw : RawFile) (c : CelChunk) : CelChunk :=
  match c.content, Doc.imageOf raw c.layerIndex.toNat c with
  | .linkedCel _, some im => { c with content := .image im }
  | _, _ => c

/-! ## What is drawn -/

/-- What matters of a palette chunk; nothing of other chunks. -/
def paletteLook : Chunk → Option ChunkLook
  | .layer _ => none
  | .cel _ => none
  | c => chunkLook c

/-- What frames are drawn on, and with which colours: size, colour depth, transparent index and palettes. -/
structure Canvas where
  width : UInt16
  height : UInt16
  colorDepth : ColorDepth
  transparentIndex : UInt8
  palettes : List ChunkLook
deriving DecidableEq

/-- The canvas of a file. -/
def canvas (raw : RawFile) : Canvas :=
  { width := raw.header.width, height := raw.header.height, colorDepth := raw.header.colorDepth,
    transparentIndex := raw.header.transparentIndex, palettes := (allChunks raw.frames).filterMap paletteLook }

/-- One image to be drawn: where, and with which blend mode and opacity. -/
structure Drawing where
  x : Int16
  y : Int16
  image : Image
  blendMode : BlendMode
  opacity : UInt8
deriving DecidableEq

/-- The layer number `l` of a file is a normal layer and selected. -/
def drawsLayer (sel : LayerSelection) (l : Nat) (c : LayerChunk) : Bool :=
  c.layerType = .normal && match sel with
    | .visible => decide (c.flags.bits &&& 1 = 1)
    | .all => true
    | .mask m => m[l]? = some true

/-- What frame `i` draws, from the bottom to the top: what it shows on its normal, selected layers. -/
def drawings (raw : RawFile) (sel : LayerSelection) (i : Nat) : List Drawing :=
  (List.range (Doc.layers raw).length).filterMap fun l =>
    match (Doc.layers raw)[l]?, shown raw i l with
    | some c, some (x, y, im) => if drawsLayer sel l c then some ⟨x, y, im, c.blendMode, c.opacity⟩ else none
    | _, _ => none

/-- What matters of a layer: type, visibility, blend mode and opacity. -/
def layerLook (c : LayerChunk) : LayerType × Bool × BlendMode × UInt8 :=
  (c.layerType, c.flags.bits &&& 1 = 1, c.blendMode, c.opacity)

/-- The number of layer `l` after a layer was inserted at place `m`. -/
def shifted (m l : Nat) : Nat := if l < m then l else l + 1

/-- There are only normal layers and groups.  (For files with tilemap layers the crate takes the layers by wrong numbers,
see C34.) -/
def NoTilemaps (raw : RawFile) : Prop := ∀ c ∈ Doc.layers raw, c.layerType = .normal ∨ c.layerType = .group

instance (raw : RawFile) : Decidable (NoTilemaps raw) := by unfold NoTilemaps; infer_instance

end Ase.Spec
