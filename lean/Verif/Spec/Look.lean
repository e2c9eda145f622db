import Verif.Spec.Render

/-!
# What a picture depends on
-/

namespace Ase.Spec

/-- What matters of a chunk. -/
inductive ChunkLook where
  | layer (layerType : LayerType) (visible : Bool) (blendMode : BlendMode) (opacity : UInt8)
  | cel (layerIndex : UInt16) (x y : Int16) (content : CelContent)
  | palette (first last : UInt8) (colors : List PColor)
  | palette0004 (packets : List Packet)
  | palette0011 (packets : List Packet)
deriving DecidableEq

/-- Layers: type, visibility, blend mode and opacity.  Cels: layer, position and contents.  Palettes: colours.  Of all
other chunks, nothing. -/
def chunkLook : Chunk → Option ChunkLook
  | .layer l => some (.layer l.layerType (l.flags.bits &&& 1 = 1) l.blendMode l.opacity)
  | .cel c => some (.cel c.layerIndex c.x c.y c.content)
  | .palette p => some (.palette p.firstIndex p.lastIndex (p.entries.map (·.color)))
  | .palette0004 p => some (.palette0004 p.packets)
  | .palette0011 p => some (.palette0011 p.packets)
  | _ => none

/-- What matters of a file. -/
structure Look where
  width : UInt16
  height : UInt16
  colorDepth : ColorDepth
  transparentIndex : UInt8
  frames : List (List ChunkLook)
deriving DecidableEq

/-- The size of the canvas, the colour depth, the transparent index, and what matters of the chunks of each frame. -/
def look (raw : RawFile) : Look :=
  { width := raw.header.width, height := raw.header.height, colorDepth := raw.header.colorDepth,
    transparentIndex := raw.header.transparentIndex, frames := raw.frames.map fun f => f.chunks.filterMap chunkLook }

/-- What matters of a chunk, and apart from it the position of a cel. -/
def placed : ChunkLook → ChunkLook × (Int × Int)
  | .cel l x y c => (.cel l 0 0 c, (x.toInt, y.toInt))
  | k => (k, (0, 0))

/-- A cel moved by `dx` to the right and `dy` down. -/
def moved (dx dy : Int) : ChunkLook × (Int × Int) → ChunkLook × (Int × Int)
  | (.cel l a b c, (x, y)) => (.cel l a b c, (x + dx, y + dy))
  | k => k

/-- The second file is the first one with all cels moved by `dx` and `dy`, on a canvas of any size. -/
structure Moved (dx dy : Int) (l l' : Look) : Prop where
  colorDepth : l.colorDepth = l'.colorDepth
  transparentIndex : l.transparentIndex = l'.transparentIndex
  frames : l'.frames.map (·.map placed) = l.frames.map (·.map fun k => moved dx dy (placed k))

instance (dx dy : Int) (l l' : Look) : Decidable (Moved dx dy l l') :=
  decidable_of_iff (l.colorDepth = l'.colorDepth ∧ l.transparentIndex = l'.transparentIndex ∧
      l'.frames.map (·.map placed) = l.frames.map (·.map fun k => moved dx dy (placed k)))
    ⟨fun ⟨a, b, c⟩ => ⟨a, b, c⟩, fun ⟨a, b, c⟩ => ⟨a, b, c⟩⟩

/-- Nothing that can be seen, or measured by a decoder, tells the two apart: the same number of frames and images; every
image is decoded to the same pixels, and every frame rendered to the same picture, with the same error or panic if
there is one, for every selection of layers; the sizes and hashes are the same. -/
structure SamePictures (plat : Plat) (f f' : AsepriteFile) : Prop where
  size : f.size = f'.size
  frames : f.frames.length = f'.frames.length
  images : f.imageCount = f'.imageCount
  decode : ∀ inflate i t, f.loadImage inflate i t = f'.loadImage inflate i t
  render : ∀ inflate i sel t, f.renderFrame plat inflate i sel t = f'.renderFrame plat inflate i sel t
  combined : ∀ inflate hash i t, f.combinedFrameImage plat inflate hash i t = f'.combinedFrameImage plat inflate hash i t

/-- The pictures of the second sprite are those of the first one, moved by `dx` and `dy` and cut off at the edges of its own
canvas: it has as many frames and images; every image is decoded to the same pixels; and if a frame is rendered for both,
with the same selection, on buffers that agree in a pixel (of the first canvas) and the pixel it is moved to (on the
second canvas), then afterwards they still agree there.  If one of them is rendered without a panic so is the other, unless HSL blend modes
in debug builds are involved (for these, whether there is a panic depends on what is on the canvas). -/
structure MovedPictures (plat : Plat) (dx dy : Int) (f f' : AsepriteFile) : Prop where
  frames : f.frames.length = f'.frames.length
  images : f.imageCount = f'.imageCount
  decode : ∀ inflate i t, f.loadImage inflate i t = f'.loadImage inflate i t
  render : ∀ inflate i sel t u t' u', f.renderFrame plat inflate i sel t = (.ok (), u) →
    f'.renderFrame plat inflate i sel t' = (.ok (), u') →
    ∀ x y x' y' : Nat, x < f.size.1.toNat → y < f.size.2.toNat → x' < f'.size.1.toNat → y' < f'.size.2.toNat →
      (x' : Int) = x + dx → (y' : Int) = y + dy →
      canvasPixel f t x y = canvasPixel f' t' x' y' → canvasPixel f u x y = canvasPixel f' u' x' y'
  renders : (plat.debug = false ∨ ∀ layer ∈ f.layers, isHsl layer.blendMode = false) → ∀ inflate i sel (t t' : Bytes),
    f.size.1.toNat * f.size.2.toNat * 4 ≤ t.length → f'.size.1.toNat * f'.size.2.toNat * 4 ≤ t'.length →
    ((f.renderFrame plat inflate i sel t).1 = .ok () ↔ (f'.renderFrame plat inflate i sel t').1 = .ok ())

/-- The cel shows an opaque pixel of colour `front` at `(x, y)`: it is drawn, on a layer of full opacity and mode Normal. -/
def Paints (inflate : Inflater) (f : AsepriteFile) (sel : LayerSelection) (x y : Nat) (c : FrameCel) (front : Color) :
    Prop :=
  ∃ layer p, drawnOn f sel c = some layer ∧ layer.blendMode = .normal ∧ layer.opacity = 255 ∧
    coveredBy c x y = some p ∧ imageColor inflate f c.imageIndex p = some front ∧ front.a = 255

end Ase.Spec
