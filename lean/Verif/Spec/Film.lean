import Verif.Spec.Encode

/-!
# Storing a sequence of pictures

The simplest sprite that shows given pictures: one visible layer, and in every frame one cel that fills the canvas.
Used by the property C90.
-/

namespace Ase.Spec

/-- The header of an RGBA sprite with the given canvas and number of frames. -/
def filmHeader (width height : UInt16) (n : Nat) : Header :=
  { fileSize := 0, frames := UInt16.ofNat n, width, height, colorDepth := .rgba, flags := 1, speed := 100,
    transparentIndex := 0, colorCount := 0, pixelWidth := 1, pixelHeight := 1, gridX := 0, gridY := 0, gridWidth := 0,
    gridHeight := 0 }

/-- The layer: visible, of normal type, blended normally with full opacity. -/
def filmLayer : LayerChunk :=
  { flags := ⟨1⟩, layerType := .normal, childLevel := 0, blendMode := .normal, opacity := 255, name := "film",
    tilesetIndex := none, userData := none }

/-- How the pixels of a picture are stored: as they are, or compressed by some compressor. -/
abbrev Store := Option (Bytes → Bytes)

/-- The cel: it lies at the corner of the canvas and has its size. -/
def filmCel (store : Store) (width height : UInt16) (pixels : Bytes) : CelChunk :=
  { layerIndex := 0, x := 0, y := 0, opacity := 255, zIndex := 0,
    content := .image ⟨width, height, (store.getD id) pixels, store.isSome⟩, userData := none }

/-- The frames, with their durations; the layer is declared in the first one. -/
def filmFrames (store : Store) (width height : UInt16) : List (UInt16 × Bytes) → List RawFrame
  | [] => []
  | p :: ps => ⟨p.1, [.layer filmLayer, .cel (filmCel store width height p.2)]⟩ ::
      ps.map fun p => ⟨p.1, [.cel (filmCel store width height p.2)]⟩

/-- A sprite that shows the given pictures (four bytes red, green, blue, alpha for each pixel, row by row), each for the
given number of milliseconds. -/
def film (store : Store) (width height : UInt16) (pictures : List (UInt16 × Bytes)) : RawFile :=
  ⟨filmHeader width height pictures.length, filmFrames store width height pictures⟩

end Ase.Spec
