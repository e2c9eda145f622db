import Verif.Spec.Image
import Verif.Spec.Assemble
import Verif.Spec.Sample

/-!
# Colour modes

When images in different colour modes (RGBA, grayscale, indexed) or with different palettes show the same colours, and when
two files differ only in how colours are stored.
-/

namespace Ase.Spec

/-- Image `im` of sprite `f` and image `im'` of sprite `g` have the same size and, pixel by pixel, show the same colour, each
in the colour mode and with the palette of its own sprite, whether the pixels are stored as they are or compressed. -/
structure ShowSame (inflate : Inflater) (f g : AsepriteFile) (im im' : Image) : Prop where
  width : im.width = im'.width
  height : im.height = im'.height
  known : ∀ n, f.file.header.colorDepth ≠ .unknown n
  known' : ∀ n, g.file.header.colorDepth ≠ .unknown n
  colors : ∃ raw raw',
    raw.length = pixelCount im * bytesPerPixel f.file.header.colorDepth ∧
    raw'.length = pixelCount im' * bytesPerPixel g.file.header.colorDepth ∧
    Stored inflate im raw.length raw ∧ Stored inflate im' raw'.length raw' ∧
    ∀ p, p < pixelCount im → ∃ c, storedPixel f.file.header.colorDepth f.file.palette raw p = some c ∧
      storedPixel g.file.header.colorDepth g.file.palette raw' p = some c

/-- The pixels converted to RGBA, one after the other. -/
def convertRgba (depth : ColorDepth) (palette : Option Palette) (count : Nat) (raw : Bytes) : Bytes :=
  (List.range count).flatMap fun p =>
    match storedPixel depth palette raw p with
    | some c => [c.r, c.g, c.b, c.a]
    | none => []

/-- The chunk without the colours of the image, if it is a cel with an image. -/
def withoutPixels : Chunk → Chunk
  | .cel c =>
    match c.content with
    | .image im => .cel { c with content := .image { im with data := [], compressed := false } }
    | _ => .cel c
  | c => c

/-- The chunks except for palettes, each without pixels and with the user data chunks that follow it. -/
def uncolored (cs : List Chunk) : List (Chunk × List UserDataChunk) :=
  (owned cs).filterMap fun
    | (.palette _, _) | (.palette0004 _, _) | (.palette0011 _, _) => none
    | (c, us) => some (withoutPixels c, us)

/-- The files have a canvas of the same size and the same frames, except for palettes and the pixels of images.  Nothing
is said about the colour mode. -/
structure SameButColors (raw raw' : RawFile) : Prop where
  width : raw.header.width = raw'.header.width
  height : raw.header.height = raw'.header.height
  frames : raw.frames.map (fun f => (f.duration, uncolored f.chunks)) =
    raw'.frames.map fun f => (f.duration, uncolored f.chunks)

end Ase.Spec
