import Verif.Spec.Image
import Verif.Spec.Assemble

/-!
# The same sprite with another palette
-/

namespace Ase.Spec

/-- The chunks except for palettes, each with the user data chunks that follow it. -/
def unpaletted (cs : List Chunk) : List (Chunk × List UserDataChunk) :=
  (owned cs).filterMap fun
    | (.palette _, _) | (.palette0004 _, _) | (.palette0011 _, _) => none
    | p => some p

/-- Two indexed files with canvases of the same size and the same frames, except for the palettes: their number, place,
kind and contents, and the transparent index. -/
structure SameButPalette (raw raw' : RawFile) : Prop where
  width : raw.header.width = raw'.header.width
  height : raw.header.height = raw'.header.height
  indexed : raw.header.colorDepth = .indexed
  indexed' : raw'.header.colorDepth = .indexed
  frames : raw.frames.map (fun f => (f.duration, unpaletted f.chunks)) =
    raw'.frames.map fun f => (f.duration, unpaletted f.chunks)

/-- Colour number `v` of a palette. -/
def Palette.entry (pal : Palette) (v : UInt8) : Color :=
  match pal.colors[v.toNat]? with
  | some c => ⟨c.red, c.green, c.blue, c.alpha⟩
  | none => ⟨0, 0, 0, 0⟩

/-- The pixels with the given colour numbers, as RGBA bytes. -/
def Palette.paint (pal : Palette) (indices : Bytes) : Bytes :=
  indices.flatMap fun v => [(Palette.entry pal v).r, (Palette.entry pal v).g, (Palette.entry pal v).b, (Palette.entry pal v).a]

end Ase.Spec
