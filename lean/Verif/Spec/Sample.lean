import Verif.Spec.Layout

/-!
# Small concrete files for the examples

Used only to show, beside each theorem, that its hypotheses can be met.
-/

namespace Ase.Sample

open Spec

/-- A header for a `w` by `h` sprite of the given colour depth (32, 16 or 8). -/
def header (w h depth : UInt16) (transparent : UInt8 := 0) : Bytes :=
  [0, 0, 0, 0, 0xE0, 0xA5, 1, 0] ++ le16 w ++ le16 h ++ le16 depth ++ List.replicate 14 0 ++ [transparent]
    ++ List.replicate 99 0

/-- A chunk record. -/
def chunk (code : UInt16) (body : Bytes) : Bytes := leNat32 (6 + body.length) ++ le16 code ++ body

/-- A frame record. -/
def frame (duration : UInt16) (chunks : List Bytes) : Bytes :=
  leNat32 (16 + chunks.flatten.length) ++ [0xFA, 0xF1] ++ [0, 0] ++ le16 duration ++ [0, 0] ++ leNat32 chunks.length
    ++ chunks.flatten

/-- A layer chunk: `flags` 1 is visible; type 0 normal, 1 group, 2 tilemap; `name` in ASCII. -/
def layer (flags type blend : UInt16) (opacity : UInt8) (name : Bytes) : Bytes :=
  chunk 0x2004 (le16 flags ++ le16 type ++ [0, 0, 0, 0, 0, 0] ++ le16 blend ++ [opacity, 0, 0, 0]
    ++ leNat16 name.length ++ name ++ if type = 2 then [0, 0, 0, 0] else [])

/-- A raw image cel. -/
def cel (layer x y w h : UInt16) (data : Bytes) : Bytes :=
  chunk 0x2005 (le16 layer ++ le16 x ++ le16 y ++ [255, 0, 0] ++ [0, 0, 0, 0, 0, 0, 0] ++ le16 w ++ le16 h ++ data)

/-- A compressed image cel. -/
def zcel (layer x y w h : UInt16) (data : Bytes) : Bytes :=
  chunk 0x2005 (le16 layer ++ le16 x ++ le16 y ++ [255, 2, 0] ++ [0, 0, 0, 0, 0, 0, 0] ++ le16 w ++ le16 h ++ data)

/-- A linked cel. -/
def link (layer frame : UInt16) : Bytes :=
  chunk 0x2005 (le16 layer ++ [0, 0, 0, 0, 255, 1, 0] ++ [0, 0, 0, 0, 0, 0, 0] ++ le16 frame)

/-- User data with a one character text. -/
def text (c : UInt8) : Bytes := chunk 0x2020 [1, 0, 0, 0, 1, 0, c]

/-- A new-style palette chunk with entries from index `first` on. -/
def palette (first : UInt8) (colors : List Bytes) : Bytes :=
  chunk 0x2019 (leNat32 colors.length ++ leNat32 first.toNat ++ leNat32 (first.toNat + colors.length - 1)
    ++ List.replicate 8 0 ++ (colors.map ([0, 0] ++ ·)).flatten)

/-- A tag. -/
def tag (a z : UInt16) (direction : UInt8) (repeats : UInt16) (name : UInt8) : Bytes :=
  le16 a ++ le16 z ++ [direction] ++ le16 repeats ++ [0, 0, 0, 0, 0, 0] ++ [1, 2, 3] ++ [0] ++ [1, 0, name]

/-- A tags chunk. -/
def tags (ts : List Bytes) : Bytes := chunk 0x2018 (leNat16 ts.length ++ List.replicate 8 0 ++ ts.flatten)

end Ase.Sample
