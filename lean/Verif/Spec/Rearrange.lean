import Verif.Spec.Shown

/-!
# Files whose frames are those of another file, in another order
-/

namespace Ase.Spec

/-- The contents of a cel in a file with `n` frames, where frame number `j` is the frame number `source j` of another file:
a link goes to a frame that is the one the other link goes to, anything else is the same. -/
def Relinked (source : Nat → Nat) (n : Nat) : CelContent → CelContent → Prop
  | .linkedCel k, .linkedCel k' => k'.toNat < n ∧ source k'.toNat = k.toNat
  | c, c' => c = c'

/-- There is a cel in neither file, or in both: at the same position, and with the same contents up to the numbering of
frames. -/
def RelinkedCel (source : Nat → Nat) (n : Nat) : Option CelChunk → Option CelChunk → Prop
  | none, none => True
  | some c, some c' => c'.x = c.x ∧ c'.y = c.y ∧ Relinked source n c.content c'.content
  | _, _ => False

/-- The files have the same canvas, layers and palettes, and frame `j` of the second one has the cels of frame `source j` of
the first one, with the links renumbered.  So the second file has frames of the first one, in any order, any number of
times; some may have been left out, but none that are linked to. -/
structure Rearranged (source : Nat → Nat) (raw raw' : RawFile) : Prop where
  stage : stage raw = stage raw'
  frames : ∀ j < raw'.frames.length, source j < raw.frames.length
  cels : ∀ j < raw'.frames.length, ∀ l,
    RelinkedCel source raw'.frames.length (Doc.celOf raw (source j) l) (Doc.celOf raw' j l)

end Ase.Spec
