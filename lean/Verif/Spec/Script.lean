import Verif.Spec.OneFile

/-!
# Composite animations

Used by the property C141.  A script says for every frame of an animation how long it is shown and which frame of each of
some sprites is shown in it, if any.
-/

namespace Ase.Spec

/-- For every frame its duration and for every sprite the number of the frame it shows, if any. -/
abbrev Script := List (UInt16 × List (Option Nat))

/-- The frame a sprite shows; a number too large stands for none. -/
def pageOf (x : AsepriteFile × Option Nat) : AsepriteFile × Nat := (x.1, x.2.getD x.1.frames.length)

/-- Every frame of the script says something about every sprite, and names only frames they have. -/
def PlayableBy (script : Script) (sprites : List AsepriteFile) : Prop :=
  ∀ fr ∈ script, fr.2.length = sprites.length ∧ ∀ x ∈ sprites.zip fr.2, ∀ i, x.2 = some i → i < x.1.frames.length

instance (script : Script) (sprites : List AsepriteFile) : Decidable (PlayableBy script sprites) :=
  have : ∀ x : AsepriteFile × Option Nat, Decidable (∀ i, x.2 = some i → i < x.1.frames.length) := fun x =>
    match h : x.2 with
    | none => isTrue (by simp)
    | some i => if hi : i < x.1.frames.length then isTrue (by simpa using hi) else isFalse (by simpa using hi)
  by unfold PlayableBy; infer_instance

/-- The calls that draw a frame of the script: the frames of the sprites, each with its selection of layers. -/
def callsFor (p : Plat) (inflate : Inflater) (qs : List (AsepriteFile × LayerSelection)) (choice : List (Option Nat)) :
    List (Buf Unit) :=
  (qs.zip choice).filterMap fun x => x.2.map fun i => x.1.1.renderFrame p inflate i x.1.2

/-- Which of all the layers are selected if from every sprite some are selected. -/
def spriteMask (qs : List (AsepriteFile × LayerSelection)) : List Bool :=
  qs.flatMap fun q => q.1.layers.zipIdx.map fun x => decide (Selects q.2 x.2 x.1)

end Ase.Spec
