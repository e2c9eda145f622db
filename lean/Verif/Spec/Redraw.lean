import Verif.Spec.Shown

/-!
# Files that differ in one cel
-/

namespace Ase.Spec

/-- The cels of a frame, number `j`, except those on layer `l` if it is frame `i`. -/
def otherCels (i l j : Nat) (fr : RawFrame) : List (UInt16 × Int16 × Int16 × CelContent) :=
  ((Doc.cels fr).filter fun c => ¬ (j = i ∧ c.layerIndex.toNat = l)).map celLook

/-- The files have the same layers, palettes and canvas, as many frames, and the same cels except on layer `l` in frame
`i`: there a cel was changed in any way, or added, or removed. -/
structure Redrawn (i l : Nat) (raw raw' : RawFile) : Prop where
  stage : stage raw = stage raw'
  frames : raw.frames.length = raw'.frames.length
  others : ∀ (j : Nat) (fr fr' : RawFrame), raw.frames[j]? = some fr → raw'.frames[j]? = some fr' →
    otherCels i l j fr = otherCels i l j fr'

/-- What is shown (an image at a position) lies on the canvas pixel `(x, y)`. -/
def LiesOn (s : Int16 × Int16 × Image) (x y : Nat) : Prop :=
  s.1.toInt ≤ x ∧ (x : Int) < s.1.toInt + s.2.2.width.toNat ∧
  s.2.1.toInt ≤ y ∧ (y : Int) < s.2.1.toInt + s.2.2.height.toNat

instance (s : Int16 × Int16 × Image) (x y : Nat) : Decidable (LiesOn s x y) := by unfold LiesOn; infer_instance

end Ase.Spec
