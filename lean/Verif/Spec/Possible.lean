import Verif.Spec.Loader
import Verif.Spec.Layout
import Verif.Model.Loader

/-!
# Which sprites can be loaded (C129)
-/

namespace Ase.Spec

/-- What the API shows of a loaded sprite: `size()`, the colour depth, the transparent index and the palette of the
parsed file, `layers()`, `frames()`, `tags()` and the images. -/
structure Sprite where
  size : UInt16 × UInt16
  depth : ColorDepth
  transparent : UInt8
  palette : Option Palette
  layers : List LLayer
  frames : List LFrame
  tags : List LTag
  images : List Image

/-- The sprite a loaded file shows. -/
def spriteOf (f : AsepriteFile) : Sprite :=
  ⟨f.size, f.file.header.colorDepth, f.file.header.transparentIndex, f.file.palette, f.layers, f.frames, f.tags, f.images⟩

/-- A blend mode that can be read: any named one, `Unknown(0)` and the codes from 20. -/
def ModeRead : BlendMode → Prop
  | .unknown n => n = 0 ∨ 19 < n.toNat
  | _ => True

/-- An animation direction that can be read: any named one, `Unknown(0)` and the codes from 5. -/
def DirectionRead : AnimationDirection → Prop
  | .unknown n => n = 0 ∨ 4 < n.toNat
  | _ => True

/-- `p` is an earlier place than `q`: in an earlier frame, or on a lower layer of the same frame. -/
def Earlier (p q : Nat × Nat) : Prop := p.1 < q.1 ∨ (p.1 = q.1 ∧ p.2 < q.2)

/-- The images are numbered by the places (frame, layer) `home` they are stored at: these are in ascending order, there
is a cel at each of them, which shows the image; every cel shows an image stored on its own layer, in its own frame or in
another one that a link (a 16 bit number) can name. -/
structure Numbered (s : Sprite) (home : List (Nat × Nat)) : Prop where
  count : home.length = s.images.length
  ascending : home.Pairwise Earlier
  stored : ∀ (k i l : Nat), home[k]? = some (i, l) →
    ∃ fr c, s.frames[i]? = some fr ∧ c ∈ fr.cels ∧ c.layerIndex = l ∧ c.imageIndex = k
  shown : ∀ (i : Nat) (fr : LFrame) (c : FrameCel), s.frames[i]? = some fr → c ∈ fr.cels →
    ∃ j, home[c.imageIndex]? = some (j, c.layerIndex) ∧ (j = i ∨ j < 2 ^ 16)

/-- What holds of every loaded sprite. -/
structure Possible (s : Sprite) : Prop where
  depth : ∀ n, s.depth = .unknown n → n ≠ 8 ∧ n ≠ 16 ∧ n ≠ 32
  palette : s.depth = .indexed → ∃ p c, s.palette = some p ∧ p.colors.length = 256 ∧
    p.colors[s.transparent.toNat]? = some c ∧ c.alpha = 0
  noPalette : s.depth ≠ .indexed → s.palette = none
  layers : ∀ l ∈ s.layers, (l.layerType = .normal ∨ l.layerType = .group) ∧ ModeRead l.blendMode ∧ FitsStr l.name
  tags : ∀ t ∈ s.tags, t.rangeStart ≤ t.rangeEnd ∧ t.repeats ≠ some 0 ∧ DirectionRead t.direction ∧ FitsStr t.name
  frames : s.frames ≠ []
  origin : ∀ fr ∈ s.frames, fr.origin = (0, 0)
  sorted : ∀ fr ∈ s.frames, (fr.cels.map (·.layerIndex)).Pairwise (· < ·)
  layerIndex : ∀ fr ∈ s.frames, ∀ c ∈ fr.cels, c.layerIndex < 2 ^ 16
  size : ∀ fr ∈ s.frames, ∀ c ∈ fr.cels, ∃ im, s.images[c.imageIndex]? = some im ∧ c.size = (im.width, im.height)
  numbered : ∃ home, Numbered s home

/-- The number of stored bytes of an image. -/
def dataLength (s : Sprite) (k : Nat) : Nat := ((s.images[k]?).map (·.data.length)).getD 0

/-- The sprite is small enough: no frame needs 4 GiB, not even if all layers and tags are stored in it. -/
def Small (s : Sprite) : Prop := ∀ fr ∈ s.frames,
  2 ^ 23 + (s.layers.map fun l => 64 + (utf8 l.name).length).sum + (s.tags.map fun t => 64 + (utf8 t.name).length).sum
    + (fr.cels.map fun c => 64 + dataLength s c.imageIndex).sum < 2 ^ 32

end Ase.Spec
