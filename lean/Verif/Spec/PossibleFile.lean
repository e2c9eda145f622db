import Verif.Spec.Encode
import Verif.Spec.Possible

/-!
# Which files can be parsed (C132)
-/

namespace Ase.Spec

/-- A layer that can be read: a tileset index for tilemap layers only, seven flags, a name of less than 64 KiB. -/
def LayerRead (l : LayerChunk) : Prop :=
  l.flags.bits ≤ 0x7F ∧ FitsLayerType l.layerType ∧ ModeRead l.blendMode ∧ FitsStr l.name ∧
    (l.tilesetIndex.isSome ↔ l.layerType = .tilemap)

/-- A cel that can be read: anything, but an unknown type is 0 or more than 4. -/
def CelRead (c : CelChunk) : Prop := ∀ t d, c.content = .unknown t d → t = 0 ∨ 4 < t.toNat

/-- A tag that can be read: its range is not inverted. -/
def TagRead (t : Tag) : Prop :=
  t.framesStart.toNat ≤ t.framesEnd.toNat ∧ DirectionRead t.animationDirection ∧ FitsStr t.name

/-- A slice that can be read: its keys have nine-patch and pivot data exactly if the two flags say so. -/
def SliceRead (s : SliceChunk) : Prop :=
  s.sliceKeys.length < 2 ^ 32 ∧ s.flags.bits ≤ 3 ∧ FitsStr s.name ∧
    ∀ k ∈ s.sliceKeys, (k.ninePatch.isSome ↔ bit32 s.flags.bits 0) ∧ (k.pivot.isSome ↔ bit32 s.flags.bits 1)

/-- `u` is the user data of something in the file. -/
def UserDataOf (f : File) (u : UserDataChunk) : Prop :=
  f.userData = some u ∨ (∃ l ∈ f.layers, l.userData = some u) ∨ (∃ t ∈ f.tags, t.userData = some u) ∨
    (∃ s ∈ f.slices, s.userData = some u) ∨ ∃ fr ∈ f.frames, ∃ c, some c ∈ fr.cels ∧ c.userData = some u

/-- What holds of every parsed file.  Everything else is arbitrary: the other fields of the header, the durations, and
which layers, tags, slices and cels have user data. -/
structure PossibleFile (plat : Plat) (f : File) : Prop where
  depth : ∀ n, f.header.colorDepth = .unknown n → n ≠ 8 ∧ n ≠ 16 ∧ n ≠ 32
  palette : f.header.colorDepth = .indexed → ∃ p c, f.palette = some p ∧ p.colors.length = 256 ∧
    p.colors[f.header.transparentIndex.toNat]? = some c ∧ c.alpha = 0
  noPalette : f.header.colorDepth ≠ .indexed → f.palette = none
  layers : ∀ l ∈ f.layers, LayerRead l
  tags : ∀ t ∈ f.tags, TagRead t
  slices : ∀ s ∈ f.slices, SliceRead s
  frames : f.frames ≠ []
  slots : ∀ fr ∈ f.frames, fr.cels.length = f.layers.length
  cels : ∀ fr ∈ f.frames, ∀ (i : Nat) (c : CelChunk), fr.cels[i]? = some (some c) → c.layerIndex.toNat = i ∧ CelRead c
  userData : ∀ u, UserDataOf f u → ∃ body, body.length < 2 ^ 32 ∧ readsUserData plat u body

/-- The size of some optional user data. -/
def sizeOf? (size : UserDataChunk → Nat) (u : Option UserDataChunk) : Nat := (u.map size).getD 0

/-- The file is small enough: with user data stored in chunks of the given sizes no frame needs 4 GiB, not even if all
layers, tags and slices are stored in it. -/
def SmallFile (plat : Plat) (f : File) : Prop := ∃ size : UserDataChunk → Nat,
  (∀ u, UserDataOf f u → ∃ body, readsUserData plat u body ∧ 6 + body.length ≤ size u) ∧
  ∀ fr ∈ f.frames, 2 ^ 16 + sizeOf? size f.userData
    + (f.layers.map fun l => 64 + (utf8 l.name).length + sizeOf? size l.userData).sum
    + (f.tags.map fun t => 64 + (utf8 t.name).length + sizeOf? size t.userData).sum
    + (f.slices.map fun s => 64 + (utf8 s.name).length + 64 * s.sliceKeys.length + sizeOf? size s.userData).sum
    + ((fr.cels.filterMap id).map fun c => 64 + (celContentBytes c.content).length + sizeOf? size c.userData).sum < 2 ^ 32

end Ase.Spec
