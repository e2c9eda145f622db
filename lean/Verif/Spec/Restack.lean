import Verif.Spec.Redraw

/-!
# Files whose layers are those of another file, in another order
-/

namespace Ase.Spec

/-- A drawing lies on the canvas pixel `(x, y)`. -/
def Drawing.liesOn (d : Drawing) (x y : Nat) : Bool := decide (LiesOn (d.x, d.y, d.image) x y)

/-- What matters of a cel apart from its layer: position and contents. -/
def celPlace (c : CelChunk) : Int16 × Int16 × CelContent := (c.x, c.y, c.content)

/-- The second file is the first one with the layers in another order: layer `l` is now number `place l` (and layer `m` was
number `back m`).  The canvas, the palettes and the layers themselves are the same, and each frame has on layer `place l` the
cel it had on layer `l`.  So the layer numbers in the cels have changed. -/
structure Restacked (place back : Nat → Nat) (raw raw' : RawFile) : Prop where
  canvas : canvas raw = canvas raw'
  frames : raw.frames.length = raw'.frames.length
  there : ∀ l, back (place l) = l
  andBack : ∀ m, place (back m) = m
  layers : ∀ l, (Doc.layers raw')[place l]?.map layerLook = (Doc.layers raw)[l]?.map layerLook
  cels : ∀ i l, (Doc.celOf raw' i (place l)).map celPlace = (Doc.celOf raw i l).map celPlace

/-- The second selection chooses the layers the first one chooses, under their new numbers. -/
def SameChoice (place : Nat → Nat) : LayerSelection → LayerSelection → Prop
  | .visible, .visible => True
  | .all, .all => True
  | .mask m, .mask m' => ∀ l, m'[place l]? = some true ↔ m[l]? = some true
  | _, _ => False

/-- In frame `i`, any two layers that are drawn and have changed sides show nothing on a common pixel of the canvas. -/
def SidesApart (place : Nat → Nat) (raw : RawFile) (sel : LayerSelection) (i : Nat) : Prop :=
  ∀ (l m : Nat) (c d : LayerChunk) (s s' : Int16 × Int16 × Image), l < m → place m < place l →
    (Doc.layers raw)[l]? = some c → (Doc.layers raw)[m]? = some d → drawsLayer sel l c = true → drawsLayer sel m d = true →
    shown raw i l = some s → shown raw i m = some s' →
    ∀ x y, x < raw.header.width.toNat → y < raw.header.height.toNat → ¬ (LiesOn s x y ∧ LiesOn s' x y)

end Ase.Spec
