import Verif.Spec.Strokes

/-!
# Cels cut into pieces and trimmed
-/

namespace Ase.Spec

/-- The colour a cel has at the place `(x, y)` of the canvas, if it covers it. -/
def celColor (inflate : Inflater) (f : AsepriteFile) (c : FrameCel) (x y : Nat) : Option Color :=
  (coveredBy c x y).bind (imageColor inflate f c.imageIndex)

/-- How a cel is painted: mode and opacity of its layer, if it is drawn. -/
def celInk (f : AsepriteFile) (sel : LayerSelection) (c : FrameCel) : Option (BlendMode × UInt8) :=
  (drawnOn f sel c).map fun l => (l.blendMode, l.opacity)

/-- The cels `ds` are pieces of the cel `c`: they are painted like it, and at every place one of them has the colour it
has, and only one, or none where it has none. -/
def CutInto (inflate : Inflater) (f g : AsepriteFile) (sel sel' : LayerSelection) (c : FrameCel) (ds : List FrameCel) :
    Prop :=
  (∀ d ∈ ds, celInk g sel' d = celInk f sel c) ∧
    ∀ x y, ds.filterMap (celColor inflate g · x y) = (celColor inflate f c x y).toList

/-- The cel `d` is the part of the cel `c` that begins `ox` pixels from its left and `oy` pixels from its upper edge. -/
def Crop (inflate : Inflater) (f g : AsepriteFile) (c d : FrameCel) (ox oy : Nat) : Prop :=
  d.origin.1.toInt = c.origin.1.toInt + ox ∧ d.origin.2.toInt = c.origin.2.toInt + oy ∧
    ox + d.size.1.toNat ≤ c.size.1.toNat ∧ oy + d.size.2.toNat ≤ c.size.2.toNat ∧
    ∀ i j, i < d.size.1.toNat → j < d.size.2.toNat →
      imageColor inflate g d.imageIndex (j * d.size.1.toNat + i) =
        imageColor inflate f c.imageIndex ((j + oy) * c.size.1.toNat + (i + ox))

/-- The cel `d` is the cel `c` without some fully transparent pixels around. -/
def Trimmed (inflate : Inflater) (f g : AsepriteFile) (sel sel' : LayerSelection) (c d : FrameCel) : Prop :=
  celInk g sel' d = celInk f sel c ∧ ∃ ox oy, Crop inflate f g c d ox oy ∧
    ∀ i j, i < c.size.1.toNat → j < c.size.2.toNat →
      ¬ (ox ≤ i ∧ i < ox + d.size.1.toNat ∧ oy ≤ j ∧ j < oy + d.size.2.toNat) →
      ∀ color, imageColor inflate f c.imageIndex (j * c.size.1.toNat + i) = some color → color.a = 0

end Ase.Spec
