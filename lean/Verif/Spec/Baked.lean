import Verif.Spec.Strokes
import Verif.Spec.Blend

/-!
# Opacity moved into the pixels
-/

namespace Ase.Spec

/-- The colour with its alpha scaled by `o` of 255, rounded to the nearest byte. -/
def fade (o : UInt8) (c : Color) : Color := { c with a := UInt8.ofNat (times c.a.toNat o.toNat) }

/-- Two strokes of the same mode and colour whose alpha and opacity have the same rounded product. -/
def SameInk (s s' : Stroke) : Prop :=
  s.mode = s'.mode ∧ (s.color.r, s.color.g, s.color.b) = (s'.color.r, s'.color.g, s'.color.b) ∧
    times s.color.a.toNat s.opacity.toNat = times s'.color.a.toNat s'.opacity.toNat

/-- The cel `c'` of `g` is the cel `c` of `f` with the opacity of its layer moved into its pixels: it has the same place
and size, its layer has the same mode and is opaque, and its pixels are those of `c`, faded. -/
def FadedCel (inflate : Inflater) (f g : AsepriteFile) (sel sel' : LayerSelection) (c c' : FrameCel) : Prop :=
  c.origin = c'.origin ∧ c.size = c'.size ∧
    match drawnOn f sel c, drawnOn g sel' c' with
    | none, none => True
    | some l, some l' => l.blendMode = l'.blendMode ∧ l'.opacity = 255 ∧
        ∀ p < c.size.1.toNat * c.size.2.toNat,
          imageColor inflate g c'.imageIndex p = (imageColor inflate f c.imageIndex p).map (fade l.opacity)
    | _, _ => False

end Ase.Spec
