import Verif.Spec.Render

/-!
# Rendering by hand

What a program computes that does not call `render_frame` but asks for the images with `load_image` and draws them itself,
pixel by pixel, with the positions, sizes and layers the sprite tells.  Used by C124.
-/

namespace Ase.Spec

/-- What `load_image` does for the image of a cel, on a zeroed buffer made for the size of the cel. -/
def fetch (inflate : Inflater) (f : AsepriteFile) (c : FrameCel) : Outcome LoadImageError Unit × Bytes :=
  f.loadImage inflate c.imageIndex (List.replicate (c.size.1.toNat * c.size.2.toNat * 4) 0)

/-- The colour of the canvas pixel `(x, y)` after drawing the fetched images of the cels in order over the colour `back`.
Nothing if an image is needed and not to be had, or if blending fails. -/
def byHand (plat : Plat) (inflate : Inflater) (f : AsepriteFile) (sel : LayerSelection) (x y : Nat) :
    List FrameCel → Color → Option Color
  | [], back => some back
  | cel :: cels, back =>
    match drawnOn f sel cel, coveredBy cel x y with
    | some layer, some p =>
      match fetch inflate f cel with
      | (.ok (), picture) =>
        match pixel picture p with
        | some front =>
          match blend plat layer.blendMode back front layer.opacity with
          | .ok out => byHand plat inflate f sel x y cels out
          | _ => none
        | none => none
      | _ => none
    | _, _ => byHand plat inflate f sel x y cels back

end Ase.Spec
