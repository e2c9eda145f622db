import Verif.Spec.Channels

/-!
# Neutral colours, negatives, order of strokes, darkening and lightening
-/

namespace Ase.Spec

/-- The value of a channel that a mode takes as "leave it as it is": white for the modes that multiply or divide, black for
those that add or subtract.  The modes not mentioned have none. -/
def neutral : BlendMode → Option UInt8
  | .multiply | .darken | .colorBurn | .divide => some 255
  | .screen | .lighten | .colorDodge | .difference | .exclusion | .addition | .subtract => some 0
  | _ => none

/-- A stroke in the neutral colour of its mode. -/
def Stroke.isNeutral (s : Stroke) : Bool :=
  match neutral s.mode with
  | some v => s.color.r = v && s.color.g = v && s.color.b = v
  | none => false

/-- The negative of a colour. -/
def negative (c : Color) : Color := ⟨255 - c.r, 255 - c.g, 255 - c.b, c.a⟩

/-- The mode that does to negatives what a mode does to colours, if the colour painted is made negative, too. -/
def dual : BlendMode → Option BlendMode
  | .normal => some .normal
  | .multiply => some .screen
  | .screen => some .multiply
  | .darken => some .lighten
  | .lighten => some .darken
  | .colorDodge => some .colorBurn
  | .colorBurn => some .colorDodge
  | .hardLight => some .hardLight
  | .overlay => some .overlay
  | _ => none

/-- The same if the colour painted stays as it is. -/
def reverse : BlendMode → Option BlendMode
  | .addition => some .subtract
  | .subtract => some .addition
  | .divide => some .colorBurn
  | .colorBurn => some .divide
  | _ => none

/-- `s'` does to negatives what `s` does. -/
def Negative (s s' : Stroke) : Prop :=
  s.opacity = s'.opacity ∧
    ((dual s.mode = some s'.mode ∧ s'.color = negative s.color) ∨ (reverse s.mode = some s'.mode ∧ s'.color = s.color))

/-- The modes that take the smaller or larger value, or add or subtract. -/
def unordered : BlendMode → Bool
  | .darken | .lighten | .addition | .subtract => true
  | _ => false

/-- The modes whose formula is symmetric. -/
def symmetric : BlendMode → Bool
  | .multiply | .screen | .darken | .lighten | .difference | .exclusion | .addition => true
  | _ => false

/-- The modes whose result is at most the old value. -/
def darkening : BlendMode → Bool
  | .multiply | .darken | .colorBurn | .subtract => true
  | _ => false

/-- The modes whose result is at least the old value. -/
def lightening : BlendMode → Bool
  | .screen | .lighten | .colorDodge | .addition | .divide => true
  | _ => false

end Ase.Spec
