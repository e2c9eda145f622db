import Verif.Spec.Strokes

/-!
# Comparing strokes in one colour channel
-/

namespace Ase.Spec

/-- `ch` selects a colour channel. -/
def IsChannel (ch : Color → UInt8) : Prop := ch = Color.r ∨ ch = Color.g ∨ ch = Color.b

/-- The first stroke has the same in channel `ch` as the second one in channel `ch'`, and both are painted in the same
way. -/
def Alike (ch ch' : Color → UInt8) (s s' : Stroke) : Prop :=
  s.mode = s'.mode ∧ s.opacity = s'.opacity ∧ s.color.a = s'.color.a ∧ ch s.color = ch' s'.color

/-- The second stroke is at least as bright as the first one in channel `ch`, and both are painted in the same way. -/
def NotBrighter (ch : Color → UInt8) (s s' : Stroke) : Prop :=
  s.mode = s'.mode ∧ s.opacity = s'.opacity ∧ s.color.a = s'.color.a ∧ ch s.color ≤ ch s'.color

/-- The modes whose result rises with both colours. -/
def rising : BlendMode → Bool
  | .normal | .multiply | .screen | .overlay | .darken | .lighten | .colorDodge | .colorBurn | .hardLight
  | .softLight | .addition => true
  | _ => false

end Ase.Spec
