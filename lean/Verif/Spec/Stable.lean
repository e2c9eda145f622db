import Verif.Spec.Channels

/-!
# How far a small change can spread
-/

namespace Ase.Spec

/-- Two channel values differ by at most `k`. -/
def Within (k : Nat) (x y : UInt8) : Prop := x.toNat ≤ y.toNat + k ∧ y.toNat ≤ x.toNat + k

instance (k : Nat) (x y : UInt8) : Decidable (Within k x y) := inferInstanceAs (Decidable (_ ∧ _))

/-- Both strokes are painted in the same way and their colours differ by at most `e` in channel `ch`. -/
def Similar (ch : Color → UInt8) (e : Nat) (s s' : Stroke) : Prop :=
  s.mode = s'.mode ∧ s.opacity = s'.opacity ∧ s.color.a = s'.color.a ∧ Within e (ch s.color) (ch s'.color)

/-- The modes with a limit to what they make of a small change. -/
def gentle : BlendMode → Bool
  | .normal | .multiply | .screen | .overlay | .darken | .lighten | .hardLight | .softLight | .difference | .exclusion
  | .addition | .subtract => true
  | _ => false

/-- The modes that do not add differences up. -/
def level : BlendMode → Bool
  | .normal | .darken | .lighten => true
  | _ => false

/-- How far apart two pixels can be in a channel after a stroke with the mode, if they were `d` apart before and the
strokes are `e` apart. -/
def drift (m : BlendMode) (d e : Nat) : Nat :=
  match m with
  | .normal | .darken | .lighten => max d e
  | .hardLight => d + 2 * e
  | .overlay => 2 * d + e
  | .softLight => max e (4 * d + (e + 1) / 2)
  | _ => d + e

end Ase.Spec
