import Verif.Spec.Layout

/-!
# The texts `load` puts in its errors
-/

namespace Ase.Spec

/-- The bytes in decimal: `[1, 2, 255]`. -/
def bytesText (b : Bytes) : String := "[" ++ ", ".intercalate (b.map fun x => toString x.toNat) ++ "]"

/-- A space to a tilde: no line breaks, no control characters, ASCII. -/
def Printable (s : String) : Prop := ∀ c ∈ s.toList, 32 ≤ c.toNat ∧ c.toNat ≤ 126

end Ase.Spec
