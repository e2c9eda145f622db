import Verif.Spec.Accuracy

/-!
# What is seen of a pixel on a background
-/

namespace Ase.Spec.Exact

/-- The colour channel one sees of a pixel in front of the background `v` (both from 0 to 1). -/
def seen (ch : Color → UInt8) (v : ℚ) (c : Color) : ℚ := unit (ch c) * unit c.a + v * (1 - unit c.a)

end Ase.Spec.Exact
