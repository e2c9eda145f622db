import Verif.Spec.Shown

/-!
# Sprites drawn on top of each other

Used by the property C137.
-/

namespace Ase.Spec

/-- Both files have the same size and colour depth and, if they are indexed, the same palettes and transparent index. -/
def SameCanvas (raw raw' : RawFile) : Prop :=
  raw.header.width = raw'.header.width ∧ raw.header.height = raw'.header.height ∧
    raw.header.colorDepth = raw'.header.colorDepth ∧ (raw.header.colorDepth = .indexed → canvas raw = canvas raw')

instance (raw raw' : RawFile) : Decidable (SameCanvas raw raw') := by unfold SameCanvas; infer_instance

/-- The third file has the layers of the first one and, above them, the layers of the second one, and its frame `k` shows
on them what frame `i` of the first file and frame `j` of the second file show. -/
def StackedOn (low high both : RawFile) (i j k : Nat) : Prop :=
  (Doc.layers both).map layerLook = (Doc.layers low).map layerLook ++ (Doc.layers high).map layerLook ∧
    (∀ l, l < (Doc.layers low).length → shown both k l = shown low i l) ∧
    (∀ l, l < (Doc.layers high).length → shown both k ((Doc.layers low).length + l) = shown high j l)

instance (low high both : RawFile) (i j k : Nat) : Decidable (StackedOn low high both i j k) := by
  unfold StackedOn; infer_instance

end Ase.Spec
