import Verif.Spec.Encode

/-!
# Writing a file again from what was read (C121)

`fileBytes raw` (`Spec/Encode.lean`) are the bytes the format document prescribes for a header and frames.
-/

namespace Ase.Spec

/-- The chunk was read such that its contents are known: no code was replaced by zero (C19), its properties are well
formed and contain no nested maps (C16, C17). -/
def ReadFaithfully : Chunk → Prop
  | .layer c => c.blendMode ≠ .unknown 0
  | .cel c => ∀ data, c.content ≠ .unknown 0 data
  | .colorProfile c => c.profile ≠ .unknown 0
  | .externalFiles c => ∀ f ∈ c.files, f.fileType ≠ .unknown 0
  | .tags c => ∀ t ∈ c.tags, t.animationDirection ≠ .unknown 0
  | .userData c => ∀ x, c.propertiesMaps = some x → ∃ v, x = .ok v ∧ ∀ m ∈ v.2, propsMapFree m = true
  | _ => True

end Ase.Spec
