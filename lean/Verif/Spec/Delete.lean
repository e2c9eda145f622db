import Verif.Spec.Restack

/-!
# Files from which layers were deleted (C122)
-/

namespace Ase.Spec

/-- The second file is the first one without some layers: the layers numbered `keep` were kept, from the bottom to the top,
the others were deleted with their cels.  Layer `m` of the second file is the one which was number `keep[m]`. -/
structure LayersDeleted (keep : List Nat) (raw raw' : RawFile) : Prop where
  canvas : canvas raw = canvas raw'
  frames : raw.frames.length = raw'.frames.length
  order : keep.Pairwise (· < ·)
  exist : ∀ l ∈ keep, l < (Doc.layers raw).length
  layers : ∀ m : Nat, (Doc.layers raw')[m]?.map layerLook = keep[m]?.bind fun l => (Doc.layers raw)[l]?.map layerLook
  cels : ∀ i m, (Doc.celOf raw' i m).map celPlace = keep[m]?.bind fun l => (Doc.celOf raw i l).map celPlace

end Ase.Spec
