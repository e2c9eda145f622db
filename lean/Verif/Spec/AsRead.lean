import Verif.Spec.Reference

/-!
# A file without what the crate ignores

`Doc.asRead p raw` is the file `raw` with everything removed that the crate does not look at: only layers that are normal
or groups are kept (cels keep their layer numbers), layers are not nested, have no flags but "visible", which is set on the
layers selected by `p`; cels are opaque and have no z-index; the header says that layer opacities are valid and that groups
are not composed separately.  Used by C58 and C59.
-/

namespace Ase.Spec.Doc

/-- A layer, shown or hidden, in no group and without other flags. -/
def readLayer (p : LLayer → Bool) (l : LayerChunk) : LayerChunk :=
  { l with flags := ⟨if p (asLayer l) then 1 else 0⟩, childLevel := 0 }

/-- A cel without an opacity and a z-index of its own. -/
def readCel (c : CelChunk) : CelChunk := { c with opacity := 255, zIndex := 0 }

/-- A chunk; layers that are neither normal nor groups are left out. -/
def readChunk (p : LLayer → Bool) : Chunk → Option Chunk
  | .layer l => if l.layerType = .normal ∨ l.layerType = .group then some (.layer (readLayer p l)) else none
  | .cel c => some (.cel (readCel c))
  | c => some c

/-- The file as the crate reads it, with the layers selected by `p` shown. -/
def asRead (p : LLayer → Bool) (raw : RawFile) : RawFile where
  header := { raw.header with flags := 1 }
  frames := raw.frames.map fun fr => { fr with chunks := fr.chunks.filterMap (readChunk p) }

end Ase.Spec.Doc
