import Verif.Spec.Render

/-!
# A pixel that is being written
-/

namespace Ase.Spec

/-- The first `k` channels are those of `new` already, the others still those of `old`. -/
def torn (k : Nat) (old new : Color) : Color :=
  ⟨if 0 < k then new.r else old.r, if 1 < k then new.g else old.g, if 2 < k then new.b else old.b,
    if 3 < k then new.a else old.a⟩

end Ase.Spec
