import Verif.Model.Loader

/-!
# Asking a predicate about layers
-/

namespace Ase.Spec

/-- The predicate is asked about the first `n` of the layers, once each and in order, going through the states `states`,
and gives the answers `answers`. -/
def Asked {σ : Type} (p : LLayer → σ → Run Bool × σ) (layers : List LLayer) (n : Nat) (states : Nat → σ)
    (answers : List Bool) : Prop :=
  answers.length = n ∧ ∀ i, i < n → ∃ layer b, layers[i]? = some layer ∧ answers[i]? = some b ∧
    p layer (states i) = (.ok b, states (i + 1))

end Ase.Spec
