import Verif.Lemmas.Combinators

/-! # Parsers that succeed whenever there are enough bytes, and whose errors are recoverable -/

namespace Ase

/-- `p` succeeds on every input of at least `n` bytes and consumes exactly `n`. -/
def Enough {α : Type} (p : P α) (n : Nat) : Prop :=
  ∀ b : Bytes, n ≤ b.length → ∃ r x, p b = .ok (r, x) ∧ r.length + n = b.length

theorem Enough.pure {α : Type} (a : α) : Enough (Pure.pure a : P α) 0 := fun b _ => ⟨b, a, rfl, rfl⟩

theorem Enough.bind {α β : Type} {p : P α} {f : α → P β} {n m : Nat} (hp : Enough p n) (hf : ∀ x, Enough (f x) m) :
    Enough (p >>= f) (n + m) := by
  intro b hb
  obtain ⟨r, x, h, hr⟩ := hp b (by omega)
  obtain ⟨r', y, h', hr'⟩ := hf x r (by omega)
  exact ⟨r', y, by rw [P.bind_of_ok h, h'], by omega⟩

theorem Enough.take (n : Nat) : Enough (Ase.take n) n := by
  intro b hb
  exact ⟨b.drop n, b.take n, by simp [Ase.take, hb], by simp; omega⟩

theorem Enough.leUint (n : Nat) : Enough (Ase.leUint n) n := Enough.bind (Enough.take n) fun _ => Enough.pure _

/-- All errors of `p` are recoverable (`nom::Err::Error`). -/
def Recoverable {α : Type} (p : P α) : Prop := ∀ b e, p b = .err e → ∃ e', e = .error e'

theorem Recoverable.pure {α : Type} (a : α) : Recoverable (Pure.pure a : P α) := by
  intro b e h; cases h

theorem Recoverable.bind {α β : Type} {p : P α} {f : α → P β} (hp : Recoverable p) (hf : ∀ x, Recoverable (f x)) :
    Recoverable (p >>= f) := by
  intro b e h
  rcases P.bind_err.1 h with h | ⟨x, r, _, h⟩
  · exact hp _ _ h
  · exact hf _ _ _ h

theorem Recoverable.take (n : Nat) : Recoverable (Ase.take n) := by
  intro b e h; exact ⟨_, (take_err.1 h).2⟩

theorem Recoverable.leUint (n : Nat) : Recoverable (Ase.leUint n) := Recoverable.bind (Recoverable.take n) fun _ => Recoverable.pure _

end Ase
