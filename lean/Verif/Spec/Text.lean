import Verif.Spec.Layout

/-!
# Texts that are not UTF-8

What `std::str::Utf8Error` says about them.
-/

namespace Ase.Spec

/-- The bytes are the UTF-8 encoding of a text. -/
def IsText (b : Bytes) : Prop := ∃ s : String, b = utf8 s

/-- More bytes can make it one. -/
def StartsText (b : Bytes) : Prop := ∃ more, IsText (b ++ more)

/-- The bytes `t` are not UTF-8; `n` is the length of the longest part at the start that is.  `k` is `none` if more bytes
could make `t` a text; else it is the number of bytes after `n` that can be the start of a character, and 1 if there is
none. -/
structure BadText (t : Bytes) (n : Nat) (k : Option UInt8) : Prop where
  bad : ¬ IsText t
  valid : IsText (t.take n)
  longest : ∀ m, n < m → ¬ IsText (t.take m)
  ends : k = none ↔ StartsText t
  wrong : ∀ j, k = some j → 1 ≤ j.toNat ∧ (1 < j.toNat → StartsText (t.take (n + j.toNat))) ∧
    ∀ i, j.toNat < i → ¬ StartsText (t.take (n + i))

/-- The UTF-8 error about a STRING field somewhere in `b`. -/
def TextError (b : Bytes) (e : ParseError) : Prop :=
  ∃ t n k, t.length < 2 ^ 16 ∧ leNat16 t.length ++ t <:+: b ∧ BadText t n k ∧ e = .utf8Error n k

theorem TextError.mono {b b' : Bytes} {e : ParseError} (h : TextError b e) (hb : b <:+: b') : TextError b' e := by
  obtain ⟨t, n, k, h1, h2, h3⟩ := h
  exact ⟨t, n, k, h1, h2.trans hb, h3⟩

end Ase.Spec
