import Verif.Spec.Alone

/-!
# Incomplete input

A caller that receives a file piece by piece calls a parser on what has arrived, and wants to know from the answer
whether waiting for more can help.
-/

namespace Ase.Spec

/-- The answer "unexpected end of input", as a recoverable error, at a place inside the input. -/
def UnexpectedEnd {α : Type} (b : Bytes) (o : Outcome NomErr α) : Prop :=
  ∃ s, s <:+ b ∧ o = .err (.error (.nom s .eof))

/-- The same answer when `more` follows the input: the value, with `more` added to what is handed back; the error; the
panic. -/
def extendBy {α : Type} (more : Bytes) : Outcome NomErr (Bytes × α) → Outcome NomErr (Bytes × α)
  | .ok (r, v) => .ok (r ++ more, v)
  | .err e => .err e
  | .panic k => .panic k

/-- Every answer but "unexpected end" is final: it stays the same whatever follows. -/
def AnswersAreFinal {α : Type} (p : P α) : Prop :=
  ∀ b more, UnexpectedEnd b (p b) ∨ p (b ++ more) = extendBy more (p b)

/-- Every error but "unexpected end", and every panic, is final. -/
def RefusalsAreFinal {α : Type} (p : P α) : Prop :=
  ∀ b more, UnexpectedEnd b (p b) ∨ (∃ r v, p b = .ok (r, v)) ∨ p (b ++ more) = p b

/-- If some continuation of the input is accepted, then the input is either accepted already, with the same value and
with the continuation untouched, or the answer is "unexpected end". -/
def TellsIncomplete {α : Type} (p : P α) : Prop :=
  ∀ b more r v, p (b ++ more) = .ok (r, v) →
    (∃ r', r = r' ++ more ∧ r' <:+ b ∧ p b = .ok (r', v)) ∨ UnexpectedEnd b (p b)

/-- The same for a call that takes all it is given: if a continuation is accepted the input is accepted too, perhaps
with another value, or the answer is "unexpected end". -/
def TellsIncompleteRest {α : Type} (p : P α) : Prop :=
  ∀ b more r v, p (b ++ more) = .ok (r, v) → (∃ v', p b = .ok ([], v')) ∨ UnexpectedEnd b (p b)

end Ase.Spec
