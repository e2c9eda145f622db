/-!
# Outcomes, errors and nom combinators

The Rust code is built on nom 8.  This file models `Result`/`nom::Err`, panics, and the nom combinators
the crate uses (all from `nom::*::complete`), see `src/binary/errors.rs` and the imports of every parser.
-/

namespace Ase

/-- `&[u8]`. -/
abbrev Bytes := List UInt8

/-- The ways in which Rust code in the crate can panic or abort. -/
inductive Panic where
  /-- arithmetic overflow with overflow checks on (debug builds) -/
  | overflow
  /-- slice, array or `Vec` index or range out of bounds -/
  | indexOutOfBounds
  /-- `copy_from_slice` with different lengths -/
  | lengthMismatch
  /-- `Result::unwrap` on an `Err` -/
  | unwrapOnErr
  /-- `assert!`/`assert_eq!` -/
  | assertFailed
  /-- `debug_assert!` (debug builds only) -/
  | debugAssertFailed
  /-- integer division by zero -/
  | divByZero
  /-- `panic!("unimplemented blend mode: ..")` -/
  | explicitPanic
  /-- the thread's stack is exhausted (the process aborts) -/
  | stackOverflow
deriving DecidableEq, Repr

/-- The result of running a Rust function returning `Result<α, ε>`. -/
inductive Outcome (ε α : Type) where
  | ok (a : α)
  | err (e : ε)
  | panic (k : Panic)
deriving DecidableEq, Repr

namespace Outcome

/-- The `?` operator. -/
def bind {ε α β : Type} (x : Outcome ε α) (f : α → Outcome ε β) : Outcome ε β :=
  match x with
  | ok a => f a
  | err e => err e
  | panic k => panic k

instance {ε : Type} : Monad (Outcome ε) where
  pure := ok
  bind := Outcome.bind

/-- `Result::map_err`. -/
def mapErr {ε ε' α : Type} (f : ε → ε') : Outcome ε α → Outcome ε' α
  | ok a => ok a
  | err e => err (f e)
  | panic k => panic k

/-- `Result::unwrap` (the error type of the result is arbitrary, no error can be left). -/
def unwrap {ε ε' α : Type} : Outcome ε α → Outcome ε' α
  | ok a => ok a
  | err _ => panic .unwrapOnErr
  | panic k => panic k

end Outcome

/-- What a run depends on besides its input: the build profile (`debug` = overflow checks and
`debug_assert!` enabled) and the number of nested calls of the recursive property parsers the
thread's stack can hold.  `usize` is 64 bits wide. -/
structure Plat where
  debug : Bool
  stack : Nat
deriving DecidableEq, Repr

/-- `nom::error::ErrorKind`, the kinds that can occur in this crate. -/
inductive ErrorKind where
  | eof | tag | many1
deriving DecidableEq, Repr

/-- `src/binary/palette.rs:133-147` `PaletteError`. -/
inductive PaletteError where
  | missing
  | empty
  | firstColorIndexOutOfBounds
  | lastColorIndexOutOfBounds
  | firstColorIndexGreaterThanLastColorIndex
  | indexOutOfBounds
deriving DecidableEq, Repr

/-- `src/binary/errors.rs:10-37` `ParseError`; for `Utf8Error` its fields `valid_up_to` and
`error_len`. -/
inductive ParseError where
  | dwordToUsize (n : UInt32)
  | invalidFrameSize (n : UInt32)
  | invalidChunkSize (n : UInt32)
  | utf8Error (validUpTo : Nat) (errorLen : Option UInt8)
  | paletteError (e : PaletteError)
  | invalidFrameRange (a b : UInt16)
  | layerIndexOutOfBounds
  | invalidPropertyType (n : UInt16)
  | nom (input : Bytes) (kind : ErrorKind)
deriving DecidableEq, Repr

/-- `nom::Err<ParseError>`.  `Incomplete` is never produced by `complete` parsers. -/
inductive NomErr where
  | error (e : ParseError)
  | failure (e : ParseError)
deriving DecidableEq, Repr

/-- `src/binary/errors.rs:56` `ParseResult<'a, O> = IResult<&'a [u8], O, ParseError<'a>>`, as the type of
parsers: a function from the input to the rest of the input and a value. -/
def P (α : Type) : Type := Bytes → Outcome NomErr (Bytes × α)

namespace P

/-- `Ok((input, a))`. -/
def pure {α : Type} (a : α) : P α := fun b => .ok (b, a)

/-- `let (input, a) = p(input)?; ...`. -/
def bind {α β : Type} (p : P α) (f : α → P β) : P β := fun b =>
  match p b with
  | .ok (r, a) => f a r
  | .err e => .err e
  | .panic k => .panic k

instance : Monad P where
  pure := P.pure
  bind := P.bind

/-- `return Err(e)`. -/
def fail {α : Type} (e : NomErr) : P α := fun _ => .err e

/-- A panic inside a parser. -/
def panic {α : Type} (k : Panic) : P α := fun _ => .panic k

/-- `p(slice)?.1`: run `p` on another slice, drop what it leaves, keep the current input. -/
def onSlice {α : Type} (p : P α) (slice : Bytes) : P α := fun b =>
  match p slice with
  | .ok (_, a) => .ok (b, a)
  | .err e => .err e
  | .panic k => .panic k

/-- The whole current input as a value (`data: input`); it stays the current input. -/
def remaining : P Bytes := fun b => .ok (b, b)

/-- `Ok((&input[input.len()..], ..))`: drop the rest of the input. -/
def skipRest : P Unit := fun _ => .ok ([], ())

end P

/-- `nom::bytes::complete::take(n)`: the first `n` bytes, `Error(Eof)` if there are fewer. -/
def take (n : Nat) : P Bytes := fun b =>
  if n ≤ b.length then .ok (b.drop n, b.take n) else .err (.error (.nom b .eof))

/-- `nom::bytes::complete::tag(t)`: the input must start with `t`. -/
def tag (t : Bytes) : P Bytes := fun b =>
  if b.take t.length = t then .ok (b.drop t.length, t) else .err (.error (.nom b .tag))

/-- `nom::multi::count(p, n)`: exactly `n` times `p`; the first error is returned unchanged
(`ParseError::append` keeps the inner error, `src/binary/errors.rs:45-47`). -/
def count {α : Type} (p : P α) : Nat → P (List α)
  | 0 => pure []
  | n + 1 => do
    let x ← p
    let xs ← count p n
    pure (x :: xs)

/-- `nom::combinator::cond(c, p)`. -/
def cond {α : Type} (c : Bool) (p : P α) : P (Option α) :=
  if c then do
    let x ← p
    pure (some x)
  else pure none

/-- The loop of `nom::multi::many1` after its first element: stop without error at the first
recoverable error, propagate failures, report `Many1` if an element consumed nothing.
(A parser never returns more input than it got; the model treats that impossible case like
"consumed nothing".) -/
def many1Loop {α : Type} (p : P α) (b : Bytes) : Outcome NomErr (Bytes × List α) :=
  match p b with
  | .ok (r, x) =>
    if _h : r.length < b.length then
      match many1Loop p r with
      | .ok (r', xs) => .ok (r', x :: xs)
      | .err e => .err e
      | .panic k => .panic k
    else .err (.error (.nom b .many1))
  | .err (.error _) => .ok (b, [])
  | .err (.failure e) => .err (.failure e)
  | .panic k => .panic k
termination_by b.length

/-- `nom::multi::many1(p)`. -/
def many1 {α : Type} (p : P α) : P (List α) := do
  let x ← p
  let xs ← many1Loop p
  pure (x :: xs)

/-- `nom::combinator::all_consuming(p)` (`complete` around it changes nothing as `Incomplete` does not
occur). -/
def allConsuming {α : Type} (p : P α) : P α := fun b =>
  match p b with
  | .ok ([], a) => .ok ([], a)
  | .ok (r, _) => .err (.error (.nom r .eof))
  | .err e => .err e
  | .panic k => .panic k

end Ase
