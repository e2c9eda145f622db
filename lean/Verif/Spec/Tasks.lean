import Verif.Model.Tasks

/-!
# Calls on disjoint parts of the memory
-/

namespace Ase.Spec

/-- A call on a sprite, and where its buffer is. -/
structure Request where
  sprite : AsepriteFile
  call : Call
  start : Nat
  size : Nat

/-- The bytes of its buffer. -/
def Request.part (r : Request) (memory : Bytes) : Bytes := (memory.drop r.start).take r.size

/-- What the call returns and leaves in its buffer if nothing else runs. -/
def Request.alone (r : Request) (plat : Plat) (inflate : Inflater) (hash : List HashInput → UInt64) (t : Bytes) :
    Outcome LoadImageError (Option UInt64) × Bytes :=
  match r.call with
  | .render i sel =>
    match r.sprite.renderFrame plat inflate i sel t with
    | (.ok (), t') => (.ok none, t')
    | (.err e, t') => (.err e, t')
    | (.panic k, t') => (.panic k, t')
  | .combined i =>
    match r.sprite.combinedFrameImage plat inflate hash i t with
    | (.ok h, t') => (.ok (some h), t')
    | (.err e, t') => (.err e, t')
    | (.panic k, t') => (.panic k, t')
  | .image i =>
    match r.sprite.loadImage inflate i t with
    | (.ok (), t') => (.ok none, t')
    | (.err e, t') => (.err e, t')
    | (.panic k, t') => (.panic k, t')

/-- The buffers lie in a memory of `n` bytes and do not overlap. -/
def Apart (rs : List Request) (n : Nat) : Prop :=
  (∀ r ∈ rs, r.start + r.size ≤ n) ∧
    ∀ (i j : Nat) (r s : Request), i ≠ j → rs[i]? = some r → rs[j]? = some s →
      r.start + r.size ≤ s.start ∨ s.start + s.size ≤ r.start

/-- All calls have begun, none has made a step. -/
def launch (plat : Plat) (inflate : Inflater) (hash : List HashInput → UInt64) (rs : List Request) (memory : Bytes) :
    Machine :=
  { memory, jobs := rs.map fun r => ⟨r.call.prog plat inflate hash r.sprite, r.start, r.size⟩ }

/-- What job `i` has returned, if it is finished. -/
def returned (m : Machine) (i : Nat) : Option (Outcome LoadImageError (Option UInt64)) :=
  (m.jobs[i]?).bind fun job => job.prog.result

end Ase.Spec
