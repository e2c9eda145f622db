import Verif.Lemmas.Utf8

/-! # `count`, `cond`, `many1`, `all_consuming`, panics -/

namespace Ase

open Spec

/-- `p` accepts exactly the byte strings of the layout relation `G`, and leaves what follows. -/
def Parses {α : Type} (p : P α) (G : α → Bytes → Prop) : Prop :=
  ∀ (b r : Bytes) (x : α), p b = .ok (r, x) ↔ ∃ l, G x l ∧ b = l ++ r

theorem Parses.of_eq {α : Type} {p : P α} {enc : α → Bytes}
    (h : ∀ {b r : Bytes} {x : α}, p b = .ok (r, x) ↔ b = enc x ++ r) : Parses p (fun x l => l = enc x) := by
  intro b r x; rw [h]
  exact ⟨fun h => ⟨_, rfl, h⟩, by rintro ⟨_, rfl, h⟩; exact h⟩

/-- A consequence of the layout of single elements holds for every element of a sequence. -/
theorem seq_forall {α : Type} {G : α → Bytes → Prop} {xs : List α} {l : Bytes} (h : Seq G xs l) {Q : α → Prop}
    (hq : ∀ x l, G x l → Q x) : ∀ x ∈ xs, Q x := by
  induction h with
  | nil => intro x hx; cases hx
  | cons hx _ ih =>
    intro t ht
    rcases List.mem_cons.1 ht with rfl | ht
    · exact hq _ _ hx
    · exact ih t ht

theorem Parses.count {α : Type} {p : P α} {G : α → Bytes → Prop} (h : Parses p G) (n : Nat)
    (b r : Bytes) (xs : List α) :
    count p n b = .ok (r, xs) ↔ xs.length = n ∧ ∃ l, Seq G xs l ∧ b = l ++ r := by
  induction n generalizing b r xs with
  | zero =>
    simp only [Ase.count, P.pure_ok]
    constructor
    · rintro ⟨rfl, rfl⟩; exact ⟨rfl, [], .nil, rfl⟩
    · rintro ⟨hl, l, hs, rfl⟩
      cases xs with
      | nil => cases hs; exact ⟨rfl, rfl⟩
      | cons => simp at hl
  | succ n ih =>
    simp only [Ase.count, P.bind_ok, P.pure_ok]
    constructor
    · rintro ⟨x, r1, h1, xs', r2, h2, rfl, rfl⟩
      rw [h] at h1
      obtain ⟨l, hl, rfl⟩ := h1
      rw [ih] at h2
      obtain ⟨rfl, l', hl', rfl⟩ := h2
      exact ⟨rfl, l ++ l', .cons hl hl', by simp⟩
    · rintro ⟨hl, l, hs, rfl⟩
      cases hs with
      | nil => simp at hl
      | @cons x xs' lb ls hx hxs =>
        refine ⟨x, ls ++ r, (h _ _ _).2 ⟨lb, hx, by simp⟩, xs', r, (ih _ _ _).2 ⟨by simpa using hl, ls, hxs, rfl⟩,
          rfl, rfl⟩

/-- A parser that runs under a guard. -/
theorem Parses.cond {α : Type} {p : P α} {G : α → Bytes → Prop} (h : Parses p G) (c : Bool)
    (b r : Bytes) (x : Option α) :
    cond c p b = .ok (r, x) ↔
      (c = true ∧ ∃ y l, x = some y ∧ G y l ∧ b = l ++ r) ∨ (c = false ∧ x = none ∧ b = r) := by
  cases c with
  | true =>
    rw [Ase.cond, if_pos rfl]
    simp only [P.bind_ok, P.pure_ok]
    constructor
    · rintro ⟨y, _, hy, rfl, rfl⟩
      obtain ⟨l, hl, rfl⟩ := (h _ _ _).1 hy
      exact .inl ⟨trivial, y, l, rfl, hl, rfl⟩
    · rintro (⟨_, y, l, rfl, hl, rfl⟩ | ⟨h, _⟩)
      · exact ⟨y, r, (h _ _ _).2 ⟨l, hl, rfl⟩, rfl, rfl⟩
      · cases h
  | false =>
    simp [Ase.cond, P.pure_ok, and_comm]

theorem allConsuming_ok {α : Type} {p : P α} {b r : Bytes} {x : α} :
    allConsuming p b = .ok (r, x) ↔ r = [] ∧ p b = .ok ([], x) := by
  unfold allConsuming
  cases h : p b with
  | ok v =>
    obtain ⟨r', y⟩ := v
    cases r' with
    | nil => simp [eq_comm]
    | cons => simp
  | err e => simp
  | panic k => simp

/-! ## `many1` -/

theorem many1Loop_eq {α : Type} (p : P α) (b : Bytes) : many1Loop p b =
    match p b with
    | .ok (r, x) =>
      if r.length < b.length then
        match many1Loop p r with
        | .ok (r', xs) => .ok (r', x :: xs)
        | .err e => .err e
        | .panic k => .panic k
      else .err (.error (.nom b .many1))
    | .err (.error _) => .ok (b, [])
    | .err (.failure e) => .err (.failure e)
    | .panic k => .panic k := by
  rw [many1Loop]
  split
  · next r x h =>
    rw [h]
    dsimp only
    split
    · cases many1Loop p r <;> rfl
    · rfl
  · next e h => rw [h]
  · next e h => rw [h]
  · next k h => rw [h]

/-! ## Panics -/

/-- The parser never panics. -/
def NoPanic {α : Type} (p : P α) : Prop := ∀ (b : Bytes) (k : Panic), p b ≠ .panic k

namespace NoPanic

theorem pure {α : Type} (a : α) : NoPanic (Pure.pure a : P α) := by
  intro b k h; cases h

theorem bind {α β : Type} {p : P α} {f : α → P β} (hp : NoPanic p) (hf : ∀ x, NoPanic (f x)) :
    NoPanic (p >>= f) := by
  intro b k h
  rcases P.bind_panic.1 h with h | ⟨x, r, _, h⟩
  · exact hp _ _ h
  · exact hf _ _ _ h

theorem fail {α : Type} (e : NomErr) : NoPanic (P.fail e : P α) := by
  intro b k h; cases h

theorem take (n : Nat) : NoPanic (Ase.take n) := fun _ _ => take_panic

theorem tag (t : Bytes) : NoPanic (Ase.tag t) := fun _ _ => tag_panic

theorem leUint (n : Nat) : NoPanic (Ase.leUint n) := fun _ _ => leUint_panic

theorem remaining : NoPanic P.remaining := by intro b k h; cases h

theorem skipRest : NoPanic P.skipRest := by intro b k h; cases h

theorem onSlice {α : Type} {p : P α} (hp : NoPanic p) (s : Bytes) : NoPanic (P.onSlice p s) := by
  intro b k h; exact hp _ _ (P.onSlice_panic.1 h)

theorem ite {α : Type} {c : Prop} [Decidable c] {p q : P α} (hp : NoPanic p) (hq : NoPanic q) :
    NoPanic (if c then p else q) := by split <;> assumption

theorem count {α : Type} {p : P α} (hp : NoPanic p) (n : Nat) : NoPanic (Ase.count p n) := by
  induction n with
  | zero => exact pure []
  | succ n ih => exact bind hp fun x => bind ih fun xs => pure _

theorem cond {α : Type} {p : P α} (c : Bool) (hp : NoPanic p) : NoPanic (Ase.cond c p) :=
  ite (bind hp fun _ => pure _) (pure _)

theorem many1Loop {α : Type} {p : P α} (hp : NoPanic p) : NoPanic (Ase.many1Loop p) := by
  intro b
  induction h : b.length using Nat.strongRecOn generalizing b with
  | _ n ih =>
  subst h
  intro k h
  rw [many1Loop_eq] at h
  split at h
  · next r x _ =>
    split at h
    · next hl =>
      split at h
      · cases h
      · cases h
      · next k' hk => exact ih _ hl r rfl _ hk
    · cases h
  · cases h
  · cases h
  · next k' hk => exact hp _ _ hk

theorem many1 {α : Type} {p : P α} (hp : NoPanic p) : NoPanic (Ase.many1 p) :=
  bind hp fun _ => bind (many1Loop hp) fun _ => pure _

theorem allConsuming {α : Type} {p : P α} (hp : NoPanic p) : NoPanic (Ase.allConsuming p) := by
  intro b k h
  unfold Ase.allConsuming at h
  split at h
  · cases h
  · cases h
  · cases h
  · next k' hk => exact hp _ _ hk

theorem byte : NoPanic Ase.byte := bind (leUint _) fun _ => pure _
theorem word : NoPanic Ase.word := bind (leUint _) fun _ => pure _
theorem short : NoPanic Ase.short := bind (leUint _) fun _ => pure _
theorem dword : NoPanic Ase.dword := bind (leUint _) fun _ => pure _
theorem long : NoPanic Ase.long := bind (leUint _) fun _ => pure _
theorem leI8 : NoPanic Ase.leI8 := bind (leUint _) fun _ => pure _
theorem leU64 : NoPanic Ase.leU64 := bind (leUint _) fun _ => pure _
theorem leI64 : NoPanic Ase.leI64 := bind (leUint _) fun _ => pure _
theorem parseUuid : NoPanic Ase.parseUuid := bind (leUint _) fun _ => pure _
theorem parseDwordAsUsize : NoPanic Ase.parseDwordAsUsize := bind dword fun _ => pure _
theorem fixed : NoPanic Ase.fixed := bind word fun _ => bind word fun _ => pure _
theorem parsePoint : NoPanic Ase.parsePoint := bind long fun _ => bind long fun _ => pure _
theorem parseSize : NoPanic Ase.parseSize := bind long fun _ => bind long fun _ => pure _
theorem parseRect : NoPanic Ase.parseRect := bind parsePoint fun _ => bind parseSize fun _ => pure _
theorem parseColor : NoPanic Ase.parseColor :=
  bind byte fun _ => bind byte fun _ => bind byte fun _ => bind byte fun _ => pure _
theorem parseRgb : NoPanic Ase.parseRgb :=
  bind byte fun _ => bind byte fun _ => bind byte fun _ => pure _
theorem dwordSize (f : UInt32 → ParseError) : NoPanic (Ase.dwordSize f) :=
  bind dword fun _ => ite (pure _) (fail _)
theorem parseDwordAsU8 (e : ParseError) : NoPanic (Ase.parseDwordAsU8 e) :=
  bind dword fun _ => ite (pure _) (fail _)
theorem parseString : NoPanic Ase.parseString :=
  bind word fun _ => bind (take _) fun bs => by
    cases utf8Decode bs with
    | some => exact pure _
    | none => exact fail _

end NoPanic

end Ase
