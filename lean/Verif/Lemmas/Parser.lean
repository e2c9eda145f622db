import Verif.Model.Core
import Verif.Model.Scalars
import Verif.Spec.Layout

/-! # Lemmas about the parser monad and the nom combinators -/

namespace Ase

open Spec (leBytes)

namespace P

theorem bind_def {α β : Type} (p : P α) (f : α → P β) : (p >>= f) = P.bind p f := rfl

theorem pure_def {α : Type} (a : α) : (Pure.pure a : P α) = P.pure a := rfl

theorem bind_ok {α β : Type} {p : P α} {f : α → P β} {b r : Bytes} {y : β} :
    (p >>= f) b = .ok (r, y) ↔ ∃ x r', p b = .ok (r', x) ∧ f x r' = .ok (r, y) := by
  simp only [bind_def, P.bind]
  cases h : p b with
  | ok v =>
    obtain ⟨r', x⟩ := v
    exact ⟨fun h => ⟨_, _, rfl, h⟩, by rintro ⟨_, _, ⟨⟩, h⟩; exact h⟩
  | err e => simp
  | panic k => simp

theorem bind_panic {α β : Type} {p : P α} {f : α → P β} {b : Bytes} {k : Panic} :
    (p >>= f) b = .panic k ↔ p b = .panic k ∨ ∃ x r', p b = .ok (r', x) ∧ f x r' = .panic k := by
  simp only [bind_def, P.bind]
  cases h : p b with
  | ok v =>
    obtain ⟨r', x⟩ := v
    refine ⟨fun h => .inr ⟨_, _, rfl, h⟩, ?_⟩
    rintro (h | ⟨_, _, ⟨⟩, h⟩)
    · cases h
    · exact h
  | err e => simp
  | panic k => simp

theorem bind_err {α β : Type} {p : P α} {f : α → P β} {b : Bytes} {e : NomErr} :
    (p >>= f) b = .err e ↔ p b = .err e ∨ ∃ x r', p b = .ok (r', x) ∧ f x r' = .err e := by
  simp only [bind_def, P.bind]
  cases h : p b with
  | ok v =>
    obtain ⟨r', x⟩ := v
    refine ⟨fun h => .inr ⟨_, _, rfl, h⟩, ?_⟩
    rintro (h | ⟨_, _, ⟨⟩, h⟩)
    · cases h
    · exact h
  | err e => simp
  | panic k => simp

theorem bind_of_ok {α β : Type} {p : P α} {f : α → P β} {b r : Bytes} {x : α} (h : p b = .ok (r, x)) :
    (p >>= f) b = f x r := by simp [bind_def, P.bind, h]

theorem bind_of_err {α β : Type} {p : P α} {f : α → P β} {b : Bytes} {e : NomErr} (h : p b = .err e) :
    (p >>= f) b = .err e := by simp [bind_def, P.bind, h]

theorem pure_ok {α : Type} {a x : α} {b r : Bytes} :
    (Pure.pure a : P α) b = .ok (r, x) ↔ b = r ∧ x = a := by
  simp [pure_def, P.pure, eq_comm]

theorem pure_apply {α : Type} {a : α} {b : Bytes} : (Pure.pure a : P α) b = .ok (b, a) := rfl

theorem fail_ok {α : Type} {e : NomErr} {b r : Bytes} {x : α} : ¬ (P.fail e : P α) b = .ok (r, x) := by
  simp [P.fail]

theorem onSlice_ok {α : Type} {p : P α} {s b r : Bytes} {x : α} :
    P.onSlice p s b = .ok (r, x) ↔ b = r ∧ ∃ r', p s = .ok (r', x) := by
  simp only [P.onSlice]
  cases h : p s with
  | ok v => obtain ⟨r', y⟩ := v; simp
  | err e => simp
  | panic k => simp

theorem onSlice_panic {α : Type} {p : P α} {s b : Bytes} {k : Panic} :
    P.onSlice p s b = .panic k ↔ p s = .panic k := by
  simp only [P.onSlice]
  cases h : p s with
  | ok v => obtain ⟨r', y⟩ := v; simp
  | err e => simp
  | panic k => simp

theorem remaining_ok {b r x : Bytes} : P.remaining b = .ok (r, x) ↔ b = r ∧ x = b := by
  simp [P.remaining, eq_comm]

theorem skipRest_ok {b r : Bytes} {u : Unit} : P.skipRest b = .ok (r, u) ↔ r = [] := by
  simp [P.skipRest, eq_comm]

end P

/-! ## `take`, `tag` -/

theorem take_ok {n : Nat} {b r x : Bytes} : take n b = .ok (r, x) ↔ x.length = n ∧ b = x ++ r := by
  unfold take
  split
  · next h =>
    simp only [Outcome.ok.injEq, Prod.mk.injEq]
    constructor
    · rintro ⟨rfl, rfl⟩; exact ⟨by simp; omega, (List.take_append_drop n b).symm⟩
    · rintro ⟨rfl, rfl⟩; simp
  · next h =>
    constructor
    · intro h'; cases h'
    · rintro ⟨rfl, rfl⟩; simp at h

theorem take_err {n : Nat} {b : Bytes} {e : NomErr} :
    take n b = .err e ↔ b.length < n ∧ e = .error (.nom b .eof) := by
  unfold take; split
  · simp; omega
  · simp [eq_comm]; omega

theorem take_panic {n : Nat} {b : Bytes} {k : Panic} : ¬ take n b = .panic k := by
  unfold take; split <;> simp

theorem take_append {n : Nat} {x r : Bytes} (h : x.length = n) : take n (x ++ r) = .ok (r, x) :=
  take_ok.2 ⟨h, rfl⟩

theorem tag_ok {t b r x : Bytes} : tag t b = .ok (r, x) ↔ x = t ∧ b = t ++ r := by
  unfold tag
  split
  · next h =>
    simp only [Outcome.ok.injEq, Prod.mk.injEq]
    constructor
    · rintro ⟨rfl, rfl⟩
      refine ⟨rfl, ?_⟩
      conv => lhs; rw [← List.take_append_drop t.length b, h]
    · rintro ⟨rfl, rfl⟩; simp
  · next h =>
    constructor
    · intro h'; cases h'
    · rintro ⟨rfl, rfl⟩; simp at h

theorem tag_panic {t b : Bytes} {k : Panic} : ¬ tag t b = .panic k := by
  unfold tag; split <;> simp

/-! ## Little-endian numbers -/

@[simp] theorem leBytes_length (n v : Nat) : (leBytes n v).length = n := by
  induction n generalizing v with
  | zero => rfl
  | succ n ih => simp [leBytes, ih]

theorem leNat_leBytes (n v : Nat) : leNat (leBytes n v) = v % 256 ^ n := by
  induction n generalizing v with
  | zero => simp [leBytes, leNat, Nat.mod_one]
  | succ n ih =>
    simp only [leBytes, leNat, ih, UInt8.toNat_ofNat']
    rw [Nat.pow_succ 256 n, Nat.mul_comm (256 ^ n), Nat.mod_mul]
    omega

theorem leNat_lt (b : Bytes) : leNat b < 256 ^ b.length := by
  induction b with
  | nil => simp [leNat]
  | cons x xs ih =>
    simp only [leNat, List.length_cons, Nat.pow_succ]
    have := x.toNat_lt
    omega

theorem leBytes_leNat (b : Bytes) : leBytes b.length (leNat b) = b := by
  induction b with
  | nil => rfl
  | cons x xs ih =>
    simp only [List.length_cons, leBytes, leNat]
    have hx := x.toNat_lt
    have h1 : (x.toNat + 256 * leNat xs) % 256 = x.toNat := by omega
    have h2 : (x.toNat + 256 * leNat xs) / 256 = leNat xs := by omega
    rw [h1, h2, ih, UInt8.ofNat_toNat]

theorem leUint_ok {n v : Nat} {b r : Bytes} :
    leUint n b = .ok (r, v) ↔ v < 256 ^ n ∧ b = leBytes n v ++ r := by
  simp only [leUint, P.bind_ok, take_ok, P.pure_ok]
  constructor
  · rintro ⟨x, r', ⟨rfl, rfl⟩, rfl, rfl⟩
    exact ⟨leNat_lt x, by rw [leBytes_leNat]⟩
  · rintro ⟨h, rfl⟩
    exact ⟨_, _, ⟨leBytes_length n v, rfl⟩, rfl, by rw [leNat_leBytes, Nat.mod_eq_of_lt h]⟩

theorem leUint_panic {n : Nat} {b : Bytes} {k : Panic} : ¬ leUint n b = .panic k := by
  simp [leUint, P.bind_panic, take_panic, P.pure_apply]

theorem leUint_err {n : Nat} {b : Bytes} {e : NomErr} :
    leUint n b = .err e ↔ b.length < n ∧ e = .error (.nom b .eof) := by
  simp [leUint, P.bind_err, take_err, P.pure_apply]

/-- A parser that maps an `n` byte little-endian number through a bijection. -/
theorem leUint_map_ok {α : Type} {n : Nat} {f : Nat → α} {g : α → Nat} (hg : ∀ a, g a < 256 ^ n)
    (hfg : ∀ a, f (g a) = a) (hgf : ∀ v, v < 256 ^ n → g (f v) = v) {b r : Bytes} {x : α} :
    (do pure (f (← leUint n)) : P α) b = .ok (r, x) ↔ b = leBytes n (g x) ++ r := by
  simp only [P.bind_ok, leUint_ok, P.pure_ok]
  constructor
  · rintro ⟨v, r', ⟨hv, rfl⟩, rfl, rfl⟩; rw [hgf v hv]
  · rintro rfl; exact ⟨g x, r, ⟨hg x, rfl⟩, rfl, (hfg x).symm⟩

end Ase
