import Verif.Lemmas.Panics

/-!
# C03: the file header
-/

namespace Ase

open Spec

section

attribute [local irreducible] List.append

private theorem drop_ok {α : Type} {p : P α} {enc : α → Bytes} {n : Nat}
    (h : ∀ {b r : Bytes} {x : α}, p b = .ok (r, x) ↔ b = enc x ++ r) (hl : ∀ x, (enc x).length = n)
    {b : Bytes} (he : ∃ r x, p b = .ok (r, x)) : ∃ x, p b = .ok (b.drop n, x) := by
  obtain ⟨r, x, hx⟩ := he
  obtain rfl := h.1 hx
  exact ⟨x, by rw [hx]; simp [← hl x]⟩

private theorem leUint_enough {α : Type} (n : Nat) (f : Nat → α) {b : Bytes} (hb : n ≤ b.length) :
    ∃ x, (do pure (f (← leUint n)) : P α) b = .ok (b.drop n, x) := by
  refine ⟨f (leNat (b.take n)), ?_⟩
  refine P.bind_ok.2 ⟨_, _, ?_, P.pure_ok.2 ⟨rfl, rfl⟩⟩
  refine P.bind_ok.2 ⟨_, _, ?_, P.pure_ok.2 ⟨rfl, rfl⟩⟩
  simp [take, hb]

private theorem take_enough (n : Nat) {b : Bytes} (hb : n ≤ b.length) : ∃ x, take n b = .ok (b.drop n, x) :=
  ⟨b.take n, by simp [take, hb]⟩

private theorem step {α β : Type} {p : P α} {f : α → P β} {l : Bytes} {i n : Nat}
    (h : ∃ x, p (l.drop i) = .ok ((l.drop i).drop n, x)) (hf : ∀ x, ∃ r y, f x (l.drop (i + n)) = .ok (r, y)) :
    ∃ r y, (p >>= f) (l.drop i) = .ok (r, y) := by
  obtain ⟨x, hx⟩ := h
  rw [List.drop_drop] at hx
  obtain ⟨r, y, hy⟩ := hf x
  exact ⟨r, y, P.bind_ok.2 ⟨x, _, hx, hy⟩⟩

private theorem parseHeaderFields_enough {l : Bytes} (hl : l.length = 128)
    (hm : (l.drop 4).take 2 = [0xE0, 0xA5]) (hz : (l.drop 20).take 8 = [0, 0, 0, 0, 0, 0, 0, 0]) :
    ∃ r h, parseHeaderFields l = .ok (r, h) := by
  have e : ∀ {α : Type} (n : Nat) (f : Nat → α) (i : Nat), i + n ≤ 128 →
      ∃ x, (do pure (f (← leUint n)) : P α) (l.drop i) = .ok ((l.drop i).drop n, x) := fun n f i h =>
    leUint_enough n f (by simp; omega)
  have t : ∀ (n i : Nat), i + n ≤ 128 → ∃ x, take n (l.drop i) = .ok ((l.drop i).drop n, x) := fun n i h =>
    take_enough n (by simp; omega)
  have z1 : (l.drop 20).take 4 = [0, 0, 0, 0] := by
    have := congrArg (List.take 4) hz
    rwa [List.take_take] at this
  have z2 : (l.drop 24).take 4 = [0, 0, 0, 0] := by
    have := congrArg (List.drop 4) hz
    rwa [List.drop_take, List.drop_drop] at this
  show ∃ r h, parseHeaderFields (l.drop 0) = .ok (r, h)
  unfold parseHeaderFields
  refine step (i := 0) (n := 4) (e 4 _ _ (by omega)) fun fileSize => ?_
  refine step (i := 4) (n := 2) ⟨headerMagic, by unfold tag; rw [if_pos (by exact hm)]; rfl⟩ fun _ => ?_
  refine step (i := 6) (n := 2) (e 2 _ _ (by omega)) fun frames => ?_
  refine step (i := 8) (n := 2) (e 2 _ _ (by omega)) fun width => ?_
  refine step (i := 10) (n := 2) (e 2 _ _ (by omega)) fun height => ?_
  refine step (i := 12) (n := 2) ?_ fun depth => ?_
  · obtain ⟨w, hw⟩ := e 2 UInt16.ofNat 12 (by omega)
    exact ⟨.ofWord w, P.bind_ok.2 ⟨_, _, hw, P.pure_ok.2 ⟨rfl, rfl⟩⟩⟩
  refine step (i := 14) (n := 4) (e 4 _ _ (by omega)) fun flags => ?_
  refine step (i := 18) (n := 2) (e 2 _ _ (by omega)) fun speed => ?_
  refine step (i := 20) (n := 4) ⟨[0, 0, 0, 0], by unfold tag; rw [if_pos (by exact z1)]; rfl⟩ fun _ => ?_
  refine step (i := 24) (n := 4) ⟨[0, 0, 0, 0], by unfold tag; rw [if_pos (by exact z2)]; rfl⟩ fun _ => ?_
  refine step (i := 28) (n := 1) (e 1 _ _ (by omega)) fun ti => ?_
  refine step (i := 29) (n := 3) (t 3 _ (by omega)) fun _ => ?_
  refine step (i := 32) (n := 2) (e 2 _ _ (by omega)) fun cc => ?_
  refine step (i := 34) (n := 1) (e 1 _ _ (by omega)) fun pw => ?_
  refine step (i := 35) (n := 1) (e 1 _ _ (by omega)) fun ph => ?_
  refine step (i := 36) (n := 2) (e 2 _ _ (by omega)) fun gx => ?_
  refine step (i := 38) (n := 2) (e 2 _ _ (by omega)) fun gy => ?_
  refine step (i := 40) (n := 2) (e 2 _ _ (by omega)) fun gw => ?_
  refine step (i := 42) (n := 2) (e 2 _ _ (by omega)) fun gh => ?_
  refine step (i := 44) (n := 84) (t 84 _ (by omega)) fun _ => ?_
  rw [show l.drop (44 + 84) = [] from List.drop_eq_nil_of_le (by omega)]
  exact ⟨_, _, rfl⟩

/-- **C03.** `parse_header` accepts exactly the 128 byte header layout (`Spec.IsHeader` lists the field at each
offset), returns the fields and leaves what follows; it accepts exactly the inputs of at least 128 bytes with the
magic number at offset 4 and eight zero bytes at offset 20; everything else is a recoverable error, and neither the
internal assertion nor anything else panics. -/
theorem C03_header (b : Bytes) :
    (∀ (r : Bytes) (h : Header), parseHeader b = .ok (r, h) ↔ ∃ l, IsHeader h l ∧ b = l ++ r) ∧
    ((∃ (r : Bytes) (h : Header), parseHeader b = .ok (r, h)) ↔
      128 ≤ b.length ∧ (b.drop 4).take 2 = [0xE0, 0xA5] ∧ (b.drop 20).take 8 = [0, 0, 0, 0, 0, 0, 0, 0]) ∧
    (∀ (r : Bytes) (h : Header), parseHeader b = .ok (r, h) → r = b.drop 128) ∧
    (∀ k, parseHeader b ≠ .panic k) := by
  refine ⟨fun r h => parses_header b r h, ⟨?_, ?_⟩, ?_, fun k => NoPanic.parseHeader b k⟩
  · rintro ⟨r, h, hh⟩
    obtain ⟨l, hl, hb⟩ := (parses_header _ _ _).1 hh
    have hlen := isHeader_length hl
    obtain ⟨dep, ig, fu, hig, hfu, hcd, hl⟩ := hl
    refine ⟨by simp [hb, hlen], ?_, ?_⟩ <;> rw [hb, hl] <;> clear hb hl hh hlen
    · simp [le32, le16, leBytes]
    · simp [le32, le16, leBytes]
  · rintro ⟨hb, hm, hz⟩
    obtain ⟨r, h, hh⟩ := parseHeaderFields_enough (l := b.take 128) (by simp; omega)
      (by rw [List.drop_take, List.take_take]; simpa using hm) (by rw [List.drop_take, List.take_take]; simpa using hz)
    refine ⟨b.drop 128, h, P.bind_ok.2 ⟨b.take 128, b.drop 128, by simp [take, hb], P.onSlice_ok.2 ⟨rfl, r, hh⟩⟩⟩
  · intro r h hh
    obtain ⟨l, hl, rfl⟩ := (parses_header _ _ _).1 hh
    have hlen := isHeader_length hl
    rw [← hlen]; simp

end

/-- A header of a 2x1 indexed sprite with one frame, transparent index 7, grid at (-1, 2), followed by one byte. -/
example : parseHeader ([128, 0, 0, 0] ++ [0xE0, 0xA5] ++ [1, 0] ++ [2, 0] ++ [1, 0] ++ [8, 0] ++ [1, 0, 0, 0]
      ++ [100, 0] ++ [0, 0, 0, 0] ++ [0, 0, 0, 0] ++ [7] ++ [1, 2, 3] ++ [0, 1] ++ [1] ++ [2] ++ [255, 255] ++ [2, 0]
      ++ [16, 0] ++ [17, 0] ++ List.replicate 84 9 ++ [42])
    = .ok ([42], ⟨128, 1, 2, 1, .indexed, 1, 100, 7, 256, 1, 2, -1, 2, 16, 17⟩) := by decide +kernel

/-- A wrong magic number and a missing last byte are rejected. -/
example : (∀ r h, parseHeader ([128, 0, 0, 0] ++ [0xE1, 0xA5] ++ List.replicate 122 0) ≠ .ok (r, h)) ∧
    (∀ r h, parseHeader ([128, 0, 0, 0] ++ [0xE0, 0xA5] ++ List.replicate 121 0) ≠ .ok (r, h)) := by
  constructor
  · intro r h hh
    exact absurd ((C03_header _).2.1.1 ⟨r, h, hh⟩).2.1 (by decide +kernel)
  · intro r h hh
    exact absurd ((C03_header _).2.1.1 ⟨r, h, hh⟩).1 (by decide +kernel)

end Ase
