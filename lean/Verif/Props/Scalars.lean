import Verif.Lemmas.BadText
import Verif.Lemmas.Total

/-!
# C01, C02: scalars and strings
-/

namespace Ase

open Spec

/-- The contract of a scalar parser `p` for a fixed width encoding `enc` of `n` bytes:
it returns `x` and the rest `r` exactly when the input is the encoding of `x` followed by `r`; it succeeds whenever
there are `n` bytes; with fewer bytes it returns a recoverable error. (In particular it never panics.) -/
structure FixedWidth {α : Type} (p : P α) (enc : α → Bytes) (n : Nat) : Prop where
  accepts : ∀ (b r : Bytes) (x : α), p b = .ok (r, x) ↔ b = enc x ++ r
  enough : ∀ b : Bytes, n ≤ b.length → ∃ (r : Bytes) (x : α), p b = .ok (r, x) ∧ r.length + n = b.length
  short : ∀ b : Bytes, b.length < n → ∃ e, p b = .err (.error e)

theorem FixedWidth.mk' {α : Type} {p : P α} {enc : α → Bytes} {n : Nat}
    (hok : ∀ {b r : Bytes} {x : α}, p b = .ok (r, x) ↔ b = enc x ++ r) (hen : Enough p n) (hr : Recoverable p)
    (hp : NoPanic p) (hl : ∀ x, (enc x).length = n) : FixedWidth p enc n where
  accepts := fun b r x => hok
  enough := hen
  short := by
    intro b hb
    cases h : p b with
    | ok v =>
      obtain ⟨r, x⟩ := v
      obtain rfl := hok.1 h
      simp [hl] at hb
      omega
    | err e => obtain ⟨e', rfl⟩ := hr _ _ h; exact ⟨e', rfl⟩
    | panic k => exact absurd h (hp _ _)

/-- **C01.** Every fixed width scalar parser decodes its little-endian encoding and leaves exactly the unread
bytes. -/
theorem C01_scalars :
    FixedWidth byte (fun x => [x]) 1 ∧ FixedWidth word le16 2 ∧ FixedWidth short les16 2 ∧
    FixedWidth dword le32 4 ∧ FixedWidth long les32 4 ∧ FixedWidth parseUuid le128 16 ∧
    FixedWidth fixed Spec.fixed 4 ∧ FixedWidth parsePoint Spec.point 8 ∧ FixedWidth parseSize Spec.size 8 ∧
    FixedWidth parseRect Spec.rect 16 ∧ FixedWidth parseColor Spec.color 4 ∧ FixedWidth parseRgb Spec.rgb 3 ∧
    FixedWidth leI8 les8 1 ∧ FixedWidth leU64 le64 8 ∧ FixedWidth leI64 les64 8 := by
  have eN : ∀ {α : Type} (n : Nat) (f : Nat → α), Enough (do pure (f (← leUint n)) : P α) n := fun n f =>
    Enough.bind (Enough.leUint n) fun _ => Enough.pure _
  have rN : ∀ {α : Type} (n : Nat) (f : Nat → α), Recoverable (do pure (f (← leUint n)) : P α) := fun n f =>
    Recoverable.bind (Recoverable.leUint n) fun _ => Recoverable.pure _
  have ePoint : Enough parsePoint 8 :=
    Enough.bind (n := 4) (m := 4) (eN 4 _) fun _ => Enough.bind (m := 0) (eN 4 _) fun _ => Enough.pure _
  have eSize : Enough parseSize 8 :=
    Enough.bind (n := 4) (m := 4) (eN 4 _) fun _ => Enough.bind (m := 0) (eN 4 _) fun _ => Enough.pure _
  have rPoint : Recoverable parsePoint :=
    Recoverable.bind (rN 4 _) fun _ => Recoverable.bind (rN 4 _) fun _ => Recoverable.pure _
  have rSize : Recoverable parseSize :=
    Recoverable.bind (rN 4 _) fun _ => Recoverable.bind (rN 4 _) fun _ => Recoverable.pure _
  refine ⟨.mk' byte_ok (eN 1 _) (rN 1 _) .byte fun _ => rfl, .mk' word_ok (eN 2 _) (rN 2 _) .word le16_length,
    .mk' short_ok (eN 2 _) (rN 2 _) .short les16_length, .mk' dword_ok (eN 4 _) (rN 4 _) .dword le32_length,
    .mk' long_ok (eN 4 _) (rN 4 _) .long les32_length, .mk' parseUuid_ok (eN 16 _) (rN 16 _) .parseUuid le128_length,
    .mk' fixed_ok ?_ ?_ .fixed ?_, .mk' parsePoint_ok ePoint rPoint .parsePoint ?_,
    .mk' parseSize_ok eSize rSize .parseSize ?_, .mk' parseRect_ok ?_ ?_ .parseRect ?_,
    .mk' parseColor_ok ?_ ?_ .parseColor ?_, .mk' parseRgb_ok ?_ ?_ .parseRgb ?_,
    .mk' leI8_ok (eN 1 _) (rN 1 _) .leI8 les8_length, .mk' leU64_ok (eN 8 _) (rN 8 _) .leU64 le64_length,
    .mk' leI64_ok (eN 8 _) (rN 8 _) .leI64 les64_length⟩
  · exact Enough.bind (n := 2) (m := 2) (eN 2 _) fun _ => Enough.bind (m := 0) (eN 2 _) fun _ => Enough.pure _
  · exact Recoverable.bind (rN 2 _) fun _ => Recoverable.bind (rN 2 _) fun _ => Recoverable.pure _
  · simp [Spec.fixed]
  · simp [Spec.point]
  · simp [Spec.size]
  · exact Enough.bind (n := 8) (m := 8) ePoint fun _ => Enough.bind (m := 0) eSize fun _ => Enough.pure _
  · exact Recoverable.bind rPoint fun _ => Recoverable.bind rSize fun _ => Recoverable.pure _
  · simp [Spec.rect, Spec.point, Spec.size]
  · exact Enough.bind (n := 1) (m := 3) (eN 1 _) fun _ => Enough.bind (n := 1) (m := 2) (eN 1 _) fun _ =>
      Enough.bind (n := 1) (m := 1) (eN 1 _) fun _ => Enough.bind (m := 0) (eN 1 _) fun _ => Enough.pure _
  · exact Recoverable.bind (rN 1 _) fun _ => Recoverable.bind (rN 1 _) fun _ => Recoverable.bind (rN 1 _) fun _ =>
      Recoverable.bind (rN 1 _) fun _ => Recoverable.pure _
  · simp [Spec.color]
  · exact Enough.bind (n := 1) (m := 2) (eN 1 _) fun _ => Enough.bind (n := 1) (m := 1) (eN 1 _) fun _ =>
      Enough.bind (m := 0) (eN 1 _) fun _ => Enough.pure _
  · exact Recoverable.bind (rN 1 _) fun _ => Recoverable.bind (rN 1 _) fun _ => Recoverable.bind (rN 1 _) fun _ =>
      Recoverable.pure _
  · simp [Spec.rgb]

/-- **C01 (derived).** The three parsers that read a DWORD as a number: as a `usize` the DWORD is always accepted; as a `u8`
if it is less than 256, otherwise with the given error; as a size if it is at least 4, otherwise with the given error.
The rest of the input is what follows the DWORD.  With less than four bytes each gives a recoverable error. -/
theorem C01_derived (x : UInt32) (r b : Bytes) (e : ParseError) (f : UInt32 → ParseError) :
    parseDwordAsUsize (le32 x ++ r) = .ok (r, x.toNat) ∧
    (∀ n : UInt8, n.toNat = x.toNat → parseDwordAsU8 e (le32 x ++ r) = .ok (r, n)) ∧
    (256 ≤ x.toNat → parseDwordAsU8 e (le32 x ++ r) = .err (.failure e)) ∧
    (4 ≤ x.toNat → dwordSize f (le32 x ++ r) = .ok (r, x)) ∧
    (x.toNat < 4 → dwordSize f (le32 x ++ r) = .err (.failure (f x))) ∧
    (b.length < 4 → (∃ e', parseDwordAsUsize b = .err (.error e')) ∧ (∃ e', parseDwordAsU8 e b = .err (.error e')) ∧
      ∃ e', dwordSize f b = .err (.error e')) := by
  have h : dword (le32 x ++ r) = .ok (r, x) := dword_ok.2 rfl
  refine ⟨?_, ?_, ?_, ?_, ?_, ?_⟩
  · exact P.bind_ok.2 ⟨x, r, h, rfl⟩
  · intro n hn
    refine P.bind_ok.2 ⟨x, r, h, ?_⟩
    rw [if_pos (hn ▸ n.toNat_lt), ← hn]
    simp [P.pure_ok]
  · intro hx
    simp only [parseDwordAsU8, bind, P.bind, h, if_neg (show ¬ x.toNat < 256 by omega), P.fail]
  · intro hx
    refine P.bind_ok.2 ⟨x, r, h, ?_⟩
    rw [if_pos hx]
    rfl
  · intro hx
    simp only [dwordSize, bind, P.bind, h, if_neg (show ¬ 4 ≤ x.toNat by omega), P.fail]
  · intro hb
    obtain ⟨e', he⟩ := C01_scalars.2.2.2.1.short b hb
    refine ⟨⟨e', ?_⟩, ⟨e', ?_⟩, ⟨e', ?_⟩⟩ <;> simp only [parseDwordAsUsize, parseDwordAsU8, dwordSize, bind, P.bind, he]

/-- A negative SHORT, a FIXED with integer part 1 and fraction 2, and a truncated DWORD. -/
example : short [0xFE, 0xFF, 7] = .ok ([7], -2) ∧ fixed [2, 0, 1, 0] = .ok ([], ⟨1, 2⟩) ∧
    dword [1, 2, 3] = .err (.error (.nom [1, 2, 3] .eof)) ∧
    parseDwordAsU8 .layerIndexOutOfBounds [0, 1, 0, 0, 9] = .err (.failure .layerIndexOutOfBounds) ∧
    parseDwordAsUsize [0, 1, 0, 0, 9] = .ok ([9], 256) := by decide

/-- **C02.** `parse_string` returns `s` and the rest `r` exactly when the input is a STRING field with text `s`
(WORD length, then that many bytes, which are the UTF-8 encoding of `s`) followed by `r`; otherwise it returns a
recoverable error. -/
theorem C02_string (b : Bytes) :
    (∀ (r : Bytes) (s : String), parseString b = .ok (r, s) ↔
      (utf8 s).length < 2 ^ 16 ∧ b = leNat16 (utf8 s).length ++ utf8 s ++ r) ∧
    ((¬ ∃ (s : String) (r : Bytes), (utf8 s).length < 2 ^ 16 ∧ b = leNat16 (utf8 s).length ++ utf8 s ++ r) →
      ∃ e, parseString b = .err (.error e)) := by
  have key : ∀ (r : Bytes) (s : String), parseString b = .ok (r, s) ↔
      (utf8 s).length < 2 ^ 16 ∧ b = leNat16 (utf8 s).length ++ utf8 s ++ r := fun r s => parseString_ok
  refine ⟨key, fun h => ?_⟩
  cases hp : parseString b with
  | ok v => obtain ⟨r, s⟩ := v; exact absurd ⟨s, r, (key r s).1 hp⟩ h
  | err e =>
    have hr : Recoverable parseString :=
      Recoverable.bind (Recoverable.bind (Recoverable.leUint 2) fun _ => Recoverable.pure _) fun n =>
        Recoverable.bind (Recoverable.take _) fun bs => by
          cases utf8Decode bs with
          | some => exact Recoverable.pure _
          | none => intro b e h; cases h; exact ⟨_, rfl⟩
    obtain ⟨e', rfl⟩ := hr _ _ hp
    exact ⟨e', rfl⟩
  | panic k => exact absurd hp (NoPanic.parseString _ _)

/-- **C02.** For a STRING field whose bytes `t` are not UTF-8, the error carries the length of the longest part at the
start of `t` that is UTF-8, and says whether `t` ends too early or how many bytes are wrong. -/
theorem C02_bad_text (t r : Bytes) (hl : t.length < 2 ^ 16) (n : Nat) (k : Option UInt8) :
    parseString (leNat16 t.length ++ t ++ r) = .err (.error (.utf8Error n k)) ↔ BadText t n k := by
  have hw : word (leNat16 t.length ++ (t ++ r)) = .ok (t ++ r, UInt16.ofNat t.length) := by
    rw [word_ok, le16, UInt16.toNat_ofNat', Nat.mod_eq_of_lt hl]
    rfl
  have ht : take (UInt16.ofNat t.length).toNat (t ++ r) = .ok (r, t) := by
    rw [take_ok, UInt16.toNat_ofNat', Nat.mod_eq_of_lt hl]
    exact ⟨rfl, rfl⟩
  have hp : parseString (leNat16 t.length ++ t ++ r) = (match utf8Decode t with
      | some cs => .ok (r, String.ofList cs)
      | none => .err (.error (.utf8Error (utf8Fault 0 t).1 (utf8Fault 0 t).2))) := by
    rw [List.append_assoc]
    refine (P.bind_of_ok hw).trans ((P.bind_of_ok ht).trans ?_)
    cases utf8Decode t <;> rfl
  rw [hp]
  constructor
  · intro h
    cases hu : utf8Decode t with
    | some cs => rw [hu] at h; cases h
    | none =>
      rw [hu] at h
      have hb : ¬ IsText t := by rw [isText_iff, hu]; simp
      obtain ⟨m, e1, e2⟩ := fault_spec 0 t hb
      rw [Nat.zero_add] at e1
      simp only [e1, Outcome.err.injEq, NomErr.error.injEq, ParseError.utf8Error.injEq] at h
      rw [← h.1, ← h.2]
      exact e2
  · intro h
    have hu : utf8Decode t = none := by
      have := h.bad
      rw [isText_iff] at this
      simpa using this
    rw [hu]
    obtain ⟨m, e1, e2⟩ := fault_spec 0 t h.bad
    obtain ⟨rfl, hk⟩ := h.unique e2
    rw [hk, e1, Nat.zero_add]

/-- "é" (two bytes) is accepted; an overlong encoding, a surrogate and a truncated sequence are not. -/
example : parseString [2, 0, 0xC3, 0xA9, 9] = .ok ([9], "é") ∧
    parseString [2, 0, 0xC0, 0xAF] = .err (.error (.utf8Error 0 (some 1))) ∧
    parseString [4, 0, 65, 0xED, 0xA0, 0x80] = .err (.error (.utf8Error 1 (some 1))) ∧
    parseString [1, 0, 0xE2] = .err (.error (.utf8Error 0 none)) := by decide +kernel

end Ase
